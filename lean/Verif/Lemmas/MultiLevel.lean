import Verif.Model.MultiLevel
import Verif.Lemmas.IndexGen
/-! Helper lemmas for the mip-level structures. -/
namespace DexRT

/-! ### Packed entries -/

theorem mask_bit (E i : Nat) (hi : i < 64) : (entryMask E).getLsbD i = decide (i < E) := by
  unfold entryMask
  rw [BitVec.getLsbD_ofNat, Nat.testBit_two_pow_sub_one]; simp [hi]

theorem pack_fold_bit (E : Nat) (v : Nat → BitVec 64) (n e0 j : Nat) (hj : j < E) (hi : e0 * E + j < 64) :
    ((List.range n).foldl (fun w e => w ||| ((v e &&& entryMask E) <<< (e * E))) (0 : BitVec 64)).getLsbD
      (e0 * E + j) = (decide (e0 < n) && (v e0).getLsbD j) := by
  induction n with
  | zero => simp
  | succ n ih =>
    rw [List.range_succ, List.foldl_append]
    simp only [List.foldl_cons, List.foldl_nil, BitVec.getLsbD_or, ih, BitVec.getLsbD_shiftLeft,
      BitVec.getLsbD_and, hi, decide_true, Bool.true_and]
    rcases Nat.lt_trichotomy n e0 with h | h | h
    · have h1 : (n + 1) * E ≤ e0 * E := Nat.mul_le_mul_right _ h
      have h2 : E ≤ e0 * E + j - n * E := by rw [Nat.add_mul] at h1; omega
      rw [mask_bit _ _ (by omega)]
      have : ¬ (e0 < n) := by omega
      have : ¬ (e0 < n + 1) := by omega
      have : ¬ (e0 * E + j - n * E < E) := by omega
      simp [*]
    · subst h
      rw [show n * E + j - n * E = j by omega, mask_bit _ _ (by omega)]
      have : ¬ (n * E + j < n * E) := by omega
      simp [hj]
    · have h1 : (e0 + 1) * E ≤ n * E := Nat.mul_le_mul_right _ h
      have h2 : e0 * E + j < n * E := by rw [Nat.add_mul] at h1; omega
      have : e0 < n + 1 := by omega
      simp [*]

theorem ofInt_bit (v : Int) (j : Nat) (hj : j < 64) :
    (BitVec.ofInt 64 v).getLsbD j = (v % 2 ^ 64).toNat.testBit j := by
  rw [← BitVec.testBit_toNat, BitVec.toNat_ofInt]; rfl

/-- Reading back an entry. -/
theorem pack_get {C : Type} (E : Nat) (hE : 0 < E) (hE8 : E ≤ 8) (lk : MLLookup C) (vals : List Int)
    (hlen : (lk.words.length : Int) = ((vals.length : Int) + perWord E - 1).tdiv (perWord E))
    (i : Nat) (hi : i < vals.length) :
    (lk.pack E vals).get E i = .ok (vals[i] % 2 ^ E).toNat := by
  have hP : 0 < perWord E := Nat.div_pos (by omega) hE
  have hPE : perWord E * E ≤ 64 := Nat.div_mul_le_self 64 E
  have hb : i / perWord E < lk.words.length := by
    have h1 : ((vals.length : Int) + perWord E - 1).tdiv (perWord E) =
        (((vals.length + perWord E - 1) / perWord E : Nat) : Int) := by
      rw [Int.natCast_ediv, ← Int.tdiv_eq_ediv_of_nonneg (by omega)]
      congr 1; omega
    rw [h1] at hlen
    have hlen' : lk.words.length = (vals.length + perWord E - 1) / perWord E := by exact_mod_cast hlen
    rw [hlen', Nat.div_lt_iff_lt_mul hP]
    have := Nat.div_mul_le_self (vals.length + perWord E - 1) (perWord E)
    have h3 := Nat.lt_div_mul_add (a := vals.length + perWord E - 1) hP
    omega
  have hd1 : (i : Int).tdiv (perWord E) = ((i / perWord E : Nat) : Int) := by
    rw [Int.tdiv_eq_ediv_of_nonneg (by omega)]; rfl
  have hd2 : (i : Int).tmod (perWord E) = ((i % perWord E : Nat) : Int) := by
    rw [Int.tmod_eq_emod_of_nonneg (by omega)]; rfl
  unfold MLLookup.get MLLookup.pack
  simp only [hd1, hd2]
  rw [if_neg (not_or.2 ⟨not_lt.2 (Int.natCast_nonneg _), not_lt.2 (Int.natCast_nonneg _)⟩)]
  simp only [Int.toNat_natCast]
  rw [List.getElem?_map, List.getElem?_range hb]
  simp only [Option.map_some]
  congr 1
  set b := i / perWord E with hbd
  set e := i % perWord E with hed
  have he : e < perWord E := Nat.mod_lt _ hP
  have hie : b * perWord E + e = i := by rw [Nat.mul_comm]; exact Nat.div_add_mod i (perWord E)
  have heE : (e + 1) * E ≤ perWord E * E := Nat.mul_le_mul_right _ he
  rw [Nat.add_mul] at heE
  have hlt : ((packWord E vals b >>> (E * e)) &&& entryMask E).toNat = (vals[i] % 2 ^ E).toNat := by
    have hpow : (vals[i] % 2 ^ E).toNat = (vals[i] % 2 ^ 64).toNat % 2 ^ E := by
      have h2 : (vals[i] % 2 ^ 64) % ((2 ^ E : Nat) : Int) = vals[i] % ((2 ^ E : Nat) : Int) :=
        Int.emod_emod_of_dvd _ (by
          have : (2 : Int) ^ 64 = ((2 ^ 64 : Nat) : Int) := by norm_num
          rw [this]
          exact_mod_cast pow_dvd_pow 2 (by omega : E ≤ 64))
      have h0 : 0 ≤ vals[i] % 2 ^ 64 := Int.emod_nonneg _ (by norm_num)
      have h3 : (((vals[i] % 2 ^ 64).toNat % 2 ^ E : Nat) : Int) = (vals[i] % 2 ^ 64) % ((2 ^ E : Nat) : Int) := by
        rw [Int.natCast_emod, Int.toNat_of_nonneg h0]
      rw [h2] at h3
      have h4 : 0 ≤ vals[i] % 2 ^ E := Int.emod_nonneg _ (by positivity)
      zify
      rw [Int.toNat_of_nonneg h4]
      rw [Int.toNat_of_nonneg h0]
      rw [show ((2 : Int) ^ E) = ((2 ^ E : Nat) : Int) by push_cast; rfl]
      exact h2.symm
    rw [hpow]
    apply Nat.eq_of_testBit_eq
    intro j
    rw [Nat.testBit_mod_two_pow, BitVec.testBit_toNat, BitVec.getLsbD_and, BitVec.getLsbD_ushiftRight]
    by_cases hj : j < E
    · rw [mask_bit _ _ (by omega)]
      simp only [hj, decide_true, Bool.and_true, Bool.true_and]
      rw [show E * e + j = e * E + j by rw [Nat.mul_comm]]
      unfold packWord
      rw [pack_fold_bit E (fun e => BitVec.ofInt 64 (vals.getD (b * perWord E + e) 0)) _ e j hj (by omega)]
      have hmax : e < min (vals.length - b * perWord E) (perWord E) := by omega
      simp only [hmax, decide_true, Bool.true_and]
      rw [ofInt_bit _ _ (by omega), hie]
      simp [List.getD_eq_getElem?_getD, hi]
    · by_cases hj64 : j < 64
      · rw [mask_bit _ _ hj64]; simp [hj]
      · rw [BitVec.getLsbD_of_ge (entryMask E) _ (by omega)]; simp [hj]
  rw [hlt]
  apply Nat.mod_eq_of_lt
  have h4 : 0 ≤ vals[i] % 2 ^ E := Int.emod_nonneg _ (by positivity)
  have h5 : vals[i] % 2 ^ E < 2 ^ E := Int.emod_lt_of_pos _ (by positivity)
  have h6 : 2 ^ E ≤ 2 ^ 8 := Nat.pow_le_pow_right (by omega) hE8
  have h7 : ((2 : Int) ^ E) ≤ 2 ^ 8 := by exact_mod_cast h6
  omega

/-! ### Mip offsets -/

/-- Sum of the lengths of the first `n` levels. -/
def levelSum (B D : Nat) (numActive : Int) : Nat → Int
  | 0 => 0
  | n + 1 => levelSum B D numActive n + bufferLen B D numActive (2 ^ n)

theorem fillOffsets_spec (B D : Nat) (na : Int) (n : Nat) :
    ∀ lvl off j, fillOffsets B D na n lvl (levelSum B D na lvl) off j =
      if lvl ≤ j ∧ j < lvl + n then levelSum B D na j else off j := by
  induction n with
  | zero => intro lvl off j; simp [fillOffsets]
  | succ n ih =>
    intro lvl off j
    show fillOffsets B D na n (lvl + 1) (levelSum B D na (lvl + 1)) _ j = _
    rw [ih]
    rcases Nat.lt_trichotomy j lvl with h | h | h
    · rw [if_neg (by omega), if_neg (by omega), if_neg (by omega)]
    · subst h; rw [if_neg (by omega), if_pos rfl, if_pos (by omega)]
    · by_cases h2 : j < lvl + 1 + n
      · rw [if_pos (by omega), if_pos (by omega)]
      · rw [if_neg (by omega), if_neg (by omega), if_neg (by omega)]

theorem bufferLen_nonneg (B D : Nat) (na : Int) (h : 0 ≤ na) (px : Nat) : 0 ≤ bufferLen B D na px :=
  mul_nonneg h (Int.natCast_nonneg _)

theorem levelSum_mono (B D : Nat) (na : Int) (h : 0 ≤ na) : ∀ i j, i ≤ j →
    levelSum B D na i ≤ levelSum B D na j := by
  intro i j hij
  induction hij with
  | refl => exact le_refl _
  | step hm ih =>
    refine le_trans ih ?_
    show _ ≤ _ + _
    have := bufferLen_nonneg B D na h (2 ^ (by assumption : Nat))
    omega

/-- Cells of one tile at a level, two ways. -/
theorem cells_level (k D mip : Nat) (hD : 0 < D) :
    (2 ^ k) ^ D / (2 ^ mip) ^ D = ((2 ^ k) >>> mip) ^ D := by
  rw [Nat.shiftRight_eq_div_pow]
  by_cases h : mip ≤ k
  · rw [Nat.div_pow (pow_dvd_pow 2 h)]
  · have h1 : 2 ^ k < 2 ^ mip := Nat.pow_lt_pow_right (by omega) (by omega)
    rw [Nat.div_eq_of_lt h1, Nat.div_eq_of_lt (Nat.pow_lt_pow_left h1 (by omega)), zero_pow (by omega)]

/-! ### The caching multi-level generator -/

variable {C : Type} [DecidableEq C]

/-- Cache invariant: default key with level -1, or an active tile with the right base. -/
def MGeo.Inv (G : MGeo C) (m : MRMap C) (s : MIdxState C) : Prop :=
  (s.mip = -1 ∧ s.key = G.dflt) ∨
  (G.inDims m.bm.dims s.key = true ∧ 0 ≤ m.bm.lookup s.key ∧
    ∃ l : Nat, s.mip = l ∧ l < m.maxStore ∧ s.base = mipBase G.B G.D m.off l (m.bm.lookup s.key))

/-- Facts about the map that the generator relies on. -/
structure MGeo.Ok (G : MGeo C) (m : MRMap C) (lvl : C → Int) : Prop where
  dflt : G.inDims m.bm.dims G.dflt = false
  get : ∀ t, G.inDims m.bm.dims t = true → m.get t = .ok (lvl t + 1).toNat ∧ -1 ≤ lvl t ∧
    lvl t < m.maxStore ∧ (lvl t ≠ -1 → 0 ≤ m.bm.lookup t)

omit [DecidableEq C] in
theorem MGeo.inv_fresh (G : MGeo C) (m : MRMap C) : G.Inv m G.fresh := Or.inl ⟨rfl, rfl⟩

/-- Shape of one `idx` call. -/
theorem MGeo.idx_cases (G : MGeo C) (m : MRMap C) (s : MIdxState C) (hs : G.Inv m s) (mip : Nat) (c : C) :
    (G.inDims m.bm.dims (G.tileOf c) = false → G.idx m s mip c = .ub) ∧
    (G.inDims m.bm.dims (G.tileOf c) = true → 0 ≤ m.bm.lookup (G.tileOf c) → mip < m.maxStore →
      ∃ s', G.idx m s mip c =
        .ok (mipBase G.B G.D m.off mip (m.bm.lookup (G.tileOf c)) + G.offM mip c, s') ∧
        G.Inv m s' ∧ s'.mip = mip ∧ s'.key = G.tileOf c) ∧
    (G.inDims m.bm.dims (G.tileOf c) = true → 0 ≤ m.bm.lookup (G.tileOf c) → ¬ mip < m.maxStore →
      G.idx m s mip c = .ub) ∧
    (G.inDims m.bm.dims (G.tileOf c) = true → m.bm.lookup (G.tileOf c) < 0 →
      G.idx m s mip c = .ok (-1, s)) := by
  have hk : s.mip = (mip : Int) ∧ s.key = G.tileOf c → G.inDims m.bm.dims (G.tileOf c) = true ∧
      0 ≤ m.bm.lookup (G.tileOf c) ∧ mip < m.maxStore ∧
      s.base = mipBase G.B G.D m.off mip (m.bm.lookup (G.tileOf c)) := by
    rintro ⟨h1, h2⟩
    rcases hs with ⟨h3, _⟩ | ⟨h3, h4, l, h5, h6, h7⟩
    · rw [h3] at h1; omega
    · rw [h5] at h1; have : l = mip := by exact_mod_cast h1
      subst this; rw [h2] at h3 h4 h7; exact ⟨h3, h4, h6, h7⟩
  unfold MGeo.idx Geo.read MGeo.baseOf
  by_cases he : s.mip = (mip : Int) ∧ s.key = G.tileOf c
  · obtain ⟨h1, h2, h3, h4⟩ := hk he
    refine ⟨fun h => (by rw [h1] at h; cases h), fun _ _ _ => ⟨s, ?_, hs, he.1, he.2⟩,
      fun _ _ h => absurd h3 h, fun _ h => (by omega)⟩
    rw [if_pos he, h4]
  · refine ⟨fun h => ?_, fun h h0 hm => ⟨{ mip := mip, key := G.tileOf c, base := mipBase G.B G.D m.off mip (m.bm.lookup (G.tileOf c)) }, ?_, ?_, rfl, rfl⟩,
      fun h h0 hm => ?_, fun h h0 => ?_⟩
    · simp only [if_neg he, h]; rfl
    · simp only [if_neg he, h, if_true, Outcome.ok_bind, ge_iff_le, h0, hm]
    · exact Or.inr ⟨h, h0, mip, rfl, hm, rfl⟩
    · simp only [if_neg he, h, if_true, Outcome.ok_bind, ge_iff_le, h0, hm, if_false, Outcome.ub_bind]
    · have : ¬ (0 ≤ m.bm.lookup (G.tileOf c)) := by omega
      simp only [if_neg he, h, if_true, Outcome.ok_bind, ge_iff_le, this, if_false]

/-- Shape of one `get_sample_level` call. -/
theorem MGeo.level_cases (G : MGeo C) (m : MRMap C) (lvl : C → Int) (hok : G.Ok m lvl)
    (s : MIdxState C) (hs : G.Inv m s) (c : C)
    (hbox : G.outside m.bm.bboxMax c = false ↔ G.inDims m.bm.dims (G.tileOf c) = true) :
    ∃ v s', G.sampleLevel m s c = .ok (v, s') ∧ G.Inv m s' ∧
      ((s' = s ∧ ((s.key = G.tileOf c ∧ v = s.mip) ∨
        (v = -1 ∧ (G.inDims m.bm.dims (G.tileOf c) = false ∨ lvl (G.tileOf c) = -1)))) ∨
       (s'.key = G.tileOf c ∧ s'.mip = v ∧ v = lvl (G.tileOf c) ∧
          G.inDims m.bm.dims (G.tileOf c) = true)) := by
  unfold MGeo.sampleLevel
  by_cases he : G.tileOf c = s.key
  · exact ⟨s.mip, s, by simp only [he, if_true], hs, Or.inl ⟨rfl, Or.inl ⟨he.symm, rfl⟩⟩⟩
  · by_cases ho : G.outside m.bm.bboxMax c = true
    · refine ⟨-1, s, by simp only [he, if_false, ho, if_true], hs, Or.inl ⟨rfl, Or.inr ⟨rfl, Or.inl ?_⟩⟩⟩
      rw [← Bool.not_eq_true, ← hbox, ho]; decide
    · have ho' : G.outside m.bm.bboxMax c = false := by simpa using ho
      have hin := hbox.1 ho'
      obtain ⟨g1, g2, g3, g4⟩ := hok.get _ hin
      have hc : (((lvl (G.tileOf c) + 1).toNat : Nat) : Int) = lvl (G.tileOf c) + 1 := by omega
      by_cases h1 : lvl (G.tileOf c) = -1
      · refine ⟨-1, s, ?_, hs, Or.inl ⟨rfl, Or.inr ⟨rfl, Or.inr h1⟩⟩⟩
        simp only [he, if_false, ho', Bool.false_eq_true, g1, Outcome.ok_bind, h1]
        rfl
      · have hlt : (lvl (G.tileOf c) + 1).toNat - 1 < m.maxStore := by omega
        refine ⟨lvl (G.tileOf c), { mip := lvl (G.tileOf c), key := G.tileOf c, base := mipBase G.B G.D m.off ((lvl (G.tileOf c) + 1).toNat - 1) (m.bm.lookup (G.tileOf c)) },
          ?_, ?_, Or.inr ⟨rfl, rfl, rfl, hin⟩⟩
        · have h2 : lvl (G.tileOf c) + 1 - 1 ≠ -1 := by omega
          simp only [he, if_false, ho', Bool.false_eq_true, g1, Outcome.ok_bind, hc, ne_eq, h2,
            not_false_eq_true, if_true, Geo.read, hin, MGeo.baseOf, hlt]
          rw [show lvl (G.tileOf c) + 1 - 1 = lvl (G.tileOf c) by omega]
        · refine Or.inr ⟨hin, g4 h1, (lvl (G.tileOf c) + 1).toNat - 1, ?_, hlt, rfl⟩
          show lvl (G.tileOf c) = _
          omega

/-- Coordinate of a query. -/
def MQuery.coord : MQuery C → C
  | .idx _ c => c
  | .level c => c

theorem MGeo.run_inv (G : MGeo C) (m : MRMap C) (lvl : C → Int) (hok : G.Ok m lvl) :
    ∀ (qs : List (MQuery C)) (s s' : MIdxState C),
      (∀ q ∈ qs, (G.outside m.bm.bboxMax q.coord = false ↔ G.inDims m.bm.dims (G.tileOf q.coord) = true)) →
      G.Inv m s → G.run m s qs = .ok s' → G.Inv m s' := by
  intro qs
  induction qs with
  | nil => intro s s' _ hs h; unfold MGeo.run at h; injection h with h; subst h; exact hs
  | cons q qs ih =>
    intro s s' hb hs h
    unfold MGeo.run at h
    have hb1 := hb q (by simp)
    have hb2 : ∀ q ∈ qs, _ := fun q hq => hb q (List.mem_cons_of_mem _ hq)
    cases q with
    | idx mip c =>
      obtain ⟨a1, a2, a3, a4⟩ := G.idx_cases m s hs mip c
      simp only [MGeo.step] at h
      cases hin : G.inDims m.bm.dims (G.tileOf c) with
      | false => rw [a1 hin] at h; simp at h
      | true =>
        by_cases h0 : 0 ≤ m.bm.lookup (G.tileOf c)
        · by_cases hm : mip < m.maxStore
          · obtain ⟨s1, e1, e2, _⟩ := a2 hin h0 hm
            rw [e1] at h; simp only [Outcome.ok_bind] at h
            exact ih s1 s' hb2 e2 h
          · rw [a3 hin h0 hm] at h; simp at h
        · rw [a4 hin (by omega)] at h; simp only [Outcome.ok_bind] at h
          exact ih s s' hb2 hs h
    | level c =>
      obtain ⟨v, s1, e1, e2, _⟩ := G.level_cases m lvl hok s hs c hb1
      simp only [MGeo.step] at h
      rw [e1] at h; simp only [Outcome.ok_bind] at h
      exact ih s1 s' hb2 e2 h

/-- With the caller's discipline (idx only at the level reported for the tile, clamped to `M`), the
cached level agrees with the stored level up to the clamp. -/
theorem MGeo.run_level (G : MGeo C) (m : MRMap C) (lvl : C → Int) (hok : G.Ok m lvl) (M : Int) (_hM : 0 ≤ M) :
    ∀ (qs : List (MQuery C)) (s s' : MIdxState C),
      (∀ q ∈ qs, (G.outside m.bm.bboxMax q.coord = false ↔ G.inDims m.bm.dims (G.tileOf q.coord) = true)) →
      (∀ mip c, MQuery.idx mip c ∈ qs → G.inDims m.bm.dims (G.tileOf c) = true →
        (mip : Int) = min (lvl (G.tileOf c)) M) →
      G.Inv m s → (s.key = G.dflt ∨ min s.mip M = min (lvl s.key) M) → G.run m s qs = .ok s' →
      G.Inv m s' ∧ (s'.key = G.dflt ∨ min s'.mip M = min (lvl s'.key) M) := by
  intro qs
  induction qs with
  | nil => intro s s' _ _ hs hl h; unfold MGeo.run at h; injection h with h; subst h; exact ⟨hs, hl⟩
  | cons q qs ih =>
    intro s s' hb hd hs hl h
    unfold MGeo.run at h
    have hb1 := hb q (by simp)
    have hb2 : ∀ q ∈ qs, _ := fun q hq => hb q (List.mem_cons_of_mem _ hq)
    have hd2 : ∀ mip c, MQuery.idx mip c ∈ qs → _ := fun mip c hq => hd mip c (List.mem_cons_of_mem _ hq)
    cases q with
    | idx mip c =>
      have hd1 := hd mip c (by simp)
      obtain ⟨a1, a2, a3, a4⟩ := G.idx_cases m s hs mip c
      simp only [MGeo.step] at h
      cases hin : G.inDims m.bm.dims (G.tileOf c) with
      | false => rw [a1 hin] at h; simp at h
      | true =>
        by_cases h0 : 0 ≤ m.bm.lookup (G.tileOf c)
        · by_cases hm : mip < m.maxStore
          · obtain ⟨s1, e1, e2, e3, e4⟩ := a2 hin h0 hm
            rw [e1] at h; simp only [Outcome.ok_bind] at h
            refine ih s1 s' hb2 hd2 e2 (Or.inr ?_) h
            rw [e3, e4]; have := hd1 hin; omega
          · rw [a3 hin h0 hm] at h; simp at h
        · rw [a4 hin (by omega)] at h; simp only [Outcome.ok_bind] at h
          exact ih s s' hb2 hd2 hs hl h
    | level c =>
      obtain ⟨v, s1, e1, e2, e3⟩ := G.level_cases m lvl hok s hs c hb1
      simp only [MGeo.step] at h
      rw [e1] at h; simp only [Outcome.ok_bind] at h
      refine ih s1 s' hb2 hd2 e2 ?_ h
      rcases e3 with ⟨rfl, _⟩ | ⟨k1, k2, k3, _⟩
      · exact hl
      · right; rw [k1, k2, k3]

end DexRT
