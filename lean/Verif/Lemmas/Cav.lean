import Verif.Lemmas.Emis
import Mathlib.Data.Finset.Card
import Mathlib.Data.List.Basic
/-!
Lemmas about the precomputed line data.
-/
namespace DexRT
namespace Emis

/-- The mapping holding the lines `d` in its first slots. -/
def enc (max : Nat) (d : List Nat) : List Int := d.map (fun k : Nat => (k : Int)) ++ List.replicate (max - d.length) (-1)

theorem enc_length (max : Nat) (d : List Nat) (h : d.length ≤ max) : (enc max d).length = max := by
  simp [enc]; omega

theorem enc_take (max : Nat) (d : List Nat) : (enc max d).take d.length = d.map (fun k : Nat => (k : Int)) := by
  unfold enc
  rw [List.take_append_of_le_length (by simp), List.take_of_length_le (by simp)]

theorem enc_set (max : Nat) (d : List Nat) (kr : Nat) (h : d.length < max) :
    (enc max d).set d.length (kr : Int) = enc max (d ++ [kr]) := by
  unfold enc
  rw [List.set_append_right _ _ (by simp)]
  obtain ⟨m, hm⟩ : ∃ m, max - d.length = m + 1 := ⟨max - d.length - 1, by omega⟩
  rw [hm, List.replicate_succ]
  have : max - (d ++ [kr]).length = m := by simp; omega
  rw [this]
  simp

theorem contains_cast (d : List Nat) (kr : Nat) : (d.map (fun k : Nat => (k : Int))).contains (kr : Int) = decide (kr ∈ d) := by
  rw [Bool.eq_iff_iff]
  simp

theorem fill_loop2 (max : Nat) : ∀ (rest d : List Nat), d.Nodup → d.length ≤ max →
    (∃ d', fillLoop (fillStep2 max) rest ⟨enc max d, d.length⟩ = .ok ⟨enc max d', d'.length⟩ ∧ d'.Nodup ∧
      d'.length ≤ max ∧ ∀ x, x ∈ d' ↔ x ∈ d ∨ x ∈ rest) ∨
    (fillLoop (fillStep2 max) rest ⟨enc max d, d.length⟩ = .throws ∧ max < (d ++ rest).toFinset.card) := by
  intro rest
  induction rest with
  | nil => intro d h1 h2; exact Or.inl ⟨d, rfl, h1, h2, by simp⟩
  | cons kr rest ih =>
    intro d h1 h2
    rw [fillLoop, fillStep2]
    simp only [enc_take, contains_cast]
    by_cases hm : kr ∈ d
    · rw [decide_eq_true hm, if_pos rfl]
      rcases ih d h1 h2 with ⟨d', e1, e2, e3, e4⟩ | ⟨e1, e2⟩
      · refine Or.inl ⟨d', e1, e2, e3, fun x => ?_⟩
        rw [e4]
        constructor
        · rintro (h | h)
          · exact Or.inl h
          · exact Or.inr (List.mem_cons_of_mem _ h)
        · rintro (h | h)
          · exact Or.inl h
          · rcases List.mem_cons.mp h with h | h
            · exact Or.inl (h ▸ hm)
            · exact Or.inr h
      · refine Or.inr ⟨e1, lt_of_lt_of_le e2 (Finset.card_le_card ?_)⟩
        intro x
        simp only [List.mem_toFinset, List.mem_append, List.mem_cons]
        tauto
    · rw [decide_eq_false hm]
      simp only [Bool.false_eq_true, if_false]
      by_cases hf : d.length = max
      · rw [if_pos hf]
        refine Or.inr ⟨rfl, ?_⟩
        have hn : (d ++ [kr]).Nodup := by
          rw [List.nodup_append]
          refine ⟨h1, by simp, fun a ha b hb => ?_⟩
          rw [List.mem_singleton] at hb
          intro he
          exact hm (by rw [← hb, ← he]; exact ha)
        have := List.toFinset_card_of_nodup hn
        have h5 : (d ++ [kr]).toFinset.card ≤ (d ++ kr :: rest).toFinset.card := Finset.card_le_card (by
          intro x
          simp only [List.mem_toFinset, List.mem_append, List.mem_cons, List.not_mem_nil, or_false]
          tauto)
        simp only [List.length_append, List.length_singleton] at this
        omega
      · rw [if_neg hf, enc_length max d h2, if_pos (by omega), enc_set max d kr (by omega)]
        have hn : (d ++ [kr]).Nodup := by
          rw [List.nodup_append]
          refine ⟨h1, by simp, fun a ha b hb => ?_⟩
          rw [List.mem_singleton] at hb
          intro he
          exact hm (by rw [← hb, ← he]; exact ha)
        have := ih (d ++ [kr]) hn (by simp; omega)
        rw [List.length_append, List.length_singleton] at this
        rcases this with ⟨d', e1, e2, e3, e4⟩ | ⟨e1, e2⟩
        · refine Or.inl ⟨d', e1, e2, e3, fun x => ?_⟩
          rw [e4]
          simp only [List.mem_append, List.mem_cons, List.not_mem_nil, or_false]
          tauto
        · refine Or.inr ⟨e1, ?_⟩
          simpa using e2

theorem start_eq (max : Nat) : Fill.start max = ⟨enc max [], 0⟩ := by simp [Fill.start, enc]

theorem fill_loop3 (max : Nat) : ∀ (rest d : List Nat), d.length ≤ max →
    fillLoop (fillStep3 max) rest ⟨enc max d, d.length⟩ =
      if d.length + rest.length ≤ max then .ok ⟨enc max (d ++ rest), (d ++ rest).length⟩ else .ub := by
  intro rest
  induction rest with
  | nil => intro d h; simp [fillLoop, h]
  | cons kr rest ih =>
    intro d h
    rw [fillLoop, fillStep3]
    simp only [enc_length max d h]
    by_cases hf : d.length < max
    · rw [if_pos hf, if_neg (by omega), enc_set max d kr hf]
      have := ih (d ++ [kr]) (by simp; omega)
      rw [List.length_append, List.length_singleton] at this
      simp only [this, List.append_assoc, List.singleton_append, List.length_cons]
      by_cases h2 : d.length + 1 + rest.length ≤ max
      · rw [if_pos h2, if_pos (by omega)]
      · rw [if_neg h2, if_neg (by omega)]
    · rw [if_neg hf, if_neg (by simp; omega)]

theorem enc_getElem? (max : Nat) (d : List Nat) (i kr : Nat) : (enc max d)[i]? = some (kr : Int) ↔ d[i]? = some kr := by
  unfold enc
  rcases Nat.lt_or_ge i d.length with h | h
  · rw [List.getElem?_append_left (by simpa using h), List.getElem?_map, List.getElem?_eq_getElem h]
    simp
  · rw [List.getElem?_append_right (by simpa using h), List.getElem?_eq_none h]
    simp only [reduceCtorEq, iff_false]
    intro hc
    have := List.eq_of_mem_replicate (List.mem_of_getElem? hc)
    omega

theorem slotsOf_eq (max : Nat) (d : List Nat) (hd : d.Nodup) (hl : d.length ≤ max) (kr i : Nat) (hi : d[i]? = some kr) :
    slotsOf (enc max d) kr = [i] := by
  have hil : i < d.length := (List.getElem?_eq_some_iff.mp hi).1
  unfold slotsOf
  rw [enc_length max d hl]
  have hcongr : (List.range max).filter (fun krl => decide ((enc max d)[krl]? = some (kr : Int))) =
      (List.range max).filter fun krl => krl == i := by
    refine List.filter_congr fun j _ => ?_
    rw [Bool.eq_iff_iff]
    simp only [decide_eq_true_eq, beq_iff_eq]
    rw [enc_getElem?]
    constructor
    · intro h
      have h1 := List.getElem?_eq_some_iff.mp h
      have h2 := List.getElem?_eq_some_iff.mp hi
      exact (List.Nodup.getElem_inj_iff hd).mp (h1.2.trans h2.2.symm)
    · rintro rfl; exact hi
  rw [hcongr]
  have hn : ((List.range max).filter fun krl => krl == i).Nodup := List.nodup_range.filter _
  have hmem : ∀ x, x ∈ ((List.range max).filter fun krl => krl == i) ↔ x = i := by
    intro x
    simp only [List.mem_filter, List.mem_range, beq_iff_eq]
    constructor
    · exact fun h => h.2
    · rintro rfl; exact ⟨by omega, rfl⟩
  generalize ((List.range max).filter fun krl => krl == i) = l at *
  match l, hn, hmem with
  | [], _, hmem => exact absurd ((hmem i).mpr rfl) (by simp)
  | [a], _, hmem => rw [(hmem a).mp (by simp)]
  | a :: b :: t, hn, hmem =>
    have h1 := (hmem a).mp (by simp)
    have h2 := (hmem b).mp (by simp)
    rw [h1, h2] at hn
    simp at hn

theorem enc_all (max : Nat) (d : List Nat) (i : Nat) (hi : i < d.length) :
    ((enc max d).take (i + 1)).all (fun m => decide (0 ≤ m)) = true := by
  rw [List.all_eq_true]
  intro x hx
  unfold enc at hx
  rw [List.take_append_of_le_length (by simp; omega)] at hx
  have := List.mem_of_mem_take hx
  rw [List.mem_map] at this
  obtain ⟨y, _, rfl⟩ := this
  simp

theorem cavEmis_eq (k : Consts) (phi : ℝ → ℝ → ℝ) (ad : AData) (n : Pops) (p : Point) (l : Line) (kr : Nat) (w : ℝ)
    (hl : ad.lines[kr]? = some l) (ha : l.atom < ad.atoms.length) (h0 : l.lambda0 ≠ 0) :
    ∃ s, coreAndVoigt k ad n p kr = .ok s ∧ cavEmis k phi s l.lambda0 w p.vel = lineEO k phi ad n p w l := by
  have h2 : ad.atoms[l.atom]? = some ad.atoms[l.atom] := List.getElem?_eq_getElem ha
  have hm : EmisSpec.massOf ad l = ad.atoms[l.atom].mass := by simp [EmisSpec.massOf, h2]
  unfold coreAndVoigt
  rw [readAt_some _ _ _ hl]
  simp only [Outcome.ok_bind, readAt_some _ _ _ h2]
  refine ⟨_, rfl, ?_⟩
  unfold cavEmis lineEO EmisSpec.lineEmissivity EmisSpec.lineOpacity
  simp only
  rw [hm, ← profile_arg]
  generalize hD : dopplerWidth k l.lambda0 ad.atoms[l.atom].mass p.temperature p.vturb = D
  generalize hG : gammaFromBroadening l p.temperature p.ne p.nh0 = G
  have ea : dampingFromGamma k G l.lambda0 D * (w / l.lambda0) ^ 2 = dampingFromGamma k G w D := by
    unfold dampingFromGamma
    rw [div_pow, div_mul_div_comm, mul_comm D, mul_assoc _ (l.lambda0 ^ 2), mul_comm (l.lambda0 ^ 2) (w ^ 2), ← mul_assoc,
      mul_comm (l.lambda0 ^ 2) D, mul_div_mul_right _ _ (pow_ne_zero 2 h0)]
  have ev : (w - l.lambda0 + p.vel * l.lambda0 * (1 / k.c)) * (1 / D) = (w - l.lambda0 + p.vel * l.lambda0 / k.c) / D := by
    rw [mul_one_div, mul_one_div]
  rw [ea, ev]
  have er : ∀ x : ℝ, l.lambda0 / w * (x * (k.hc / (k.fourPi * l.lambda0))) = x * (k.hc / (k.fourPi * w)) := by
    intro x
    rw [mul_left_comm]
    congr 1
    rw [div_mul_div_comm, mul_comm l.lambda0, mul_comm k.fourPi l.lambda0, ← mul_assoc, mul_comm w, mul_assoc,
      mul_comm l.lambda0, mul_div_mul_right _ _ h0, mul_comm w]
  have ep : ∀ y : ℝ, y * (1 / k.sqrtPi) * (1 / D) = y / (k.sqrtPi * D) := by
    intro y
    rw [mul_assoc, one_div_mul_one_div, mul_one_div]
  rw [ep]
  generalize phi (dampingFromGamma k G w D) ((w - l.lambda0 + p.vel * l.lambda0 / k.c) / D) / (k.sqrtPi * D) = P
  ext
  · simp only
    calc l.lambda0 / w * (n l.atom l.j * (k.hc / (k.fourPi * l.lambda0)) * l.aji) * P
        = l.lambda0 / w * (n l.atom l.j * l.aji * (k.hc / (k.fourPi * l.lambda0))) * P := by ring
      _ = _ := by rw [er]; ring
  · simp only
    rw [mul_comm (k.hc / (k.fourPi * l.lambda0)), er]; ring

/-- Sampling with a mapping that holds all active lines once. -/
theorem cavSample_eq (k : Consts) (phi : ℝ → ℝ → ℝ) (ad : AData) (hw : EmisSpec.WellFormed ad)
    (h0 : ∀ l ∈ ad.lines, l.lambda0 ≠ 0) (n : Pops) (p : Point) (max la : Nat) (d : List Nat) (hd : d.Nodup)
    (hl : d.length ≤ max) (hsub : ∀ kr ∈ scan Line.isActive ad.lines la, kr ∈ d) (w : ℝ) (base : EO) :
    cavSample k phi ad n p max (enc max d) (scan Line.isActive ad.lines la) w base =
      .ok (base.add (EmisSpec.lines k phi ad la n p w)) := by
  have hnd : (scan Line.isActive ad.lines la).Nodup := List.nodup_range.filter _
  have hpos : ∀ kr ∈ scan Line.isActive ad.lines la, ∃ i, d[i]? = some kr ∧ slotsOf (enc max d) kr = [i] := by
    intro kr hk
    obtain ⟨i, hi⟩ := List.getElem?_of_mem (hsub kr hk)
    exact ⟨i, hi, slotsOf_eq max d hd hl kr i hi⟩
  have hlen : ∀ s : List Nat, (∀ kr ∈ s, ∃ i, d[i]? = some kr ∧ slotsOf (enc max d) kr = [i]) →
      (s.flatMap (slotsOf (enc max d))).length = s.length := by
    intro s hs
    induction s with
    | nil => rfl
    | cons a s ih =>
      obtain ⟨i, _, hi⟩ := hs a (by simp)
      rw [List.flatMap_cons, List.length_append, hi, ih fun kr hk => hs kr (by simp [hk])]
      simp; omega
  have hle : (scan Line.isActive ad.lines la).length ≤ max :=
    le_trans (List.subperm_of_subset hnd hsub).length_le hl
  unfold cavSample localSet
  simp only
  rw [hlen _ hpos, if_pos hle]
  simp only [Outcome.ok_bind]
  rw [← lines_accum k phi ad hw la n p w base]
  -- same contributions, one by one
  have key : ∀ (s : List Nat) (r : EO), (∀ kr ∈ s, kr ∈ scan Line.isActive ad.lines la) →
      accum (cavSlot k phi ad n p (enc max d) w p.vel) (s.flatMap (slotsOf (enc max d))) r =
        accum (lineTerm k phi ad n p w) s r := by
    intro s
    induction s with
    | nil => intro r _; rfl
    | cons kr s ih =>
      intro r hs
      obtain ⟨i, hi, hsl⟩ := hpos kr (hs kr (by simp))
      obtain ⟨l, hll, _⟩ := (mem_scan _ _ _ _).mp (hs kr (by simp))
      have hmem := List.mem_of_getElem? hll
      rw [List.flatMap_cons, hsl, List.singleton_append, accum, accum,
        lineTerm_eq k phi ad n p w kr l hll (hw.atoms l hmem)]
      have e : cavSlot k phi ad n p (enc max d) w p.vel i = .ok (lineEO k phi ad n p w l) := by
        unfold cavSlot
        rw [readAt_some _ _ _ ((enc_getElem? max d i kr).mpr hi)]
        simp only [Outcome.ok_bind]
        rw [if_pos (enc_all max d i (List.getElem?_eq_some_iff.mp hi).1)]
        obtain ⟨s, hs1, hs2⟩ := cavEmis_eq k phi ad n p l kr w hll (hw.atoms l hmem) (h0 l hmem)
        simp only [Int.toNat_natCast, readAt_some _ _ _ hll, hs1, Outcome.ok_bind, hs2]
      rw [e]
      exact ih _ fun x hx => hs x (by simp [hx])
  exact key _ _ fun _ h => h

end Emis
end DexRT
