import Verif.Model.ActiveProbes
import Verif.Props.IndexGen
import Verif.Lemmas.RcInterp
/-! Helper lemmas for the active-probe lists. -/
namespace DexRT

section
variable {C : Type} [DecidableEq C]

theorem setFlags_spec (inb : C → Bool) : ∀ (ts : List C) (g : C → Bool), (∀ t ∈ ts, inb t = true) →
    ∃ g', setFlags inb ts g = .ok g' ∧ ∀ c, g' c = true ↔ c ∈ ts ∨ g c = true
  | [], g, _ => ⟨g, rfl, fun c => by simp⟩
  | t :: ts, g, h => by
    obtain ⟨g', h1, h2⟩ := setFlags_spec inb ts (fun c => decide (c = t) || g c)
      (fun u hu => h u (List.mem_cons_of_mem _ hu))
    refine ⟨g', ?_, fun c => ?_⟩
    · unfold setFlags; rw [if_pos (h t List.mem_cons_self)]; exact h1
    · rw [h2]; simp only [Bool.or_eq_true, decide_eq_true_eq, List.mem_cons]; tauto

theorem collect_spec {α β : Type} (f : α → Outcome β) : ∀ (l : List α), (∀ a ∈ l, ∃ b, f a = .ok b) →
    ∃ bs, collect f l = .ok bs ∧ List.Forall₂ (fun a b => f a = .ok b) l bs
  | [], _ => ⟨[], rfl, .nil⟩
  | a :: as, h => by
    obtain ⟨b, hb⟩ := h a List.mem_cons_self
    obtain ⟨bs, h1, h2⟩ := collect_spec f as (fun x hx => h x (List.mem_cons_of_mem _ hx))
    refine ⟨b :: bs, ?_, .cons hb h2⟩
    unfold collect; rw [hb]; simp only [Outcome.ok_bind]; rw [h1]; rfl

theorem forall₂_mem {α β : Type} {f : α → Outcome β} {l : List α} {bs : List β}
    (h : List.Forall₂ (fun a b => f a = .ok b) l bs) (b : β) : b ∈ bs ↔ ∃ a ∈ l, f a = .ok b := by
  induction h with
  | nil => simp
  | @cons a b' as bs' hab _ ih =>
    simp only [List.mem_cons, ih]
    constructor
    · rintro (rfl | ⟨x, hx, he⟩)
      · exact ⟨a, Or.inl rfl, hab⟩
      · exact ⟨x, Or.inr hx, he⟩
    · rintro ⟨x, rfl | hx, he⟩
      · rw [hab] at he; injection he with he; exact Or.inl he.symm
      · exact Or.inr ⟨x, hx, he⟩

theorem forall₂_nodup {α β : Type} {f : α → Outcome β} {l : List α} {bs : List β}
    (h : List.Forall₂ (fun a b => f a = .ok b) l bs) (hn : l.Nodup)
    (hinj : ∀ a ∈ l, ∀ a' ∈ l, ∀ b, f a = .ok b → f a' = .ok b → a = a') : bs.Nodup := by
  induction h with
  | nil => exact List.nodup_nil
  | @cons a b' as bs' hab hrest ih =>
    rw [List.nodup_cons] at hn ⊢
    refine ⟨fun hmem => ?_, ih hn.2 (fun x hx y hy => hinj x (List.mem_cons_of_mem _ hx) y (List.mem_cons_of_mem _ hy))⟩
    obtain ⟨x, hx, he⟩ := (forall₂_mem hrest b').1 hmem
    have := hinj a List.mem_cons_self x (List.mem_cons_of_mem _ hx) b' hab he
    exact hn.1 (this ▸ hx)
end

/-- A numbering only depends on which tiles of the grid are active. -/
theorem TileNumbering.congr {C : Type} {dec : BitVec 32 → C} {Grid A A' : C → Prop} {bm : BlockMap C}
    (h : TileNumbering dec Grid A bm) (he : ∀ c, Grid c → (A c ↔ A' c)) : TileNumbering dec Grid A' bm where
  count := h.count
  active := fun c hc ha => h.active c hc ((he c hc).2 ha)
  inactive := fun c hc ha => h.inactive c hc (fun h' => ha ((he c hc).1 h'))
  injective := fun c c' hc hc' ha ha' => h.injective c c' hc hc' ((he c hc).2 ha) ((he c' hc').2 ha')
  listed := fun i hi => ⟨(h.listed i hi).1, (he _ (h.listed i hi).1).1 (h.listed i hi).2.1, (h.listed i hi).2.2⟩

theorem mem_cells2 (d c : Coord2) : c ∈ cells2 d ↔ inDims2 d c = true := mem_tiles2 d c
theorem mem_cells3 (d c : Coord3) : c ∈ cells3 d ↔ inDims3 d c = true := mem_tiles3 d c
theorem nodup_cells2 (d : Coord2) : (cells2 d).Nodup := nodup_tiles2 d
theorem nodup_cells3 (d : Coord3) : (cells3 d).Nodup := nodup_tiles3 d

theorem mem_blockLoop (na : Int) (cells : Nat) (p : Nat × Int) :
    p ∈ blockLoop na cells ↔ p.1 < na.toNat ∧ 0 ≤ p.2 ∧ p.2 < cells := by
  unfold blockLoop
  simp only [List.mem_flatMap, List.mem_range, List.mem_map]
  constructor
  · rintro ⟨t, ht, k, hk, rfl⟩; exact ⟨ht, by simp, by simpa using hk⟩
  · rintro ⟨h1, h2, h3⟩
    exact ⟨p.1, h1, p.2.toNat, by omega, Prod.ext rfl (by simp only; omega)⟩

theorem nodup_blockLoop (na : Int) (cells : Nat) : (blockLoop na cells).Nodup := by
  unfold blockLoop
  rw [List.nodup_flatMap]
  refine ⟨fun t _ => List.nodup_range.map (fun a b h => by simpa using h), ?_⟩
  apply List.nodup_range.imp
  intro a b hab
  simp only [Function.onFun, List.disjoint_left, List.mem_map]
  rintro c ⟨x, _, rfl⟩ ⟨x', _, h⟩
  exact hab (by simpa using congrArg Prod.fst h.symm)

theorem c0List2_spec (k nx nz : Nat) (Active : Coord2 → Prop) (bm : BlockMap Coord2)
    (hx : FitsI32Axis k nx) (hz : FitsI32Axis k nz) (hm : MapFor2 (2 ^ k) nx nz Active bm) :
    ∃ l, c0List2 (2 ^ k) bm = .ok l ∧ l.Nodup ∧ ∀ c, c ∈ l ↔ HasData2 (2 ^ k) nx nz Active c := by
  obtain ⟨-, -, h3, h4⟩ := C05_bijection2 k nx nz Active bm hx hz hm
  have hcount := hm.numbering.count
  have hiter : ∀ p : Nat × Int, p ∈ blockLoop bm.numActive (2 ^ k * 2 ^ k) ↔
      (p.1 < bm.activeTiles.length ∧ 0 ≤ p.2 ∧ p.2 < ((2 ^ k : Nat) : Int) * (2 ^ k : Nat)) := by
    intro p
    rw [mem_blockLoop, ← hcount, Int.toNat_natCast]; push_cast; rfl
  obtain ⟨bs, hb1, hb2⟩ := collect_spec (fun p => loopCoord2 (2 ^ k) bm p.1 p.2)
    (blockLoop bm.numActive (2 ^ k * 2 ^ k)) (by
      intro p hp
      obtain ⟨c, hc, _⟩ := h4 p ((hiter p).1 hp)
      exact ⟨c, hc⟩)
  refine ⟨bs, hb1, forall₂_nodup hb2 (nodup_blockLoop _ _) ?_, fun c => ?_⟩
  · intro a ha a' ha' b hab hab'
    obtain ⟨c, hc, hd, _⟩ := h4 a ((hiter a).1 ha)
    rw [hc] at hab; injection hab with hab; subst hab
    exact (h3 c hd).unique ⟨(hiter a).1 ha, hc⟩ ⟨(hiter a').1 ha', hab'⟩
  · rw [forall₂_mem hb2]
    constructor
    · rintro ⟨p, hp, he⟩
      obtain ⟨c', hc', hd, _⟩ := h4 p ((hiter p).1 hp)
      rw [hc'] at he; injection he with he; exact he ▸ hd
    · intro hd
      obtain ⟨p, ⟨hp, he⟩, _⟩ := h3 c hd
      exact ⟨p, (hiter p).2 hp, he⟩

theorem c0List3_spec (k nx ny nz : Nat) (Active : Coord3 → Prop) (bm : BlockMap Coord3)
    (hx : FitsI32Axis k nx) (hy : FitsI32Axis k ny) (hz : FitsI32Axis k nz)
    (hm : MapFor3 (2 ^ k) nx ny nz Active bm) :
    ∃ l, c0List3 (2 ^ k) bm = .ok l ∧ l.Nodup ∧ ∀ c, c ∈ l ↔ HasData3 (2 ^ k) nx ny nz Active c := by
  obtain ⟨-, -, h3, h4⟩ := C05_bijection3 k nx ny nz Active bm hx hy hz hm
  have hcount := hm.numbering.count
  have hiter : ∀ p : Nat × Int, p ∈ blockLoop bm.numActive (2 ^ k * 2 ^ k * 2 ^ k) ↔
      (p.1 < bm.activeTiles.length ∧ 0 ≤ p.2 ∧
        p.2 < ((2 ^ k : Nat) : Int) * (2 ^ k : Nat) * (2 ^ k : Nat)) := by
    intro p
    rw [mem_blockLoop, ← hcount, Int.toNat_natCast]; push_cast; rfl
  obtain ⟨bs, hb1, hb2⟩ := collect_spec (fun p => loopCoord3 (2 ^ k) bm p.1 p.2)
    (blockLoop bm.numActive (2 ^ k * 2 ^ k * 2 ^ k)) (by
      intro p hp
      obtain ⟨c, hc, _⟩ := h4 p ((hiter p).1 hp)
      exact ⟨c, hc⟩)
  refine ⟨bs, hb1, forall₂_nodup hb2 (nodup_blockLoop _ _) ?_, fun c => ?_⟩
  · intro a ha a' ha' b hab hab'
    obtain ⟨c, hc, hd, _⟩ := h4 a ((hiter a).1 ha)
    rw [hc] at hab; injection hab with hab; subst hab
    exact (h3 c hd).unique ⟨(hiter a).1 ha, hc⟩ ⟨(hiter a').1 ha', hab'⟩
  · rw [forall₂_mem hb2]
    constructor
    · rintro ⟨p, hp, he⟩
      obtain ⟨c', hc', hd, _⟩ := h4 p ((hiter p).1 hp)
      rw [hc'] at he; injection he with he; exact he ▸ hd
    · intro hd
      obtain ⟨p, ⟨hp, he⟩, _⟩ := h3 c hd
      exact ⟨p, (hiter p).2 hp, he⟩

/-! ### Marking in 2D -/

/-- Corner used by the marking loop. -/
def markCorner (p : Int) : Int := max ((p - 1).tdiv 2) 0

theorem markCorner_eq {p : Int} (hp : 0 ≤ p) : markCorner p = if p = 0 then 0 else (p - 1) / 2 := by
  unfold markCorner
  split
  · next h => subst h; decide
  · rw [Int.tdiv_eq_ediv_of_nonneg (by omega)]; omega

/-- Upper positions marked along one axis. -/
def AxisMark (d p q : Int) : Prop :=
  q = markCorner p ∨ (q = markCorner p + 1 ∧ markCorner p ≠ 0 ∧ markCorner p ≠ d - 1)

theorem mem_markTargets2 (d l c : Coord2) :
    c ∈ markTargets2 d l ↔ AxisMark d.x l.x c.x ∧ AxisMark d.z l.z c.z := by
  obtain ⟨cx, cz⟩ := c
  unfold markTargets2 AxisMark
  rw [show max ((l.z - 1).tdiv 2) 0 = markCorner l.z from rfl,
    show max ((l.x - 1).tdiv 2) 0 = markCorner l.x from rfl]
  generalize markCorner l.x = xb
  generalize markCorner l.z = zb
  by_cases h1 : xb = 0 <;> by_cases h2 : xb = d.x - 1 <;> by_cases h3 : zb = 0 <;>
    by_cases h4 : zb = d.z - 1 <;>
    simp [h1, h2, h3, h4, Coord2.mk.injEq] <;> (try omega) <;> (try tauto)

/-- Dimensions of successive cascades along one axis. -/
def Halves (P N : Int) : Prop := 1 ≤ P ∧ (N = P / 2 ∧ 2 ≤ P ∨ N = 1 ∧ P = 1)

theorem halves_shift (X n : Nat) :
    Halves ((max 1 (X >>> n) : Nat) : Int) ((max 1 (X >>> (n + 1)) : Nat) : Int) := by
  have : X >>> (n + 1) = X >>> n / 2 := by rw [Nat.shiftRight_succ]
  rw [this]
  generalize X >>> n = Y
  unfold Halves
  omega

theorem halves2x (c : RcCfg) (c0 : Casc2) (n : Nat) :
    Halves (probeDims2 c c0 n).x (probeDims2 c c0 (n + 1)).x := halves_shift c0.np0 n
theorem halves2z (c : RcCfg) (c0 : Casc2) (n : Nat) :
    Halves (probeDims2 c c0 n).z (probeDims2 c c0 (n + 1)).z := halves_shift c0.np1 n

theorem axisMark_range {P N p q : Int} (h : Halves P N) (hp : 0 ≤ p ∧ p < P) (hq : AxisMark N p q) :
    0 ≤ q ∧ q < N := by
  unfold AxisMark at hq
  rw [markCorner_eq hp.1] at hq
  unfold Halves at h
  split at hq <;> omega

theorem markAll2_spec (d : Coord2) (prev : Coord2 → Bool) : ∀ (ls : List Coord2) (g : Coord2 → Bool),
    (∀ l ∈ ls, prev l = true → ∀ t ∈ markTargets2 d l, inDims2 d t = true) →
    ∃ g', markAll2 d prev ls g = .ok g' ∧
      ∀ c, g' c = true ↔ g c = true ∨ ∃ l ∈ ls, prev l = true ∧ c ∈ markTargets2 d l
  | [], g, _ => ⟨g, rfl, fun c => by simp⟩
  | l :: ls, g, h => by
    unfold markAll2
    by_cases hl : prev l = true
    · rw [if_pos hl]
      obtain ⟨g1, h1, h2⟩ := setFlags_spec (inDims2 d) (markTargets2 d l) g (h l List.mem_cons_self hl)
      obtain ⟨g2, h3, h4⟩ := markAll2_spec d prev ls g1 (fun x hx => h x (List.mem_cons_of_mem _ hx))
      refine ⟨g2, by rw [h1]; simp only [Outcome.ok_bind]; exact h3, fun c => ?_⟩
      rw [h4, h2]
      simp only [List.mem_cons, exists_eq_or_imp]
      tauto
    · rw [if_neg hl]
      obtain ⟨g2, h3, h4⟩ := markAll2_spec d prev ls g (fun x hx => h x (List.mem_cons_of_mem _ hx))
      refine ⟨g2, h3, fun c => ?_⟩
      rw [h4]
      simp only [List.mem_cons, exists_eq_or_imp]
      tauto

/-- Which probes are flagged, as a predicate. -/
def Flagged2 (Base : Coord2 → Prop) (D : Nat → Coord2) : Nat → Coord2 → Prop
  | 0, c => Base c
  | n + 1, c => ∃ l, Flagged2 Base D n l ∧ AxisMark (D (n + 1)).x l.x c.x ∧ AxisMark (D (n + 1)).z l.z c.z

theorem hasData2_dims (B nx nz : Nat) (hB : 0 < B) (Active : Coord2 → Prop) (c : Coord2)
    (h : HasData2 B nx nz Active c) : 0 ≤ c.x ∧ c.x < nx * B ∧ 0 ≤ c.z ∧ c.z < nz * B := by
  obtain ⟨t, ⟨h1, h2, h3, h4⟩, -, ⟨h5, h6, h7, h8⟩⟩ := h
  rw [tile_lt B nx hB] at h2
  rw [tile_lt B nz hB] at h4
  have e1 : (t.x + 1) * B ≤ (nx : Int) * B := mul_le_mul_of_nonneg_right (by omega) (by positivity)
  have e2 : (t.z + 1) * B ≤ (nz : Int) * B := mul_le_mul_of_nonneg_right (by omega) (by positivity)
  have e3 : 0 ≤ t.x * B := mul_nonneg h1 (by positivity)
  have e4 : 0 ≤ t.z * B := mul_nonneg h3 (by positivity)
  omega

theorem flags2_spec (cfg : RcCfg) (c0 : Casc2) (k nx nz : Nat) (Active : Coord2 → Prop)
    (bm : BlockMap Coord2) (hx : FitsI32Axis k nx) (hz : FitsI32Axis k nz)
    (hm : MapFor2 (2 ^ k) nx nz Active bm) (h0 : c0.np0 = nx * 2 ^ k) (h1 : c0.np1 = nz * 2 ^ k)
    (sched : Nat → List Coord2) (hs : ∀ n, (sched n).Perm (cells2 (probeDims2 cfg c0 n))) :
    ∀ n, ∃ g, activeFlags2 (2 ^ k) bm (probeDims2 cfg c0) sched n = .ok g ∧
      (∀ c, g c = true ↔ Flagged2 (HasData2 (2 ^ k) nx nz Active) (probeDims2 cfg c0) n c) ∧
      (∀ c, g c = true → inDims2 (probeDims2 cfg c0 n) c = true)
  | 0 => by
    obtain ⟨l, hl, -, hmem⟩ := c0List2_spec k nx nz Active bm hx hz hm
    have hin : ∀ c ∈ l, inDims2 (probeDims2 cfg c0 0) c = true := by
      intro c hc
      have := hasData2_dims _ nx nz (Nat.two_pow_pos k) Active c ((hmem c).1 hc)
      unfold inDims2 probeDims2 cascadeSize
      rw [decide_eq_true_eq]
      simp only [Nat.shiftRight_zero, h0, h1]
      push_cast at this ⊢
      omega
    obtain ⟨g, hg, hg2⟩ := setFlags_spec (inDims2 (probeDims2 cfg c0 0)) l (fun _ => false) hin
    refine ⟨g, ?_, fun c => ?_, fun c hc => ?_⟩
    · unfold activeFlags2 c0Flags2; rw [hl]; exact hg
    · rw [hg2, hmem]; simp [Flagged2]
    · rw [hg2] at hc; rcases hc with hc | hc
      · exact hin c hc
      · simp at hc
  | n + 1 => by
    obtain ⟨p, hp, hp2, hp3⟩ := flags2_spec cfg c0 k nx nz Active bm hx hz hm h0 h1 sched hs n
    have hrange : ∀ l, p l = true → ∀ t ∈ markTargets2 (probeDims2 cfg c0 (n + 1)) l,
        inDims2 (probeDims2 cfg c0 (n + 1)) t = true := by
      intro l hl t ht
      rw [mem_markTargets2] at ht
      have hd := hp3 l hl
      unfold inDims2 at hd ⊢
      rw [decide_eq_true_eq] at hd ⊢
      have e1 := axisMark_range (halves2x cfg c0 n) ⟨hd.1, hd.2.1⟩ ht.1
      have e2 := axisMark_range (halves2z cfg c0 n) ⟨hd.2.2.1, hd.2.2.2⟩ ht.2
      exact ⟨e1.1, e1.2, e2.1, e2.2⟩
    obtain ⟨g, hg, hg2⟩ := markAll2_spec (probeDims2 cfg c0 (n + 1)) p (sched n) (fun _ => false)
      (fun l _ hl => hrange l hl)
    have hchar : ∀ c, g c = true ↔ ∃ l, p l = true ∧ c ∈ markTargets2 (probeDims2 cfg c0 (n + 1)) l := by
      intro c
      rw [hg2]
      constructor
      · rintro (h | ⟨l, -, hl, hc⟩)
        · simp at h
        · exact ⟨l, hl, hc⟩
      · rintro ⟨l, hl, hc⟩
        exact Or.inr ⟨l, (hs n).mem_iff.2 ((mem_cells2 _ _).2 (hp3 l hl)), hl, hc⟩
    refine ⟨g, ?_, fun c => ?_, fun c hc => ?_⟩
    · unfold activeFlags2; rw [hp]; exact hg
    · rw [hchar]
      unfold Flagged2
      constructor
      · rintro ⟨l, hl, hc⟩; exact ⟨l, (hp2 l).1 hl, (mem_markTargets2 _ _ _).1 hc⟩
      · rintro ⟨l, hl, hc⟩; exact ⟨l, (hp2 l).2 hl, (mem_markTargets2 _ _ _).2 hc⟩
    · obtain ⟨l, hl, ht⟩ := (hchar c).1 hc
      exact hrange l hl c ht

theorem probeList2_spec (d : Coord2) (g : Coord2 → Bool) (hx : d.x ≤ 65536) (hz : d.z ≤ 65536)
    (hg : ∀ c, g c = true → inDims2 d c = true) :
    (probeList2 d g).Nodup ∧ ∀ c, c ∈ probeList2 d g ↔ g c = true := by
  have hperm : (probeList2 d g).Perm ((cells2 d).filter g) := by
    unfold probeList2
    refine ((sortCodes_perm _).map _).trans ?_
    rw [List.map_map]
    have : ((cells2 d).filter g).map (decodeMorton2 ∘ encodeMorton2) = (cells2 d).filter g := by
      conv_rhs => rw [← List.map_id ((cells2 d).filter g)]
      apply List.map_congr_left
      intro c hc
      have hc' := (mem_cells2 d c).1 (List.mem_of_mem_filter hc)
      unfold inDims2 at hc'
      rw [decide_eq_true_eq] at hc'
      exact decode_encode2 c hc'.1 (by omega) hc'.2.2.1 (by omega)
    rw [this]
  refine ⟨hperm.nodup_iff.2 ((nodup_cells2 d).filter _), fun c => ?_⟩
  rw [hperm.mem_iff, List.mem_filter, mem_cells2]
  exact ⟨fun h => h.2, fun h => ⟨hg c h, h⟩⟩

end DexRT

namespace DexRT

theorem list2_spec (cfg : RcCfg) (c0 : Casc2) (k nx nz : Nat) (Active : Coord2 → Prop)
    (bm : BlockMap Coord2) (hx : FitsI32Axis k nx) (hz : FitsI32Axis k nz)
    (hm : MapFor2 (2 ^ k) nx nz Active bm) (h0 : c0.np0 = nx * 2 ^ k) (h1 : c0.np1 = nz * 2 ^ k)
    (hbx : nx * 2 ^ k ≤ 131072) (hbz : nz * 2 ^ k ≤ 131072)
    (sched : Nat → List Coord2) (hs : ∀ n, (sched n).Perm (cells2 (probeDims2 cfg c0 n))) (n : Nat) :
    ∃ l, activeList2 (2 ^ k) bm (probeDims2 cfg c0) sched n = .ok l ∧ l.Nodup ∧
      (∀ c, c ∈ l ↔ Flagged2 (HasData2 (2 ^ k) nx nz Active) (probeDims2 cfg c0) n c) ∧
      (∀ c ∈ l, inDims2 (probeDims2 cfg c0 n) c = true) := by
  obtain ⟨g, hg, hg2, hg3⟩ := flags2_spec cfg c0 k nx nz Active bm hx hz hm h0 h1 sched hs n
  cases n with
  | zero =>
    obtain ⟨l, hl, hn, hmem⟩ := c0List2_spec k nx nz Active bm hx hz hm
    exact ⟨l, hl, hn, hmem, fun c hc => hg3 c ((hg2 c).2 ((hmem c).1 hc))⟩
  | succ n =>
    have hle : ∀ X : Nat, X ≤ 131072 → ((max 1 (X >>> (n + 1)) : Nat) : Int) ≤ 65536 := by
      intro X hX
      have : X >>> (n + 1) ≤ X / 2 := by
        rw [Nat.add_comm, Nat.shiftRight_add]
        exact Nat.shiftRight_le _ _
      omega
    obtain ⟨hnd, hmem⟩ := probeList2_spec (probeDims2 cfg c0 (n + 1)) g
      (hle c0.np0 (by omega)) (hle c0.np1 (by omega)) hg3
    refine ⟨_, ?_, hnd, fun c => (hmem c).trans (hg2 c), fun c hc => hg3 c ((hmem c).1 hc)⟩
    unfold activeList2; simp only [hg, Outcome.ok_bind]

/-! ### 3D -/

theorem run_snoc {C : Type} [DecidableEq C] (G : Geo C) (bm : BlockMap C) (q : Query C) :
    ∀ (qs : List (Query C)) (s s' s'' : IdxState C) (a : Answer), G.run bm s qs = .ok s' →
      G.ask bm s' q = .ok (a, s'') → G.run bm s (qs ++ [q]) = .ok s''
  | [], s, s', s'', a, h1, h2 => by
    unfold Geo.run at h1; injection h1 with h1; subst h1
    simp only [List.nil_append]
    unfold Geo.run; rw [h2]; rfl
  | q0 :: qs, s, s', s'', a, h1, h2 => by
    unfold Geo.run at h1
    simp only [List.cons_append]
    unfold Geo.run
    cases h : G.ask bm s q0 with
    | ok p =>
      rw [h] at h1; simp only [Outcome.ok_bind] at h1 ⊢
      exact run_snoc G bm q qs p.2 s' s'' a h1 h2
    | throws => rw [h] at h1; simp at h1
    | ub => rw [h] at h1; simp at h1

theorem anyLeaf3_spec (k nx ny nz : Nat) (Active : Coord3 → Prop) (bm : BlockMap Coord3)
    (hx : FitsI32Axis k nx) (hy : FitsI32Axis k ny) (hz : FitsI32Axis k nz)
    (hm : MapFor3 (2 ^ k) nx ny nz Active bm) : ∀ (cs : List Coord3),
    (∀ c ∈ cs, 0 ≤ c.x ∧ IsI32Coord3 c) → ∀ (qs : List (Query Coord3)) (s : IdxState Coord3),
    (∀ q ∈ qs, IsI32Coord3 q.coord) → (geo3 (2 ^ k)).run bm (geo3 (2 ^ k)).fresh qs = .ok s →
    ∃ b, anyLeaf3 (2 ^ k) bm cs s = .ok b ∧ (b = true ↔ ∃ c ∈ cs, HasData3 (2 ^ k) nx ny nz Active c)
  | [], _, qs, s, _, _ => ⟨false, rfl, by simp⟩
  | c :: cs, hcs, qs, s, hqs, hrun => by
    have hB : (0 : Int) < (2 ^ k : Nat) := by exact_mod_cast Nat.two_pow_pos k
    obtain ⟨hc0, hci⟩ := hcs c List.mem_cons_self
    have hst := C06_cache3_partial k nx ny nz Active bm hx hy hz hm qs hqs s hrun c hci
      (Or.inl (by unfold InTile3; simp only; omega))
    obtain ⟨b, s', hb, hb2⟩ := hst.leaves
    unfold anyLeaf3
    rw [hb]
    simp only [Outcome.ok_bind]
    cases b with
    | true => exact ⟨true, rfl, by simp only [true_iff]; exact ⟨c, List.mem_cons_self, hb2.1 rfl⟩⟩
    | false =>
      have hask : (geo3 (2 ^ k)).ask bm s (.hasLeaves c) = .ok (.leaf false, s') := by
        unfold Geo.ask; simp only; rw [hb]; rfl
      obtain ⟨b', h1, h2⟩ := anyLeaf3_spec k nx ny nz Active bm hx hy hz hm cs
        (fun x hx => hcs x (List.mem_cons_of_mem _ hx)) (qs ++ [.hasLeaves c]) s'
        (by intro q hq; rcases List.mem_append.1 hq with hq | hq
            · exact hqs q hq
            · rw [List.mem_singleton] at hq; subst hq; exact hci)
        (run_snoc _ _ _ qs _ s s' _ hrun hask)
      refine ⟨b', by simpa using h1, h2.trans ?_⟩
      simp only [List.mem_cons, exists_eq_or_imp]
      constructor
      · exact Or.inr
      · rintro (h | h)
        · exact absurd (hb2.2 h) (by simp)
        · exact h

theorem anyFlag3_spec (pd : Coord3) (prev : Coord3 → Bool) : ∀ (cs : List Coord3),
    (∀ c ∈ cs, inDims3 pd c = true) →
    ∃ b, anyFlag3 pd prev cs = .ok b ∧ (b = true ↔ ∃ c ∈ cs, prev c = true)
  | [], _ => ⟨false, rfl, by simp⟩
  | c :: cs, h => by
    obtain ⟨b, h1, h2⟩ := anyFlag3_spec pd prev cs (fun x hx => h x (List.mem_cons_of_mem _ hx))
    unfold anyFlag3
    rw [h c List.mem_cons_self]
    simp only [Bool.not_true, Bool.false_eq_true, if_false]
    by_cases hp : prev c = true
    · rw [if_pos hp]; exact ⟨true, rfl, by simp only [true_iff]; exact ⟨c, List.mem_cons_self, hp⟩⟩
    · rw [if_neg hp]
      refine ⟨b, h1, h2.trans ?_⟩
      simp only [List.mem_cons, exists_eq_or_imp]
      tauto

theorem gatherAll3_spec (check : Coord3 → Outcome Bool) (P : Coord3 → Prop) : ∀ (cs : List Coord3),
    (∀ c ∈ cs, ∃ b, check c = .ok b ∧ (b = true ↔ P c)) →
    ∃ g, gatherAll3 check cs = .ok g ∧ ∀ c, g c = true ↔ c ∈ cs ∧ P c
  | [], _ => ⟨fun _ => false, rfl, by simp⟩
  | c :: cs, h => by
    obtain ⟨b, hb, hb2⟩ := h c List.mem_cons_self
    obtain ⟨g, hg, hg2⟩ := gatherAll3_spec check P cs (fun x hx => h x (List.mem_cons_of_mem _ hx))
    refine ⟨fun c' => if c' = c then b else g c', ?_, fun c' => ?_⟩
    · unfold gatherAll3; rw [hb]; simp only [Outcome.ok_bind]; rw [hg]; rfl
    · simp only
      split
      · next he => subst he; rw [hb2]; simp
      · next he => rw [hg2]; simp [he]

theorem insertByCode_perm (c : Coord3) (l : List Coord3) : (insertByCode c l).Perm (c :: l) := by
  induction l with
  | nil => exact List.Perm.refl _
  | cons k ks ih =>
    unfold insertByCode
    split
    · exact List.Perm.refl _
    · exact (ih.cons k).trans (List.Perm.swap c k ks)

theorem sortByCode_perm (l : List Coord3) : (sortByCode l).Perm l := by
  induction l with
  | nil => exact List.Perm.refl _
  | cons m ms ih => exact (insertByCode_perm m _).trans (ih.cons m)

theorem mem_gatherRange (p v : Int) : v ∈ gatherRange p ↔ 2 * p - 1 ≤ v ∧ v ≤ 2 * p + 2 := by
  unfold gatherRange
  simp only [List.mem_cons, List.not_mem_nil, or_false]
  omega

/-- Positions of the cascade below inspected along one axis. -/
def AxisGather (P q p : Int) : Prop := ∃ v, 2 * q - 1 ≤ v ∧ v ≤ 2 * q + 2 ∧ p = clampAxis v P

theorem mem_gatherCoords3 (pd c l : Coord3) : l ∈ gatherCoords3 pd c ↔
    AxisGather pd.x c.x l.x ∧ AxisGather pd.y c.y l.y ∧ AxisGather pd.z c.z l.z := by
  unfold gatherCoords3 AxisGather
  simp only [List.mem_flatMap, List.mem_map, mem_gatherRange]
  constructor
  · rintro ⟨z, hz, y, hy, x, hx, rfl⟩
    exact ⟨⟨x, hx.1, hx.2, rfl⟩, ⟨y, hy.1, hy.2, rfl⟩, ⟨z, hz.1, hz.2, rfl⟩⟩
  · rintro ⟨⟨x, hx1, hx2, hx3⟩, ⟨y, hy1, hy2, hy3⟩, ⟨z, hz1, hz2, hz3⟩⟩
    exact ⟨z, ⟨hz1, hz2⟩, y, ⟨hy1, hy2⟩, x, ⟨hx1, hx2⟩, by rw [← hx3, ← hy3, ← hz3]⟩

theorem axisGather_range {P q p : Int} (hP : 1 ≤ P) (h : AxisGather P q p) : 0 ≤ p ∧ p < P := by
  obtain ⟨v, _, _, rfl⟩ := h
  unfold clampAxis; omega

/-- Which 3D probes are listed, as a predicate. -/
def Listed3 (Base : Coord3 → Prop) (D : Nat → Coord3) : Nat → Coord3 → Prop
  | 0, c => Base c
  | n + 1, c => inDims3 (D (n + 1)) c = true ∧
      ∃ l, Listed3 Base D n l ∧ AxisGather (D n).x c.x l.x ∧ AxisGather (D n).y c.y l.y ∧
        AxisGather (D n).z c.z l.z

theorem probeDims3_pos (b : Branch3) (c0 : Casc3) (n : Nat) :
    1 ≤ (probeDims3 b c0 n).x ∧ 1 ≤ (probeDims3 b c0 n).y ∧ 1 ≤ (probeDims3 b c0 n).z := by
  unfold probeDims3 cascadeSize3; simp only; omega

theorem gather_inDims (b : Branch3) (c0 : Casc3) (n : Nat) (c l : Coord3)
    (h : l ∈ gatherCoords3 (probeDims3 b c0 n) c) : inDims3 (probeDims3 b c0 n) l = true := by
  rw [mem_gatherCoords3] at h
  have hp := probeDims3_pos b c0 n
  have h1 := axisGather_range hp.1 h.1
  have h2 := axisGather_range hp.2.1 h.2.1
  have h3 := axisGather_range hp.2.2 h.2.2
  unfold inDims3; rw [decide_eq_true_eq]
  exact ⟨h1.1, h1.2, h2.1, h2.2, h3.1, h3.2⟩

theorem flags3_spec (br : Branch3) (c0 : Casc3) (k nx ny nz : Nat) (Active : Coord3 → Prop)
    (bm : BlockMap Coord3) (hx : FitsI32Axis k nx) (hy : FitsI32Axis k ny) (hz : FitsI32Axis k nz)
    (hm : MapFor3 (2 ^ k) nx ny nz Active bm)
    (h0 : c0.np0 = nx * 2 ^ k) (h1 : c0.np1 = ny * 2 ^ k) (h2 : c0.np2 = nz * 2 ^ k) :
    ∀ n, ∃ g, activeFlags3 (2 ^ k) bm (probeDims3 br c0) n = .ok g ∧
      (∀ c, g c = true ↔ Listed3 (HasData3 (2 ^ k) nx ny nz Active) (probeDims3 br c0) (n + 1) c)
  | 0 => by
    obtain ⟨g, hg, hg2⟩ := gatherAll3_spec
      (fun c => anyLeaf3 (2 ^ k) bm (gatherCoords3 (probeDims3 br c0 0) c) (geo3 (2 ^ k)).fresh)
      (fun c => ∃ l ∈ gatherCoords3 (probeDims3 br c0 0) c, HasData3 (2 ^ k) nx ny nz Active l)
      (cells3 (probeDims3 br c0 1)) (by
        intro c _
        refine anyLeaf3_spec k nx ny nz Active bm hx hy hz hm _ ?_ [] _ (by simp) rfl
        intro l hl
        have := gather_inDims br c0 0 c l hl
        unfold inDims3 probeDims3 cascadeSize3 at this
        rw [decide_eq_true_eq] at this
        simp only [Nat.shiftRight_zero, h0, h1, h2] at this
        unfold FitsI32Axis i32Max at hx hy hz
        unfold IsI32Coord3
        push_cast at this hx hy hz
        omega)
    refine ⟨g, hg, fun c => ?_⟩
    rw [hg2, mem_cells3]
    unfold Listed3
    simp only [mem_gatherCoords3, Listed3]
    refine and_congr_right fun _ => ?_
    constructor
    · rintro ⟨l, h1, h2⟩; exact ⟨l, h2, h1⟩
    · rintro ⟨l, h1, h2⟩; exact ⟨l, h2, h1⟩
  | n + 1 => by
    obtain ⟨p, hp, hp2⟩ := flags3_spec br c0 k nx ny nz Active bm hx hy hz hm h0 h1 h2 n
    obtain ⟨g, hg, hg2⟩ := gatherAll3_spec
      (fun c => anyFlag3 (probeDims3 br c0 (n + 1)) p (gatherCoords3 (probeDims3 br c0 (n + 1)) c))
      (fun c => ∃ l ∈ gatherCoords3 (probeDims3 br c0 (n + 1)) c, p l = true)
      (cells3 (probeDims3 br c0 (n + 2))) (fun c _ =>
        anyFlag3_spec _ _ _ (fun l hl => gather_inDims br c0 (n + 1) c l hl))
    refine ⟨g, by unfold activeFlags3; rw [hp]; exact hg, fun c => ?_⟩
    rw [hg2, mem_cells3]
    conv_rhs => unfold Listed3
    simp only [mem_gatherCoords3, hp2]
    refine and_congr_right fun _ => ?_
    constructor
    · rintro ⟨l, h1, h2⟩; exact ⟨l, h2, h1⟩
    · rintro ⟨l, h1, h2⟩; exact ⟨l, h2, h1⟩

theorem list3_spec (br : Branch3) (c0 : Casc3) (k nx ny nz : Nat) (Active : Coord3 → Prop)
    (bm : BlockMap Coord3) (hx : FitsI32Axis k nx) (hy : FitsI32Axis k ny) (hz : FitsI32Axis k nz)
    (hm : MapFor3 (2 ^ k) nx ny nz Active bm)
    (h0 : c0.np0 = nx * 2 ^ k) (h1 : c0.np1 = ny * 2 ^ k) (h2 : c0.np2 = nz * 2 ^ k) (n : Nat) :
    ∃ l, activeList3 (2 ^ k) bm (probeDims3 br c0) n = .ok l ∧ l.Nodup ∧
      (∀ c, c ∈ l ↔ Listed3 (HasData3 (2 ^ k) nx ny nz Active) (probeDims3 br c0) n c) := by
  cases n with
  | zero => exact c0List3_spec k nx ny nz Active bm hx hy hz hm
  | succ n =>
    obtain ⟨g, hg, hg2⟩ := flags3_spec br c0 k nx ny nz Active bm hx hy hz hm h0 h1 h2 n
    refine ⟨sortByCode ((cells3 (probeDims3 br c0 (n + 1))).filter g), ?_, ?_, fun c => ?_⟩
    · unfold activeList3; simp only [hg, Outcome.ok_bind]
    · exact (sortByCode_perm _).nodup_iff.2 ((nodup_cells3 _).filter _)
    · rw [(sortByCode_perm _).mem_iff, List.mem_filter, hg2, mem_cells3]
      constructor
      · exact fun h => h.2
      · intro h; exact ⟨by unfold Listed3 at h; exact h.1, h⟩

theorem hasData3_dims (B nx ny nz : Nat) (hB : 0 < B) (Active : Coord3 → Prop) (c : Coord3)
    (h : HasData3 B nx ny nz Active c) :
    0 ≤ c.x ∧ c.x < nx * B ∧ 0 ≤ c.y ∧ c.y < ny * B ∧ 0 ≤ c.z ∧ c.z < nz * B := by
  obtain ⟨t, ⟨h1, h2, h3, h4, h5, h6⟩, -, ⟨g1, g2, g3, g4, g5, g6⟩⟩ := h
  rw [tile_lt B nx hB] at h2
  rw [tile_lt B ny hB] at h4
  rw [tile_lt B nz hB] at h6
  have e1 : (t.x + 1) * B ≤ (nx : Int) * B := mul_le_mul_of_nonneg_right (by omega) (by positivity)
  have e2 : (t.z + 1) * B ≤ (nz : Int) * B := mul_le_mul_of_nonneg_right (by omega) (by positivity)
  have e5 : (t.y + 1) * B ≤ (ny : Int) * B := mul_le_mul_of_nonneg_right (by omega) (by positivity)
  have e3 : 0 ≤ t.x * B := mul_nonneg h1 (by positivity)
  have e4 : 0 ≤ t.z * B := mul_nonneg h5 (by positivity)
  have e6 : 0 ≤ t.y * B := mul_nonneg h3 (by positivity)
  omega

/-! ### What a merge needs -/

/-- Upper positions with non-zero weight along one axis. -/
def AxisNeed (N p q : Int) : Prop :=
  q = markCorner p ∨ (q = markCorner p + 1 ∧ markCorner p ≠ N - 1 ∧ p ≠ 0)

theorem axisNeed_mark {N p q : Int} (hp : 0 ≤ p) (h : AxisNeed N p q) :
    AxisMark N p q ∨ ((p = 1 ∨ p = 2) ∧ q = 1 ∧ N ≠ 1) := by
  unfold AxisNeed at h
  unfold AxisMark
  rw [markCorner_eq hp] at h ⊢
  split at h <;> simp_all <;> omega

theorem axisNeed_gather {P N p q : Int} (hd : Halves P N) (hp : 0 ≤ p ∧ p < P) (h : AxisNeed N p q) :
    AxisGather P q p ∧ 0 ≤ q ∧ q < N := by
  unfold AxisNeed at h
  rw [markCorner_eq hp.1] at h
  unfold Halves at hd
  refine ⟨⟨p, ?_⟩, ?_⟩
  · unfold clampAxis; split at h <;> omega
  · split at h <;> omega

theorem corner_eq (p : Int) : (cornerAxis p).1 = markCorner p := rfl

theorem frac_ne {p : Int} (h : 1 - (cornerAxis p).2 ≠ 0) : p ≠ 0 := by
  rintro rfl; rw [cornerAxis_zero] at h; simp at h

theorem bilinear_need {u v nu nv : Int} {k : Nat}
    (hw : (bilinearSample u v nu nv k).2 ≠ 0) :
    AxisNeed nu u (bilinearSample u v nu nv k).1.1 ∧ AxisNeed nv v (bilinearSample u v nu nv k).1.2 := by
  unfold bilinearSample at hw ⊢
  simp only [corner_eq] at hw ⊢
  unfold AxisNeed
  match k with
  | 0 => simp [bilinearOffset]
  | 1 =>
    simp only [bilinearWeight, ne_eq, mul_eq_zero, not_or] at hw
    have := frac_ne hw.1
    unfold bilinearOffset; simp only
    by_cases h : markCorner u = nu - 1 <;> simp [h, this]
  | 2 =>
    simp only [bilinearWeight, ne_eq, mul_eq_zero, not_or] at hw
    have := frac_ne hw.2
    unfold bilinearOffset; simp only
    by_cases h : markCorner v = nv - 1 <;> simp [h, this]
  | k + 3 =>
    simp only [bilinearWeight, ne_eq, mul_eq_zero, not_or] at hw
    have h1 := frac_ne hw.1
    have h2 := frac_ne hw.2
    unfold bilinearOffset; simp only
    by_cases h : markCorner v = nv - 1 <;> by_cases h' : markCorner u = nu - 1 <;> simp [h, h', h1, h2]

theorem min_need {N p : Int} (hN : markCorner p ≤ N - 1) :
    AxisNeed N p (min (markCorner p) (N - 1)) ∧
    (p ≠ 0 → AxisNeed N p (min (markCorner p + 1) (N - 1))) := by
  unfold AxisNeed
  constructor
  · left; omega
  · intro h
    by_cases h' : markCorner p = N - 1
    · left; omega
    · right; omega

theorem trilinear_need {u v w nu nv nw : Int} {k : Nat} (hu : markCorner u ≤ nu - 1)
    (hv : markCorner v ≤ nv - 1) (hww : markCorner w ≤ nw - 1)
    (hw : (trilinearSample u v w nu nv nw k).2 ≠ 0) :
    AxisNeed nu u (trilinearSample u v w nu nv nw k).1.1 ∧
    AxisNeed nv v (trilinearSample u v w nu nv nw k).1.2.1 ∧
    AxisNeed nw w (trilinearSample u v w nu nv nw k).1.2.2 := by
  have hU := min_need hu
  have hV := min_need hv
  have hW := min_need hww
  unfold trilinearSample at hw ⊢
  simp only [corner_eq] at hw ⊢
  match k with
  | 0 => exact ⟨hU.1, hV.1, hW.1⟩
  | 1 =>
    simp only [trilinearWeight, ne_eq, mul_eq_zero, not_or] at hw
    exact ⟨hU.2 (frac_ne hw.1.1), hV.1, hW.1⟩
  | 2 =>
    simp only [trilinearWeight, ne_eq, mul_eq_zero, not_or] at hw
    exact ⟨hU.1, hV.2 (frac_ne hw.1.2), hW.1⟩
  | 3 =>
    simp only [trilinearWeight, ne_eq, mul_eq_zero, not_or] at hw
    exact ⟨hU.1, hV.1, hW.2 (frac_ne hw.2)⟩
  | 4 =>
    simp only [trilinearWeight, ne_eq, mul_eq_zero, not_or] at hw
    exact ⟨hU.2 (frac_ne hw.1.1), hV.2 (frac_ne hw.1.2), hW.1⟩
  | 5 =>
    simp only [trilinearWeight, ne_eq, mul_eq_zero, not_or] at hw
    exact ⟨hU.2 (frac_ne hw.1.1), hV.1, hW.2 (frac_ne hw.2)⟩
  | 6 =>
    simp only [trilinearWeight, ne_eq, mul_eq_zero, not_or] at hw
    exact ⟨hU.1, hV.2 (frac_ne hw.1.2), hW.2 (frac_ne hw.2)⟩
  | k + 7 =>
    simp only [trilinearWeight, ne_eq, mul_eq_zero, not_or] at hw
    exact ⟨hU.2 (frac_ne hw.1.1), hV.2 (frac_ne hw.1.2), hW.2 (frac_ne hw.2)⟩

/-- Near the low edge the flagged set is a union of whole runs while tiles are wide enough. -/
theorem flagged2_runs (nx nz k : Nat) (Active : Coord2 → Prop) (D : Nat → Coord2) :
    ∀ n, n ≤ k → ∀ l, Flagged2 (HasData2 (2 ^ k) nx nz Active) D n l →
      (l.x ≤ 2 ^ (k - n) - 2 → ∀ x' : Int, 0 ≤ x' → x' ≤ 2 ^ (k - n) - 1 →
        Flagged2 (HasData2 (2 ^ k) nx nz Active) D n { x := x', z := l.z }) ∧
      (l.z ≤ 2 ^ (k - n) - 2 → ∀ z' : Int, 0 ≤ z' → z' ≤ 2 ^ (k - n) - 1 →
        Flagged2 (HasData2 (2 ^ k) nx nz Active) D n { x := l.x, z := z' })
  | 0, _, l, hl => by
    obtain ⟨t, hg, ha, ⟨h5, h6, h7, h8⟩⟩ := hl
    have hg1 := hg.1; have hg3 := hg.2.2.1
    have hpos : (0 : Int) < ((2 ^ k : Nat) : Int) := by exact_mod_cast Nat.two_pow_pos k
    have hcast : ((2 ^ k : Nat) : Int) = 2 ^ k := by push_cast; rfl
    simp only [Nat.sub_zero]
    rw [← hcast]
    constructor
    · intro hx x' h1 h2
      have : t.x = 0 := by
        by_contra hne
        have : ((2 ^ k : Nat) : Int) ≤ t.x * ((2 ^ k : Nat) : Int) := le_mul_of_one_le_left hpos.le (by omega)
        linarith
      refine ⟨t, hg, ha, ?_, ?_, h7, h8⟩ <;> simp only <;> rw [this] <;> linarith
    · intro hx x' h1 h2
      have : t.z = 0 := by
        by_contra hne
        have : ((2 ^ k : Nat) : Int) ≤ t.z * ((2 ^ k : Nat) : Int) := le_mul_of_one_le_left hpos.le (by omega)
        linarith
      refine ⟨t, hg, ha, h5, h6, ?_, ?_⟩ <;> simp only <;> rw [this] <;> linarith
  | n + 1, hn, c, hc => by
    obtain ⟨l, hl, hmx, hmz⟩ := hc
    have hstep := flagged2_runs nx nz k Active D n (by omega) l hl
    have hp : (2 : Int) ^ (k - n) = 2 * 2 ^ (k - (n + 1)) := by
      rw [show k - n = (k - (n + 1)) + 1 by omega, pow_succ]; ring
    rw [hp] at hstep
    generalize (2 : Int) ^ (k - (n + 1)) = w at *
    have hback : ∀ N p q, AxisMark N p q → 2 * q + 2 ≥ p := by
      intro N p q h
      rcases lt_or_ge p 0 with hp | hp
      · unfold AxisMark markCorner at h; omega
      · unfold AxisMark at h
        rw [markCorner_eq hp] at h
        split at h <;> omega
    have hcor : ∀ q : Int, 0 ≤ q → markCorner (if q = 0 then 0 else 2 * q + 1) = q := by
      intro q hq
      split
      · next h => subst h; decide
      · rw [markCorner_eq (by omega)]; split <;> omega
    constructor
    · intro hx x' h1 h2
      have hb := hback _ _ _ hmx
      refine ⟨_, hstep.1 (by omega) (if x' = 0 then 0 else 2 * x' + 1) (by split <;> omega) (by split <;> omega), ?_, hmz⟩
      exact Or.inl (hcor x' h1).symm
    · intro hx x' h1 h2
      have hb := hback _ _ _ hmz
      refine ⟨_, hstep.2 (by omega) (if x' = 0 then 0 else 2 * x' + 1) (by split <;> omega) (by split <;> omega), hmx, ?_⟩
      exact Or.inl (hcor x' h1).symm

end DexRT
