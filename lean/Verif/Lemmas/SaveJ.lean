import Verif.Spec.SaveJ
import Verif.Props.Sparse
import Mathlib.Order.Interval.Finset.Defs
import Mathlib.Data.Int.Interval
import Mathlib.Data.Finset.Prod
/-! Counting active tiles. -/
namespace DexRT

theorem count_active {C : Type} [DecidableEq C] {dec : BitVec 32 → C} {Grid Active : C → Prop} {bm : BlockMap C}
    (h : TileNumbering dec Grid Active bm) (G : Finset C) (hG : ∀ c, c ∈ G ↔ Grid c) :
    ((∀ c, Grid c → Active c) → bm.numActive = G.card) ∧
    ((∃ c, Grid c ∧ ¬ Active c) → bm.numActive < G.card) := by
  set L := bm.activeTiles.map dec with hL
  have hmem : ∀ c ∈ L, Grid c ∧ Active c := by
    intro c hc
    rw [List.mem_iff_getElem] at hc
    obtain ⟨i, hi, rfl⟩ := hc
    have hi' : i < bm.activeTiles.length := by simpa [hL] using hi
    have := h.listed i hi'
    simp only [hL, List.getElem_map]
    exact ⟨this.1, this.2.1⟩
  have hnd : L.Nodup := by
    rw [List.nodup_iff_getElem?_ne_getElem?]
    intro i j hij hj heq
    have hj' : j < bm.activeTiles.length := by simpa [hL] using hj
    have e1 := (h.listed i (by omega)).2.2
    have e2 := (h.listed j hj').2.2
    have : dec bm.activeTiles[i] = dec bm.activeTiles[j] := by
      simpa [hL, List.getElem?_eq_getElem hj', List.getElem?_eq_getElem (show i < bm.activeTiles.length by omega)] using heq
    rw [this, e2] at e1
    omega
  have hcard : (L.toFinset.card : Int) = bm.numActive := by
    rw [List.toFinset_card_of_nodup hnd, ← h.count]; simp [hL]
  have hsub : L.toFinset ⊆ G := by
    intro c hc
    rw [List.mem_toFinset] at hc
    exact (hG c).2 (hmem c hc).1
  constructor
  · intro hall
    have : L.toFinset = G := by
      apply Finset.Subset.antisymm hsub
      intro c hc
      have hg := (hG c).1 hc
      obtain ⟨h0, h1⟩ := h.active c hg (hall c hg)
      obtain ⟨i, hi⟩ := Int.eq_ofNat_of_zero_le h0
      have hilen : i < bm.activeTiles.length := by have := h.count; omega
      obtain ⟨g1, g2, g3⟩ := h.listed i hilen
      have := h.injective c _ hg g1 (hall c hg) g2 (by rw [hi, g3])
      rw [List.mem_toFinset, this, hL]
      exact List.mem_map_of_mem (List.getElem_mem hilen)
    rw [← hcard, this]
  · rintro ⟨c, hg, hna⟩
    rw [← hcard]
    have : L.toFinset ⊂ G := by
      rw [Finset.ssubset_iff_of_subset hsub]
      exact ⟨c, (hG c).2 hg, fun hc => hna (hmem c (List.mem_toFinset.1 hc)).2⟩
    exact_mod_cast Finset.card_lt_card this

theorem count_active2 {k nx nz : Nat} {Active : Coord2 → Prop} {bm : BlockMap Coord2}
    (hm : MapFor2 (2 ^ k) nx nz Active bm) :
    ((∀ t, GridTile2 (2 ^ k) (nx * (2 ^ k : Nat)) (nz * (2 ^ k : Nat)) t → Active t) → bm.numActive = nx * nz) ∧
    ((∃ t, GridTile2 (2 ^ k) (nx * (2 ^ k : Nat)) (nz * (2 ^ k : Nat)) t ∧ ¬ Active t) → bm.numActive < nx * nz) := by
  have hB : (0 : Int) < ((2 ^ k : Nat) : Int) := by exact_mod_cast Nat.two_pow_pos k
  have hinj : Function.Injective (fun p : Int × Int => (⟨p.1, p.2⟩ : Coord2)) := by
    rintro ⟨a, b⟩ ⟨c, d⟩ h; simp only [Coord2.mk.injEq] at h; exact Prod.ext h.1 h.2
  have := count_active hm.numbering
    ((Finset.Ico (0 : Int) nx ×ˢ Finset.Ico (0 : Int) nz).image (fun p => (⟨p.1, p.2⟩ : Coord2)))
    (by
      intro c
      simp only [Finset.mem_image, Finset.mem_product, Finset.mem_Ico, Prod.exists]
      unfold GridTile2
      constructor
      · rintro ⟨a, b, ⟨⟨h1, h2⟩, h3, h4⟩, rfl⟩
        exact ⟨h1, mul_lt_mul_of_pos_right h2 hB, h3, mul_lt_mul_of_pos_right h4 hB⟩
      · rintro ⟨h1, h2, h3, h4⟩
        exact ⟨c.x, c.z, ⟨⟨h1, lt_of_mul_lt_mul_right h2 hB.le⟩, h3, lt_of_mul_lt_mul_right h4 hB.le⟩, rfl⟩)
  rw [Finset.card_image_of_injective _ hinj, Finset.card_product, Int.card_Ico, Int.card_Ico] at this
  simpa using this

theorem count_active3 {k nx ny nz : Nat} {Active : Coord3 → Prop} {bm : BlockMap Coord3}
    (hm : MapFor3 (2 ^ k) nx ny nz Active bm) :
    ((∀ t, GridTile3 (2 ^ k) (nx * (2 ^ k : Nat)) (ny * (2 ^ k : Nat)) (nz * (2 ^ k : Nat)) t → Active t) →
      bm.numActive = nx * ny * nz) ∧
    ((∃ t, GridTile3 (2 ^ k) (nx * (2 ^ k : Nat)) (ny * (2 ^ k : Nat)) (nz * (2 ^ k : Nat)) t ∧ ¬ Active t) →
      bm.numActive < nx * ny * nz) := by
  have hB : (0 : Int) < ((2 ^ k : Nat) : Int) := by exact_mod_cast Nat.two_pow_pos k
  have hinj : Function.Injective (fun p : Int × Int × Int => (⟨p.1, p.2.1, p.2.2⟩ : Coord3)) := by
    rintro ⟨a, b, e⟩ ⟨c, d, f⟩ h; simp only [Coord3.mk.injEq] at h
    exact Prod.ext h.1 (Prod.ext h.2.1 h.2.2)
  have := count_active hm.numbering
    ((Finset.Ico (0 : Int) nx ×ˢ Finset.Ico (0 : Int) ny ×ˢ Finset.Ico (0 : Int) nz).image
      (fun p => (⟨p.1, p.2.1, p.2.2⟩ : Coord3)))
    (by
      intro c
      simp only [Finset.mem_image, Finset.mem_product, Finset.mem_Ico, Prod.exists]
      unfold GridTile3
      constructor
      · rintro ⟨a, b, e, ⟨⟨h1, h2⟩, ⟨h3, h4⟩, h5, h6⟩, rfl⟩
        exact ⟨h1, mul_lt_mul_of_pos_right h2 hB, h3, mul_lt_mul_of_pos_right h4 hB, h5,
          mul_lt_mul_of_pos_right h6 hB⟩
      · rintro ⟨h1, h2, h3, h4, h5, h6⟩
        exact ⟨c.x, c.y, c.z, ⟨⟨h1, lt_of_mul_lt_mul_right h2 hB.le⟩, ⟨h3, lt_of_mul_lt_mul_right h4 hB.le⟩,
          h5, lt_of_mul_lt_mul_right h6 hB.le⟩, rfl⟩)
  rw [Finset.card_image_of_injective _ hinj, Finset.card_product, Finset.card_product, Int.card_Ico, Int.card_Ico,
    Int.card_Ico] at this
  simpa [mul_assoc] using this

end DexRT
