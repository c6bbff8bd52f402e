import Verif.Spec.VelInterp
import Verif.Lemmas.Sparse
import Mathlib.Tactic.Linarith
import Mathlib.Tactic.NormNum
import Mathlib.Tactic.Positivity
import Mathlib.Tactic.Ring
import Mathlib.Tactic.FieldSimp
/-! Lemmas about the velocity table and the range of projected velocities. -/
namespace DexRT.VelInterp
open DexRT DexRT.Dir

theorem fits_iff (t : ℤ) : fitsI32 t = true ↔ (-2147483648 ≤ t ∧ t ≤ 2147483647) := by simp [fitsI32]

theorem tabAt_some (tab : List Pair) (i : ℤ) (j : ℕ) (hi : i = j) (a : Pair) (h : tab[j]? = some a) : tabAt tab i = .ok a := by
  subst hi
  simp [tabAt, readAt, h]

theorem pair_one (a b : Pair) : (⟨1 * a.eta + 0 * b.eta, 1 * a.chi + 0 * b.chi⟩ : Pair) = a := by simp

/-- Inside the table. -/
theorem sample_mid (bins : ℕ) (hb : bins < 2147483648) (start step : ℝ) (hs : 0 < step) (tab : List Pair) (ht : tab.length = bins)
    (vel : ℝ) (h0 : start ≤ vel) (h1 : vel < start + ((bins : ℝ) - 1) * step) :
    ∃ (j : ℕ) (t : ℝ) (a b : Pair), 0 ≤ t ∧ t < 1 ∧ tab[j]? = some a ∧ tab[j + 1]? = some b ∧ vel = start + (j + t) * step ∧
      sample bins start step tab vel = .ok ⟨(1 - t) * a.eta + t * b.eta, (1 - t) * a.chi + t * b.chi⟩ := by
  obtain ⟨frac, hf⟩ : ∃ frac, frac = (vel - start) / step := ⟨_, rfl⟩
  have hv : vel = start + frac * step := by rw [hf]; field_simp; ring
  have f0 : 0 ≤ frac := by rw [hf]; apply div_nonneg (by linarith) hs.le
  have f1 : frac < (bins : ℝ) - 1 := by
    by_contra hc
    push Not at hc
    nlinarith
  obtain ⟨j, hj⟩ : ∃ j : ℕ, ⌊frac⌋ = j := ⟨⌊frac⌋.toNat, by rw [Int.toNat_of_nonneg (Int.floor_nonneg.2 f0)]⟩
  have hl := Int.floor_le frac
  have hu := Int.lt_floor_add_one frac
  rw [hj] at hl hu
  push_cast at hl hu
  have hjb : j + 1 < bins := by
    have : (j : ℝ) + 1 < (bins : ℝ) := by linarith
    exact_mod_cast this
  have e1 : tab[j]? = some tab[j] := List.getElem?_eq_getElem (by omega)
  have e2 : tab[j + 1]? = some tab[j + 1] := List.getElem?_eq_getElem (by omega)
  refine ⟨j, frac - j, tab[j], tab[j + 1], by linarith, by linarith, e1, e2, by rw [hv]; ring, ?_⟩
  have hns : ¬ (step = 0) := ne_of_gt hs
  have htr : truncInt frac = .ok (j : ℤ) := by
    unfold truncInt
    rw [if_pos f0, hj, if_pos ((fits_iff _).2 (by omega))]
  unfold sample
  simp only [if_neg hns]
  rw [← hf, htr, Outcome.ok_bind, if_neg (by push Not; exact ⟨f0, f1⟩), tabAt_some tab j j rfl _ e1, Outcome.ok_bind,
    tabAt_some tab _ (j + 1) (by push_cast; ring) _ e2, Outcome.ok_bind]
  norm_num

/-- Outside of the table. -/
theorem sample_low (bins : ℕ) (hb1 : 1 ≤ bins) (start step : ℝ) (hs : 0 < step) (tab : List Pair)
    (ht : tab.length = bins) (vel : ℝ) (h0 : vel < start) (h1 : start - 2147483648 * step ≤ vel) :
    ∃ a, tab[0]? = some a ∧ sample bins start step tab vel = .ok a := by
  obtain ⟨frac, hf⟩ : ∃ frac, frac = (vel - start) / step := ⟨_, rfl⟩
  have hv : vel = start + frac * step := by rw [hf]; field_simp; ring
  have f0 : frac < 0 := by rw [hf]; apply div_neg_of_neg_of_pos (by linarith) hs
  have f1 : -2147483648 ≤ frac := by
    by_contra hc
    push Not at hc
    nlinarith
  have hns : ¬ (step = 0) := ne_of_gt hs
  have c0 : ⌈frac⌉ ≤ 0 := Int.ceil_le.2 (by exact_mod_cast f0.le)
  have c1 : -2147483648 ≤ ⌈frac⌉ := by
    have := Int.le_ceil frac
    have : (-2147483648 : ℝ) ≤ (⌈frac⌉ : ℝ) := by linarith
    exact_mod_cast this
  have htr : truncInt frac = .ok ⌈frac⌉ := by
    unfold truncInt
    have hn : ¬ (0 ≤ frac) := by linarith
    rw [if_neg hn, if_pos ((fits_iff _).2 (by omega))]
  have e1 : tab[0]? = some tab[0] := List.getElem?_eq_getElem (by omega)
  refine ⟨tab[0], e1, ?_⟩
  unfold sample
  simp only [if_neg hns]
  rw [← hf, htr, Outcome.ok_bind, if_pos (Or.inl f0)]
  rw [tabAt_some tab _ 0 (by push_cast; omega) _ e1, Outcome.ok_bind, Outcome.ok_bind, pair_one]

theorem sample_high (bins : ℕ) (hb1 : 1 ≤ bins) (hb : bins < 2147483648) (start step : ℝ) (hs : 0 < step) (tab : List Pair)
    (ht : tab.length = bins) (vel : ℝ) (h0 : start + ((bins : ℝ) - 1) * step ≤ vel) (h1 : vel < start + 2147483648 * step) :
    ∃ a, tab[bins - 1]? = some a ∧ sample bins start step tab vel = .ok a := by
  obtain ⟨frac, hf⟩ : ∃ frac, frac = (vel - start) / step := ⟨_, rfl⟩
  have hv : vel = start + frac * step := by rw [hf]; field_simp; ring
  have f0 : (bins : ℝ) - 1 ≤ frac := by
    by_contra hc
    push Not at hc
    nlinarith
  have f1 : frac < 2147483648 := by
    by_contra hc
    push Not at hc
    nlinarith
  have hb1' : (1 : ℝ) ≤ bins := by exact_mod_cast hb1
  have hns : ¬ (step = 0) := ne_of_gt hs
  have c0 : (bins : ℤ) - 1 ≤ ⌊frac⌋ := Int.le_floor.2 (by push_cast; exact f0)
  have c1 : ⌊frac⌋ < 2147483648 := Int.floor_lt.2 (by push_cast; exact f1)
  have htr : truncInt frac = .ok ⌊frac⌋ := by
    unfold truncInt
    have hn : 0 ≤ frac := by linarith
    rw [if_pos hn, if_pos ((fits_iff _).2 (by omega))]
  have e1 : tab[bins - 1]? = some tab[bins - 1] := List.getElem?_eq_getElem (by omega)
  refine ⟨tab[bins - 1], e1, ?_⟩
  unfold sample
  simp only [if_neg hns]
  rw [← hf, htr, Outcome.ok_bind, if_pos (Or.inr f0)]
  rw [tabAt_some tab _ (bins - 1) (by omega) _ e1, Outcome.ok_bind, Outcome.ok_bind, pair_one]

theorem sample_zero (bins : ℕ) (hb1 : 1 ≤ bins) (start : ℝ) (tab : List Pair) (ht : tab.length = bins) (vel : ℝ) :
    ∃ a, tab[0]? = some a ∧ sample bins start 0 tab vel = .ok a := by
  have e1 : tab[0]? = some tab[0] := List.getElem?_eq_getElem (by omega)
  refine ⟨tab[0], e1, ?_⟩
  have htr : truncInt 0 = .ok 0 := by
    unfold truncInt
    simp [fitsI32]
  unfold sample
  simp only [if_true]
  rw [htr, Outcome.ok_bind]
  by_cases h : ((0 : ℝ) < 0 ∨ (bins : ℝ) - 1 ≤ 0)
  · rw [if_pos h]
    rw [tabAt_some tab _ 0 (by push_cast; omega) _ e1, Outcome.ok_bind, Outcome.ok_bind, pair_one]
  · rw [if_neg h]
    push Not at h
    have hb2 : 1 < bins := by
      have : (1 : ℝ) < bins := by linarith [h.2]
      exact_mod_cast this
    have e2 : tab[1]? = some tab[1] := List.getElem?_eq_getElem (by omega)
    rw [tabAt_some tab _ 0 (by simp) _ e1, Outcome.ok_bind, tabAt_some tab _ 1 (by simp) _ e2, Outcome.ok_bind]
    simp

end DexRT.VelInterp
