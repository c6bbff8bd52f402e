import Verif.Model.Ng
import Mathlib.Tactic.FieldSimp
import Mathlib.Tactic.Ring
import Mathlib.Tactic.LinearCombination
import Mathlib.Tactic.Linarith
import Mathlib.Algebra.Order.BigOperators.Group.List
import Mathlib.Algebra.BigOperators.Ring.List
/-! Lemmas about Ng extrapolation. -/
namespace DexRT
namespace Ng
variable {K : Type} [Field K]

/-- Weighted sum over cells. -/
def wsum (cells : List (Cell K)) (f : Cell K → K) : K := (cells.map fun c => c.weight * f c).sum

theorem wsum_cons (c : Cell K) (cells : List (Cell K)) (f : Cell K → K) :
    wsum (c :: cells) f = c.weight * f c + wsum cells f := by simp [wsum]

theorem wsum_lin (cells : List (Cell K)) (f g h : Cell K → K) (a b : K) (e : ∀ c, h c = a * f c + b * g c) :
    wsum cells h = a * wsum cells f + b * wsum cells g := by
  induction cells with
  | nil => simp [wsum]
  | cons c cs ih => rw [wsum_cons, wsum_cons, wsum_cons, ih, e]; ring

theorem system_fold (cells : List (Cell K)) (s : Sys K) :
    cells.foldl accumulate s =
      { a00 := s.a00 + wsum cells fun c => c.d1 * c.d1
        a01 := s.a01 + wsum cells fun c => c.d1 * c.d2
        a02 := s.a02 + wsum cells fun c => c.d1 * c.d3
        a11 := s.a11 + wsum cells fun c => c.d2 * c.d2
        a12 := s.a12 + wsum cells fun c => c.d2 * c.d3
        a22 := s.a22 + wsum cells fun c => c.d3 * c.d3
        b0 := s.b0 + wsum cells fun c => c.d0 * c.d1
        b1 := s.b1 + wsum cells fun c => c.d0 * c.d2
        b2 := s.b2 + wsum cells fun c => c.d0 * c.d3 } := by
  induction cells generalizing s with
  | nil => simp [wsum]
  | cons c cs ih =>
    rw [List.foldl_cons, ih]
    simp only [accumulate, wsum_cons]
    congr 1 <;> ring

theorem system_eq (cells : List (Cell K)) :
    system cells =
      { a00 := wsum cells fun c => c.d1 * c.d1
        a01 := wsum cells fun c => c.d1 * c.d2
        a02 := wsum cells fun c => c.d1 * c.d3
        a11 := wsum cells fun c => c.d2 * c.d2
        a12 := wsum cells fun c => c.d2 * c.d3
        a22 := wsum cells fun c => c.d3 * c.d3
        b0 := wsum cells fun c => c.d0 * c.d1
        b1 := wsum cells fun c => c.d0 * c.d2
        b2 := wsum cells fun c => c.d0 * c.d3 } := by
  rw [system, system_fold]; simp

/-- Leading 2×2 minor. -/
def minor2 (s : Sys K) : K := s.a00 * s.a11 - s.a01 * s.a01
/-- Determinant. -/
def det (s : Sys K) : K :=
  s.a00 * (s.a11 * s.a22 - s.a12 * s.a12) - s.a01 * (s.a01 * s.a22 - s.a12 * s.a02)
    + s.a02 * (s.a01 * s.a12 - s.a11 * s.a02)

variable [DecidableEq K]

theorem solveLU_defined (s : Sys K) :
    (∃ w, solveLU s = some w) ↔ s.a00 ≠ 0 ∧ minor2 s ≠ 0 ∧ det s ≠ 0 := by
  unfold solveLU
  by_cases h0 : s.a00 = 0
  · simp [h0]
  have e1 : s.a11 - s.a01 / s.a00 * s.a01 = minor2 s / s.a00 := by unfold minor2; field_simp
  by_cases h1 : minor2 s = 0
  · simp [h0, e1, h1]
  have e2 : (s.a22 - s.a02 / s.a00 * s.a02) - (s.a12 - s.a02 / s.a00 * s.a01) / (minor2 s / s.a00)
      * (s.a12 - s.a01 / s.a00 * s.a02) = det s / minor2 s := by
    have hm : minor2 s = s.a00 * s.a11 - s.a01 * s.a01 := rfl
    generalize minor2 s = m at *
    unfold det; field_simp; rw [hm]; ring
  by_cases h2 : det s = 0
  · simp only [h0, if_false, e1, div_eq_zero_iff, h1, or_self, e2, h2, true_or, if_true]
    simp
  · simp only [h0, if_false, e1, div_eq_zero_iff, h1, or_self, e2, h2]
    simp [h0, h1, h2]

theorem solveLU_correct (s : Sys K) (w : K × K × K) (h : solveLU s = some w) :
    s.a00 * w.1 + s.a01 * w.2.1 + s.a02 * w.2.2 = s.b0 ∧
    s.a01 * w.1 + s.a11 * w.2.1 + s.a12 * w.2.2 = s.b1 ∧
    s.a02 * w.1 + s.a12 * w.2.1 + s.a22 * w.2.2 = s.b2 := by
  unfold solveLU at h
  by_cases h0 : s.a00 = 0
  · simp [h0] at h
  simp only [h0, if_false] at h
  by_cases h1 : s.a11 - s.a01 / s.a00 * s.a01 = 0
  · simp [h1] at h
  simp only [h1, if_false] at h
  split at h
  · simp at h
  rename_i h2
  simp only [Option.some.injEq] at h
  subst h
  generalize hl10 : s.a01 / s.a00 = l10 at *
  generalize hl20 : s.a02 / s.a00 = l20 at *
  have k10 : s.a01 = l10 * s.a00 := by rw [← hl10]; field_simp
  have k20 : s.a02 = l20 * s.a00 := by rw [← hl20]; field_simp
  generalize hu11 : s.a11 - l10 * s.a01 = u11 at *
  generalize hu12 : s.a12 - l10 * s.a02 = u12 at *
  generalize hl21 : (s.a12 - l20 * s.a01) / u11 = l21 at *
  have k21 : s.a12 - l20 * s.a01 = l21 * u11 := by rw [← hl21]; field_simp
  generalize hu22 : s.a22 - l20 * s.a02 - l21 * u12 = u22 at *
  generalize hx2 : (s.b2 - l20 * s.b0 - l21 * (s.b1 - l10 * s.b0)) / u22 = x2 at *
  have kx2 : s.b2 - l20 * s.b0 - l21 * (s.b1 - l10 * s.b0) = u22 * x2 := by rw [← hx2]; field_simp
  generalize hx1 : (s.b1 - l10 * s.b0 - u12 * x2) / u11 = x1 at *
  have kx1 : s.b1 - l10 * s.b0 - u12 * x2 = u11 * x1 := by rw [← hx1]; field_simp
  generalize hx0 : (s.b0 - s.a01 * x1 - s.a02 * x2) / s.a00 = x0 at *
  have kx0 : s.b0 - s.a01 * x1 - s.a02 * x2 = s.a00 * x0 := by rw [← hx0]; field_simp
  refine ⟨?_, ?_, ?_⟩
  · linear_combination -kx0
  · linear_combination (-l10) * kx0 - kx1 + x0 * k10 + x1 * hu11 + x2 * hu12
  · linear_combination (-l20) * kx0 - l21 * kx1 - kx2 + x0 * k20 + x1 * k21 + x2 * hu22

section order
variable [LinearOrder K] [IsStrictOrderedRing K]

theorem weight_pos {c : Cell K} (h : c.x4 ≠ 0) : 0 < c.weight := by
  unfold Cell.weight
  exact div_pos one_pos (mul_self_pos.mpr h)

theorem wsum_nonneg {cells : List (Cell K)} (h : ∀ c ∈ cells, c.x4 ≠ 0) (f : Cell K → K) :
    0 ≤ wsum cells fun c => f c * f c := by
  unfold wsum
  apply List.sum_nonneg
  simp only [List.mem_map]
  rintro _ ⟨c, hc, rfl⟩
  exact mul_nonneg (weight_pos (h c hc)).le (mul_self_nonneg _)

theorem wsum_sq_zero {cells : List (Cell K)} (h : ∀ c ∈ cells, c.x4 ≠ 0) (f : Cell K → K)
    (e : (wsum cells fun c => f c * f c) = 0) : ∀ c ∈ cells, f c = 0 := by
  induction cells with
  | nil => simp
  | cons c cs ih =>
    rw [wsum_cons] at e
    have p1 : 0 ≤ c.weight * (f c * f c) :=
      mul_nonneg (weight_pos (h c (by simp))).le (mul_self_nonneg _)
    have p2 := wsum_nonneg (fun x hx => h x (List.mem_cons_of_mem _ hx)) f
    have z1 : c.weight * (f c * f c) = 0 := by linarith
    have z2 : (wsum cs fun c => f c * f c) = 0 := by linarith
    intro x hx
    rcases List.mem_cons.mp hx with rfl | hx
    · have := (mul_eq_zero.mp z1).resolve_left (weight_pos (h x (by simp))).ne'
      exact mul_self_eq_zero.mp this
    · exact ih (fun x hx => h x (List.mem_cons_of_mem _ hx)) z2 x hx

end order

/-- The quadratic form of the system. -/
theorem quad (cells : List (Cell K)) (p q r : K) :
    (wsum cells fun c => (p * c.d1 + q * c.d2 + r * c.d3) * (p * c.d1 + q * c.d2 + r * c.d3))
      = p * p * (system cells).a00 + q * q * (system cells).a11 + r * r * (system cells).a22
        + 2 * p * q * (system cells).a01 + 2 * p * r * (system cells).a02 + 2 * q * r * (system cells).a12 := by
  rw [system_eq]
  induction cells with
  | nil => simp [wsum]
  | cons c cs ih => simp only [wsum_cons] at *; rw [ih]; ring

/-- Expansion of the residual. -/
theorem resid_expand (cells : List (Cell K)) (p q r : K) :
    (wsum cells fun c => (c.d0 - p * c.d1 - q * c.d2 - r * c.d3) * (c.d0 - p * c.d1 - q * c.d2 - r * c.d3))
      = (wsum cells fun c => c.d0 * c.d0)
        - 2 * p * (system cells).b0 - 2 * q * (system cells).b1 - 2 * r * (system cells).b2
        + (p * p * (system cells).a00 + q * q * (system cells).a11 + r * r * (system cells).a22
        + 2 * p * q * (system cells).a01 + 2 * p * r * (system cells).a02 + 2 * q * r * (system cells).a12) := by
  rw [system_eq]
  induction cells with
  | nil => simp [wsum]
  | cons c cs ih => simp only [wsum_cons] at *; rw [ih]; ring

end Ng
end DexRT
