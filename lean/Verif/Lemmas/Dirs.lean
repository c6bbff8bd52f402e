import Verif.Model.Dirs
import Verif.Lemmas.Morton
import Mathlib.Analysis.SpecialFunctions.Trigonometric.Complex
import Mathlib.NumberTheory.Real.Irrational
import Mathlib.Analysis.Real.Pi.Irrational
import Mathlib.Algebra.BigOperators.Fin
import Mathlib.Algebra.BigOperators.Ring.Finset
import Mathlib.Tactic.FieldSimp
import Mathlib.Tactic.Linarith
/-! Lemmas on the directions of the rays. -/
namespace DexRT.Dir
open Finset

theorem sum_cos (a h : ℝ) (n : ℕ) :
    (∑ k ∈ range n, Real.cos (a + h * (k + 1 / 2))) * (2 * Real.sin (h / 2)) = Real.sin (a + n * h) - Real.sin a := by
  induction n with
  | zero => simp
  | succ n ih =>
    rw [sum_range_succ, add_mul, ih]
    have e1 : a + ((n + 1 : ℕ) : ℝ) * h = (a + h * (n + 1 / 2)) + h / 2 := by push_cast; ring
    have e2 : a + (n : ℝ) * h = (a + h * (n + 1 / 2)) - h / 2 := by ring
    rw [e1, e2, Real.sin_add, Real.sin_sub]; ring

theorem sum_sin (a h : ℝ) (n : ℕ) :
    (∑ k ∈ range n, Real.sin (a + h * (k + 1 / 2))) * (2 * Real.sin (h / 2)) = Real.cos a - Real.cos (a + n * h) := by
  induction n with
  | zero => simp
  | succ n ih =>
    rw [sum_range_succ, add_mul, ih]
    have e1 : a + ((n + 1 : ℕ) : ℝ) * h = (a + h * (n + 1 / 2)) + h / 2 := by push_cast; ring
    have e2 : a + (n : ℝ) * h = (a + h * (n + 1 / 2)) - h / 2 := by ring
    rw [e1, e2, Real.cos_add, Real.cos_sub]; ring

theorem sin_pi_div_pos {n : ℕ} (hn : 2 ≤ n) : 0 < Real.sin (Real.pi / n) := by
  have hpos : (0 : ℝ) < n := by exact_mod_cast (by omega : 0 < n)
  apply Real.sin_pos_of_pos_of_lt_pi (div_pos Real.pi_pos hpos)
  rw [div_lt_iff₀ hpos]
  have : (2 : ℝ) ≤ n := by exact_mod_cast hn
  nlinarith [Real.pi_pos]

theorem sum_cos_full (nd : ℕ) (hn : 2 ≤ nd) : ∑ k ∈ range nd, Real.cos (rayAngle nd k) = 0 := by
  have hpos : (nd : ℝ) ≠ 0 := by exact_mod_cast (by omega : nd ≠ 0)
  have h := sum_cos 0 (2 * Real.pi / nd) nd
  have e : (2 * Real.pi / nd) / 2 = Real.pi / nd := by ring
  have e2 : (0 : ℝ) + nd * (2 * Real.pi / nd) = 2 * Real.pi := by field_simp; ring
  rw [e, e2, Real.sin_two_pi, Real.sin_zero, sub_zero] at h
  have h2 := sin_pi_div_pos hn
  simp only [zero_add] at h
  unfold rayAngle
  rcases mul_eq_zero.1 h with h | h
  · exact h
  · linarith

theorem sum_sin_full (nd : ℕ) (hn : 2 ≤ nd) : ∑ k ∈ range nd, Real.sin (rayAngle nd k) = 0 := by
  have hpos : (nd : ℝ) ≠ 0 := by exact_mod_cast (by omega : nd ≠ 0)
  have h := sum_sin 0 (2 * Real.pi / nd) nd
  have e : (2 * Real.pi / nd) / 2 = Real.pi / nd := by ring
  have e2 : (0 : ℝ) + nd * (2 * Real.pi / nd) = 2 * Real.pi := by field_simp; ring
  rw [e, e2, Real.cos_two_pi, Real.cos_zero, sub_self] at h
  have h2 := sin_pi_div_pos hn
  simp only [zero_add] at h
  unfold rayAngle
  rcases mul_eq_zero.1 h with h | h
  · exact h
  · linarith

theorem sum_double_full (nd : ℕ) (hn : 3 ≤ nd) :
    ∑ k ∈ range nd, Real.cos (2 * rayAngle nd k) = 0 ∧ ∑ k ∈ range nd, Real.sin (2 * rayAngle nd k) = 0 := by
  have hpos : (0 : ℝ) < nd := by exact_mod_cast (by omega : 0 < nd)
  have h3 : (3 : ℝ) ≤ nd := by exact_mod_cast hn
  have hs : 0 < Real.sin (2 * (2 * Real.pi / nd) / 2) := by
    apply Real.sin_pos_of_pos_of_lt_pi
    · have := Real.pi_pos; positivity
    · have e : 2 * (2 * Real.pi / nd) / 2 = (2 * Real.pi) / nd := by ring
      rw [e, div_lt_iff₀ hpos]; nlinarith [Real.pi_pos]
  have e2 : (0 : ℝ) + nd * (2 * (2 * Real.pi / nd)) = 2 * Real.pi + 2 * Real.pi := by field_simp; ring
  have hc := sum_cos 0 (2 * (2 * Real.pi / nd)) nd
  have hsn := sum_sin 0 (2 * (2 * Real.pi / nd)) nd
  rw [e2, Real.sin_add_two_pi, Real.sin_two_pi, Real.sin_zero, sub_self] at hc
  rw [e2, Real.cos_add_two_pi, Real.cos_two_pi, Real.cos_zero, sub_self] at hsn
  have ea : ∀ k : ℕ, 2 * rayAngle nd k = 0 + 2 * (2 * Real.pi / nd) * (k + 1 / 2) := by
    intro k; unfold rayAngle; ring
  simp only [ea]
  constructor
  · rcases mul_eq_zero.1 hc with h | h
    · exact h
    · linarith
  · rcases mul_eq_zero.1 hsn with h | h
    · exact h
    · linarith

theorem childAngle (nd T d r : ℕ) (hn : 0 < nd) (hT : 0 < T) :
    rayAngle (nd * T) (d * T + r) = 2 * Real.pi * d / nd + 2 * Real.pi / (nd * T) * (r + 1 / 2) := by
  have h1 : (nd : ℝ) ≠ 0 := by exact_mod_cast (by omega : nd ≠ 0)
  have h2 : (T : ℝ) ≠ 0 := by exact_mod_cast (by omega : T ≠ 0)
  unfold rayAngle
  push_cast
  field_simp
  ring

theorem sum_half (T : ℕ) : ∑ r ∈ range T, ((r : ℝ) + 1 / 2) = (T : ℝ) ^ 2 / 2 := by
  induction T with
  | zero => simp
  | succ n ih => rw [sum_range_succ, ih]; push_cast; ring

/-- `cos` of a direction's angle vanishes for some direction exactly when the number of directions is 2 mod 4. -/
theorem cos_rayAngle_zero (nd k : ℕ) (hn : 0 < nd) :
    Real.cos (rayAngle nd k) = 0 ↔ ∃ j : ℤ, 2 * (2 * (k : ℤ) + 1) = nd * (2 * j + 1) := by
  have h1 : (nd : ℝ) ≠ 0 := by exact_mod_cast (by omega : nd ≠ 0)
  have hpi := Real.pi_ne_zero
  rw [Real.cos_eq_zero_iff]
  refine exists_congr fun j => ?_
  have e : rayAngle nd k = (2 * (k : ℝ) + 1) * Real.pi / nd := by unfold rayAngle; field_simp
  rw [e, div_eq_div_iff h1 (by norm_num)]
  constructor
  · intro h
    have h' : 2 * (2 * (k : ℝ) + 1) = nd * (2 * j + 1) := by
      apply mul_right_cancel₀ hpi; linear_combination h
    exact_mod_cast h'
  · intro h
    have h' : 2 * (2 * (k : ℝ) + 1) = nd * (2 * j + 1) := by exact_mod_cast h
    linear_combination Real.pi * h'

theorem sin_rayAngle_zero (nd k : ℕ) (hn : 0 < nd) :
    Real.sin (rayAngle nd k) = 0 ↔ ∃ j : ℤ, 2 * (k : ℤ) + 1 = nd * j := by
  have h1 : (nd : ℝ) ≠ 0 := by exact_mod_cast (by omega : nd ≠ 0)
  have hpi := Real.pi_ne_zero
  rw [Real.sin_eq_zero_iff]
  refine exists_congr fun j => ?_
  have e : rayAngle nd k = (2 * (k : ℝ) + 1) * Real.pi / nd := by unfold rayAngle; field_simp
  rw [e, eq_div_iff h1]
  constructor
  · intro h
    have h' : 2 * (k : ℝ) + 1 = nd * j := by
      apply mul_right_cancel₀ hpi; linear_combination -h
    exact_mod_cast h'
  · intro h
    have h' : 2 * (k : ℝ) + 1 = nd * j := by exact_mod_cast h
    linear_combination -Real.pi * h'

/-! ### HEALPix indices -/

theorem compact_testBit (n i : ℕ) (hn : n < 2 ^ 32) :
    (compact1By1 (BitVec.ofNat 32 n)).toNat.testBit i = (decide (i < 16) && n.testBit (2 * i)) := by
  rw [BitVec.testBit_toNat]
  by_cases hi : i < 32
  · rw [compact1By1_bit _ _ hi]
    by_cases h16 : i < 16
    · simp only [h16, decide_true, Bool.true_and, BitVec.getLsbD_ofNat]
      simp [show 2 * i < 32 by omega]
    · simp [h16]
  · rw [BitVec.getLsbD_of_ge _ _ (by omega)]; simp [show ¬ i < 16 by omega]

end DexRT.Dir
