import Verif.Model.InclQuad
import Verif.Props.MeanJ
import Mathlib.Analysis.SpecialFunctions.Integrals.Basic
import Mathlib.Algebra.Polynomial.Eval.Degree
/-!
# C64: the inclination quadrature
-/
namespace DexRT

/-- The quadrature sum for a function of the cosine of the inclination. -/
noncomputable def inclSum (n : Nat) (f : ℝ → ℝ) : ℝ :=
  ((inclTable n).map fun p => (p.2 : ℝ) * f (p.1 : ℝ)).sum

/-- Moments of the tables. -/
private def moment (n k : Nat) : ℚ := ((inclTable n).map fun p => p.2 * p.1 ^ k).sum

private theorem moment4 : ∀ k, k < 7 → |moment 4 k - 1 / (k + 1)| ≤ 1 / 10 ^ 13 := by
  decide +kernel
private theorem moment8 : ∀ k, k < 15 → |moment 8 k - 1 / (k + 1)| ≤ 1 / 10 ^ 13 := by
  decide +kernel
private theorem moment16 : ∀ k, k < 31 → |moment 16 k - 1 / (k + 1)| ≤ 1 / 10 ^ 13 := by
  decide +kernel

private theorem inclSum_pow (n k : Nat) : inclSum n (fun x => x ^ k) = (moment n k : ℝ) := by
  unfold inclSum moment
  generalize inclTable n = l
  induction l with
  | nil => simp
  | cons p l ih => simp only [List.map_cons, List.sum_cons, ih]; push_cast; ring

private theorem inclSum_sum (n N : Nat) (c : Nat → ℝ) :
    inclSum n (fun x => ∑ k ∈ Finset.range N, c k * x ^ k) = ∑ k ∈ Finset.range N, c k * inclSum n (fun x => x ^ k) := by
  unfold inclSum
  generalize inclTable n = l
  induction l with
  | nil => simp
  | cons p l ih =>
    simp only [List.map_cons, List.sum_cons, ih, mul_add, Finset.sum_add_distrib]
    congr 1
    rw [Finset.mul_sum]
    exact Finset.sum_congr rfl fun k _ => by ring

/-- **C64** For 4, 8 and 16 inclinations, and every polynomial `P` of degree at most `2 n - 2` in the cosine
of the inclination, the tabulated quadrature returns the integral of `P` over [0, 1] to within 1e-13 of the
sum of the sizes of its coefficients. -/
theorem C64_quadrature (n : Nat) (hn : n = 4 ∨ n = 8 ∨ n = 16) (P : Polynomial ℝ)
    (hP : P.natDegree ≤ 2 * n - 2) :
    |inclSum n (fun x => P.eval x) - ∫ x in (0 : ℝ)..1, P.eval x| ≤
      1 / 10 ^ 13 * ∑ k ∈ Finset.range (2 * n - 1), |P.coeff k| := by
  have hN : P.natDegree < 2 * n - 1 := by omega
  have he : ∀ x, P.eval x = ∑ k ∈ Finset.range (2 * n - 1), P.coeff k * x ^ k :=
    fun x => Polynomial.eval_eq_sum_range' hN x
  simp only [he]
  have hint : ∀ k ∈ Finset.range (2 * n - 1),
      IntervalIntegrable (fun x : ℝ => P.coeff k * x ^ k) MeasureTheory.volume 0 1 :=
    fun k _ => (continuous_const.mul (continuous_pow k)).intervalIntegrable _ _
  rw [inclSum_sum, intervalIntegral.integral_finsetSum hint]
  simp only [intervalIntegral.integral_const_mul, integral_pow, inclSum_pow]
  rw [← Finset.sum_sub_distrib]
  calc |∑ k ∈ Finset.range (2 * n - 1), (P.coeff k * (moment n k : ℝ) -
        P.coeff k * ((1 ^ (k + 1) - 0 ^ (k + 1)) / ((k : ℝ) + 1)))|
      ≤ ∑ k ∈ Finset.range (2 * n - 1), |P.coeff k * (moment n k : ℝ) -
        P.coeff k * ((1 ^ (k + 1) - 0 ^ (k + 1)) / ((k : ℝ) + 1))| := Finset.abs_sum_le_sum_abs _ _
    _ ≤ ∑ k ∈ Finset.range (2 * n - 1), 1 / 10 ^ 13 * |P.coeff k| := by
        refine Finset.sum_le_sum fun k hk => ?_
        rw [Finset.mem_range] at hk
        have hm : |moment n k - 1 / (k + 1)| ≤ 1 / 10 ^ 13 := by
          rcases hn with rfl | rfl | rfl
          · exact moment4 k hk
          · exact moment8 k hk
          · exact moment16 k hk
        have hm' : |(moment n k : ℝ) - 1 / (k + 1)| ≤ 1 / 10 ^ 13 := by
          have := (Rat.cast_le (K := ℝ)).2 hm
          push_cast [Rat.cast_abs] at this
          exact this
        have : P.coeff k * (moment n k : ℝ) - P.coeff k * ((1 ^ (k + 1) - 0 ^ (k + 1)) / ((k : ℝ) + 1)) =
            ((moment n k : ℝ) - 1 / (k + 1)) * P.coeff k := by
          simp; ring
        rw [this, abs_mul]
        exact mul_le_mul_of_nonneg_right hm' (abs_nonneg _)
    _ = _ := by rw [Finset.mul_sum]

/-- **C64** The tables have one entry per inclination, cosines in [0, 1) in increasing order, positive
weights, and weights that sum to 1 within 1e-13. -/
theorem C64_table (n : Nat) (hn : n = 4 ∨ n = 8 ∨ n = 16) :
    (inclTable n).length = n ∧ (∀ p ∈ inclTable n, 0 ≤ p.1 ∧ p.1 < 1 ∧ 0 < p.2) ∧
    ((inclTable n).map Prod.fst).Pairwise (· < ·) ∧ |((inclTable n).map Prod.snd).sum - 1| ≤ 1 / 10 ^ 13 := by
  rcases hn with rfl | rfl | rfl <;> decide +kernel

/-- **C64** With these weights, radiation of intensity `v` from every direction gives J within 1e-13 of `v`
(relative), and radiation between `lo` and `hi` gives J within that of the same interval. -/
theorem C64_isotropic (n : Nat) (hn : n = 4 ∨ n = 8 ∨ n = 16) (nrays : Nat) (hr : 0 < nrays)
    (I : ProbeIdx2 → ℚ) (u v wave : Nat) (x : ℚ) (hI : ∀ d th, I ⟨u, v, d, th, wave⟩ = x) :
    |meanIntensity2 nrays n ((inclTable n).map Prod.snd) I u v wave - x| ≤ 1 / 10 ^ 13 * |x| := by
  obtain ⟨h1, -, -, h4⟩ := C64_table n hn
  rw [(C62_isotropic nrays n hr _ (by rw [List.length_map, h1]) I u v wave).1 x hI]
  rw [show x * ((inclTable n).map Prod.snd).sum - x = (((inclTable n).map Prod.snd).sum - 1) * x by ring, abs_mul]
  exact mul_le_mul_of_nonneg_right h4 (abs_nonneg _)

/-- Non-vacuity: a degree-6 polynomial with 4 inclinations; and degree 7 is really out of reach (the error
of the 7th moment is above 1e-4), so the bound on the degree is sharp. -/
example : (Polynomial.X ^ 6 : Polynomial ℝ).natDegree ≤ 2 * 4 - 2 := by simp
example : |moment 4 7 - 1 / 8| > 1 / 10 ^ 4 := by decide +kernel

end DexRT
