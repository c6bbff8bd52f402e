import Verif.Spec.LcQuad
import Mathlib.MeasureTheory.Integral.IntervalIntegral.FundThmCalculus
import Mathlib.Analysis.SpecialFunctions.Trigonometric.Deriv
import Mathlib.Analysis.SpecialFunctions.Integrals.Basic
import Mathlib.Analysis.SpecialFunctions.Sqrt
/-! The mean over the sphere of a polynomial of degree three. -/
namespace DexRT.LcQuad
open Real

theorem int_trig (A B C D E H G K L N : ℝ) :
    ∫ φ in (0 : ℝ)..2 * π, (A + B * cos φ + C * sin φ + D * cos φ ^ 2 + E * sin φ ^ 2 + G * (cos φ * sin φ) + H * cos φ ^ 3 +
      K * (cos φ ^ 2 * sin φ) + L * (cos φ * sin φ ^ 2) + N * sin φ ^ 3) = 2 * π * A + π * (D + E) := by
  have hd : ∀ φ ∈ Set.uIcc (0 : ℝ) (2 * π), HasDerivAt (fun φ => A * φ + B * sin φ - C * cos φ + D * (φ / 2 + sin φ * cos φ / 2) +
      E * (φ / 2 - sin φ * cos φ / 2) + G * (sin φ ^ 2 / 2) + H * (sin φ - sin φ ^ 3 / 3) + K * (-cos φ ^ 3 / 3) + L * (sin φ ^ 3 / 3) +
      N * (cos φ ^ 3 / 3 - cos φ)) (A + B * cos φ + C * sin φ + D * cos φ ^ 2 + E * sin φ ^ 2 + G * (cos φ * sin φ) + H * cos φ ^ 3 +
      K * (cos φ ^ 2 * sin φ) + L * (cos φ * sin φ ^ 2) + N * sin φ ^ 3) φ := by
    intro φ _
    have s := Real.hasDerivAt_sin φ
    have c := Real.hasDerivAt_cos φ
    have i := hasDerivAt_id φ
    have h := (((((((((i.const_mul A).add (s.const_mul B)).sub (c.const_mul C)).add
      (((i.div_const 2).add ((s.mul c).div_const 2)).const_mul D)).add
      (((i.div_const 2).sub ((s.mul c).div_const 2)).const_mul E)).add
      (((s.pow 2).div_const 2).const_mul G)).add
      ((s.sub ((s.pow 3).div_const 3)).const_mul H)).add
      ((((c.pow 3).neg).div_const 3).const_mul K)).add
      (((s.pow 3).div_const 3).const_mul L)).add
      ((((c.pow 3).div_const 3).sub c).const_mul N)
    refine (h.congr_deriv ?_)
    have p := Real.sin_sq_add_cos_sq φ
    have e : sin φ ^ 2 = 1 - cos φ ^ 2 := by linarith
    have e3 : sin φ ^ 3 = sin φ * (1 - cos φ ^ 2) := by rw [← e]; ring
    simp only [Nat.cast_ofNat]
    norm_num
    rw [e3, e]
    ring_nf
    rw [e]
    ring
  rw [intervalIntegral.integral_eq_sub_of_hasDerivAt hd]
  · simp only [Real.sin_two_pi, Real.cos_two_pi, Real.sin_zero, Real.cos_zero]
    ring
  · exact Continuous.intervalIntegrable (by fun_prop) _ _

theorem int_poly (a b c d : ℝ) : ∫ μ in (-1 : ℝ)..1, (a + b * μ + c * μ ^ 2 + d * μ ^ 3) = 2 * a + 2 / 3 * c := by
  have hd : ∀ μ ∈ Set.uIcc (-1 : ℝ) 1, HasDerivAt (fun μ => a * μ + b * (μ ^ 2 / 2) + c * (μ ^ 3 / 3) + d * (μ ^ 4 / 4))
      (a + b * μ + c * μ ^ 2 + d * μ ^ 3) μ := by
    intro μ _
    have i := hasDerivAt_id μ
    have h := (((i.const_mul a).add (((i.pow 2).div_const 2).const_mul b)).add (((i.pow 3).div_const 3).const_mul c)).add
      (((i.pow 4).div_const 4).const_mul d)
    refine h.congr_deriv ?_
    simp
  rw [intervalIntegral.integral_eq_sub_of_hasDerivAt hd]
  · ring
  · exact Continuous.intervalIntegrable (by fun_prop) _ _

theorem inner (a : ℝ) (b : Fin 3 → ℝ) (M : Fin 3 → Fin 3 → ℝ) (T : Fin 3 → Fin 3 → Fin 3 → ℝ) (s μ : ℝ) :
    ∫ φ in (0 : ℝ)..2 * π, cubic a b M T ![s * cos φ, s * sin φ, μ] =
      2 * π * (a + b 2 * μ + M 2 2 * μ ^ 2 + T 2 2 2 * μ ^ 3) +
        π * (s ^ 2 * (M 0 0 + M 1 1 + μ * (T 0 0 2 + T 0 2 0 + T 2 0 0 + T 1 1 2 + T 1 2 1 + T 2 1 1))) := by
  have e : ∀ φ : ℝ, cubic a b M T ![s * cos φ, s * sin φ, μ] =
      (a + b 2 * μ + M 2 2 * μ ^ 2 + T 2 2 2 * μ ^ 3) +
      (s * (b 0 + (M 0 2 + M 2 0) * μ + (T 0 2 2 + T 2 0 2 + T 2 2 0) * μ ^ 2)) * cos φ +
      (s * (b 1 + (M 1 2 + M 2 1) * μ + (T 1 2 2 + T 2 1 2 + T 2 2 1) * μ ^ 2)) * sin φ +
      (s ^ 2 * (M 0 0 + μ * (T 0 0 2 + T 0 2 0 + T 2 0 0))) * cos φ ^ 2 +
      (s ^ 2 * (M 1 1 + μ * (T 1 1 2 + T 1 2 1 + T 2 1 1))) * sin φ ^ 2 +
      (s ^ 2 * (M 0 1 + M 1 0 + μ * (T 0 1 2 + T 0 2 1 + T 1 0 2 + T 1 2 0 + T 2 0 1 + T 2 1 0))) * (cos φ * sin φ) +
      (s ^ 3 * T 0 0 0) * cos φ ^ 3 + (s ^ 3 * (T 0 0 1 + T 0 1 0 + T 1 0 0)) * (cos φ ^ 2 * sin φ) +
      (s ^ 3 * (T 0 1 1 + T 1 0 1 + T 1 1 0)) * (cos φ * sin φ ^ 2) + (s ^ 3 * T 1 1 1) * sin φ ^ 3 := by
    intro φ
    unfold cubic
    simp only [Fin.sum_univ_three, Matrix.cons_val_zero, Matrix.cons_val_one, Matrix.cons_val]
    ring
  simp only [e]
  rw [int_trig]
  ring

theorem sphere_cubic (a : ℝ) (b : Fin 3 → ℝ) (M : Fin 3 → Fin 3 → ℝ) (T : Fin 3 → Fin 3 → Fin 3 → ℝ) :
    sphereAvg (cubic a b M T) = sphereMean a M := by
  unfold sphereAvg sphereMean
  obtain ⟨Q, hQ⟩ : ∃ Q, Q = T 0 0 2 + T 0 2 0 + T 2 0 0 + T 1 1 2 + T 1 2 1 + T 2 1 1 := ⟨_, rfl⟩
  have e : ∀ μ ∈ Set.uIcc (-1 : ℝ) 1, (∫ φ in (0 : ℝ)..2 * π, cubic a b M T ![√(1 - μ ^ 2) * cos φ, √(1 - μ ^ 2) * sin φ, μ]) =
      (2 * π * a + π * (M 0 0 + M 1 1)) + (2 * π * b 2 + π * Q) * μ + (2 * π * M 2 2 - π * (M 0 0 + M 1 1)) * μ ^ 2 +
        (2 * π * T 2 2 2 - π * Q) * μ ^ 3 := by
    intro μ hμ
    rw [Set.uIcc_of_le (by norm_num)] at hμ
    have h1 : μ ^ 2 ≤ 1 := by nlinarith [hμ.1, hμ.2]
    rw [inner, Real.sq_sqrt (by linarith), ← hQ]
    ring
  rw [intervalIntegral.integral_congr e, int_poly]
  have := Real.pi_pos
  field_simp
  ring

end DexRT.LcQuad
