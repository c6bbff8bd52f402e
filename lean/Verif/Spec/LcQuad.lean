import Verif.Model.LcQuad
import Mathlib.Algebra.BigOperators.Fin
import Mathlib.MeasureTheory.Integral.IntervalIntegral.Basic
import Mathlib.Analysis.SpecialFunctions.Trigonometric.Basic
/-! Specification for the quadratures of the long-characteristics mode. -/
namespace DexRT.LcQuad

/-- A radiation field that is a polynomial of degree at most three in the direction. -/
noncomputable def cubic (a : ℝ) (b : Fin 3 → ℝ) (M : Fin 3 → Fin 3 → ℝ) (T : Fin 3 → Fin 3 → Fin 3 → ℝ) (d : Fin 3 → ℝ) : ℝ :=
  a + ∑ i, b i * d i + ∑ i, ∑ j, M i j * (d i * d j) + ∑ i, ∑ j, ∑ k, T i j k * (d i * d j * d k)

/-- Its mean over the unit sphere (`C98_sphere`): the odd terms and the products of different components have mean 0, the squares 1/3. -/
noncomputable def sphereMean (a : ℝ) (M : Fin 3 → Fin 3 → ℝ) : ℝ := a + (M 0 0 + M 1 1 + M 2 2) / 3

/-- The mean of `f` over the unit sphere: the integral over the cosine of the angle to the z axis and over the azimuth, divided by
the area of the sphere. -/
noncomputable def sphereAvg (f : (Fin 3 → ℝ) → ℝ) : ℝ :=
  (∫ μ in (-1 : ℝ)..1, ∫ φ in (0 : ℝ)..2 * Real.pi, f ![√(1 - μ ^ 2) * Real.cos φ, √(1 - μ ^ 2) * Real.sin φ, μ]) / (4 * Real.pi)

/-- What the quadrature gives for the field `f` of the direction. -/
noncomputable def quad (q : Fin 4) (f : (Fin 3 → ℝ) → ℝ) : ℝ := ((List.range (num q)).map fun t => weight q t * f (dir q t)).sum

end DexRT.LcQuad
