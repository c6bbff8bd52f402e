import Mathlib.Analysis.Calculus.Deriv.Basic
/-!
Vocabulary for C78: the equation of radiative transfer along a ray.
-/
namespace DexRT

/-- `I` solves the transfer equation `dI/ds = k (eta - chi I)` at `s`: `k` is the physical length of the unit of `s`. -/
def SolvesAt (k eta chi : ℝ) (I : ℝ → ℝ) (s : ℝ) : Prop := HasDerivAt I (k * (eta - chi * I s)) s

end DexRT
