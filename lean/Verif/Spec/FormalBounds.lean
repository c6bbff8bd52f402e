import Verif.Spec.FormalSol
import Verif.Model.March
import Mathlib.Algebra.Order.Field.Basic
/-!
Vocabulary for C75: intervals whose emission is within bounds, and the intervals the actual march gives.
-/
namespace DexRT.Fs
open DexRT

/-- An interval that transmits the fraction `T` and whose emission is that of sources within `[lo, hi]` filling the
absorbed fraction `1 - T`. -/
structure SegIn {K : Type} [Field K] [LinearOrder K] (lo hi : K) (s : Seg K) : Prop where
  T0 : 0 ≤ s.T
  T1 : s.T ≤ 1
  lower : lo * (1 - s.T) ≤ s.I
  upper : s.I ≤ hi * (1 - s.T)

/-- The interval given by marching `steps` from intensity `I0` (C23, C24), as a `Seg`. -/
noncomputable def realSeg (es : Bool) (scale invSin I0 : ℝ) (steps : List Step) : Seg ℝ :=
  let r := marchInterval es scale invSin I0 steps
  ⟨r.I, Real.exp (-r.tau), r.psiStar⟩

/-- Two solutions added: the emission of the intervals is the sum, the transmission common. -/
def addSeg {K : Type} [Field K] (a b : Seg K) : Seg K := ⟨a.I + b.I, a.T, a.psi⟩

end DexRT.Fs
