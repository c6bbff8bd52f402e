import Mathlib.Algebra.BigOperators.Group.Finset.Basic
import Mathlib.Algebra.Order.Field.Basic
/-!
Specification of flux-conserving resampling of a spectrum given as a step profile: no reference to the code.
-/
namespace DexRT
namespace Boundary
variable {K : Type} [Field K] [LinearOrder K]

/-- Length of the part of `[a, b]` inside `[lo, hi]`. -/
def overlap (lo hi a b : K) : K := max 0 (min hi b - max lo a)

/-- Flux of the step profile with edges `e` and values `y` between `lo` and `hi`: the sum over its bins of value times overlap. -/
def flux (e y : List K) (lo hi : K) : K :=
  ∑ k ∈ Finset.range y.length, y.getD k 0 * overlap lo hi (e.getD k 0) (e.getD (k + 1) 0)

/-- `e` are the edges of the bins around the sample points `w`: half way between neighbours, and as far outside the first
and last point as the nearest edge is inside. -/
structure IsEdges (w e : List K) : Prop where
  length : e.length = w.length + 1
  first : e.getD 0 0 = w.getD 0 0 - (w.getD 1 0 - w.getD 0 0) / 2
  inner : ∀ i, 0 < i → i < w.length → e.getD i 0 = (w.getD (i - 1) 0 + w.getD i 0) / 2
  last : e.getD w.length 0 = w.getD (w.length - 1) 0 + (w.getD (w.length - 1) 0 - w.getD (w.length - 2) 0) / 2

end Boundary
end DexRT
