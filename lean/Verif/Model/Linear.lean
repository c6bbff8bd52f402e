import Verif.Model.Basic
import Mathlib.Algebra.Field.Basic
import Mathlib.Algebra.BigOperators.Fin
/-!
Model of the dense solves used by statistical equilibrium and charge conservation. Exact arithmetic over a field;
a zero pivot (NaN or infinity in the code) is `none`.
-/
namespace DexRT
namespace Lin
open Finset
variable {K : Type} [Field K] [DecidableEq K]

/-- `KokkosBatched::LU` (unblocked, no pivoting) followed by `TeamSolveLU`, as called in
source/Populations.cpp:527-542 and source/ChargeConservation.cpp:804-819. Simplification: the elimination of the
matrix and the forward substitution of the right hand side, two library calls, are interleaved (same operations
per entry, in the same order). -/
def luSolve : (n : Nat) → (Fin n → Fin n → K) → (Fin n → K) → Option (Fin n → K)
  | 0, _, b => some b
  | n + 1, A, b =>
    if A 0 0 = 0 then none else
    (luSolve n (fun i j => A i.succ j.succ - A i.succ 0 / A 0 0 * A 0 j.succ)
      (fun i => b i.succ - A i.succ 0 / A 0 0 * b 0)).map
      fun x => Fin.cons ((b 0 - ∑ j, A 0 j.succ * x j) / A 0 0) x

/-- One pass of iterative refinement, source/Populations.cpp:544-585 and source/ChargeConservation.cpp:821-862:
residual, solve with the same factors, add. `upd i` says whether entry `i` is updated (all of them in
`stat_eq`; only the first `num_level` of `num_level + 1` in `nr_post_update`). -/
def refine {n : Nat} (A : Fin n → Fin n → K) (b : Fin n → K) (upd : Fin n → Bool) (x : Fin n → K) :
    Option (Fin n → K) :=
  (luSolve n A fun i => b i - ∑ j, A i j * x j).map fun r => fun i => if upd i then x i + r i else x i

/-- Factorise, solve, `passes` refinements (`num_refinement_passes = 2`, source/Populations.cpp:399,
source/ChargeConservation.cpp:481). -/
def solveRefined {n : Nat} (A : Fin n → Fin n → K) (b : Fin n → K) (upd : Fin n → Bool) :
    (passes : Nat) → Option (Fin n → K)
  | 0 => luSolve n A b
  | p + 1 => (solveRefined A b upd p).bind (refine A b upd)

end Lin
end DexRT
