import Verif.Model.Linear
import Mathlib.Algebra.Order.Field.Basic
/-!
Model of `stat_eq_impl`, source/Populations.cpp:380-633 (default, team version), for one atom in one cell.
-/
namespace DexRT
namespace StatEq
open Finset Lin
variable {K : Type} [Field K] [LinearOrder K] {n : Nat}

/-- source/Populations.cpp:457-468 "Fixup gamma": the diagonal is replaced by minus the sum of the rest of its
column. -/
def fixup (G : Fin n → Fin n → K) (i j : Fin n) : K :=
  if i = j then -∑ k, (if k = j then 0 else G k j) else G i j

/-- source/Populations.cpp:487-500 "Population conservation equation". -/
def withConservation (e : Fin n) (A : Fin n → Fin n → K) (i j : Fin n) : K := if i = e then 1 else A i j

/-- source/Populations.cpp:470-485 "Setup rhs" with `fractional_pops = true` (line 397). -/
def rhs (e : Fin n) (i : Fin n) : K := if i = e then 1 else 0

/-- source/Populations.cpp:421-606: new populations of one atom in one cell; `ntot` is
`nh_tot(ks) * abundance`. `none`: zero pivot. `e` is `i_elim`, the index of a largest current population found by a
parallel reduction (lines 426-441); as ties can be broken either way, theorems hold for every `e`. Simplification:
the case that no population compares larger than the reduction's start value (all NaN) is not modelled. -/
def statEqCell (e : Fin n) (G : Fin n → Fin n → K) (ntot : K) : Option (Fin n → K) :=
  (solveRefined (withConservation e (fixup G)) (rhs e) (fun _ => true) 2).map fun x i => x i * ntot

/-- source/Populations.cpp:611-616: the relative change reported for a level. -/
def change (ignoreFrac ntot old new : K) : K := if old < ignoreFrac * ntot then 0 else |1 - old / new|

end StatEq
end DexRT
