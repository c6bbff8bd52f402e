import Verif.Model.Basic
import Mathlib.Algebra.Field.Basic
import Mathlib.Algebra.BigOperators.Group.List.Basic
import Mathlib.Logic.Relation
/-!
Model of the accumulation of the rate matrix: `add_to_gamma`, source/GammaMatrix.hpp:8-41, its two variants of parallel
use, source/DynamicFormalSolution.cpp:14-177 (atomic) and 179-394 (one thread per cell), the sum over ranks
(source/WavelengthParallelisation.hpp:164-191, source/main.cpp:985-992, 1019), and the place collisional rates are put
(source/Collisions.cpp:4-49).
-/
namespace DexRT
namespace Rates
variable {K : Type} [Field K]

/-- `GammaAccumState`, source/GammaMatrix.hpp:8-19, without the destination. -/
structure Accum (K : Type) where
  eta : K
  chi : K
  uji : K
  vji : K
  vij : K
  intensity : K
  psiStar : K
  wlamu : K

/-- `I_eff`, source/GammaMatrix.hpp:27. -/
def Accum.iEff (a : Accum K) : K := a.intensity - a.psiStar * a.eta
/-- `G_ij`, source/GammaMatrix.hpp:29, 30. -/
def Accum.gij (a : Accum K) : K := ((1 - a.chi * a.psiStar) * a.uji + a.vji * a.iEff) * a.wlamu
/-- `G_ji`, source/GammaMatrix.hpp:32, 33. -/
def Accum.gji (a : Accum K) : K := a.vij * a.iEff * a.wlamu

/-- `eta` and `chi` of the transition itself from populations `ni`, `nj` and `U`, `V`,
source/DynamicFormalSolution.cpp:117, 118; `eps` is the constant `1e-20`. -/
def accumOf (eps ni nj uji vji vij intensity psiStar wlamu : K) : Accum K :=
  ⟨nj * uji, ni * vij - nj * vji + eps, uji, vji, vij, intensity, psiStar, wlamu⟩

/-- The same for the variant with `include_4pi_hc = false`, source/DynamicFormalSolution.cpp:204-219, 300-320: `U` and `V`
are divided by `h = hc / 4pi`, `eta` and `chi` multiplied by it, and the weight has `lambda` instead of
`lambda / h`. -/
def accumOfDivided (h eps ni nj uji vji vij intensity psiStar lambda w : K) : Accum K :=
  ⟨nj * (uji / h) * h, (ni * (vij / h) - nj * (vji / h)) * h + eps, uji / h, vji / h, vij / h, intensity, psiStar, lambda * w⟩

/-- One addition to an element of the rate matrices: destination and value. -/
abbrev AddOp (α K : Type) := α × K

/-- The two additions of `add_to_gamma`, source/GammaMatrix.hpp:34-40, to element `(i, j, k)` and `(j, i, k)`. -/
def addOps {n : Nat} (i j : Fin n) (k : Nat) (a : Accum K) : List (AddOp (Fin n × Fin n × Nat) K) :=
  [((i, j, k), a.gij), ((j, i, k), a.gji)]

/-- A thread: the additions it has still to make, and the value it has loaded if it is in the middle of one. -/
structure Thread (α K : Type) where
  ops : List (AddOp α K)
  reg : Option K := none

/-- Threads and shared memory. -/
structure Cfg (α K : Type) where
  threads : List (Thread α K)
  mem : α → K

/-- Write to memory. -/
def write {α : Type} [DecidableEq α] (mem : α → K) (l : α) (v : K) : α → K := fun x => if x = l then v else mem x

/-- `Kokkos::atomic_add`, source/GammaMatrix.hpp:35, 36: one step of one thread, any thread. -/
inductive StepAtomic {α : Type} [DecidableEq α] : Cfg α K → Cfg α K → Prop
  | add (pre post : List (Thread α K)) (l : α) (v : K) (rest : List (AddOp α K)) (mem : α → K) :
    StepAtomic ⟨pre ++ ⟨(l, v) :: rest, none⟩ :: post, mem⟩
      ⟨pre ++ ⟨rest, none⟩ :: post, write mem l (mem l + v)⟩

/-- `Gamma(i, j, k) += G_ij`, source/GammaMatrix.hpp:38, 39: a load and a store, between which other threads run. -/
inductive StepPlain {α : Type} [DecidableEq α] : Cfg α K → Cfg α K → Prop
  | load (pre post : List (Thread α K)) (l : α) (v : K) (rest : List (AddOp α K)) (mem : α → K) :
    StepPlain ⟨pre ++ ⟨(l, v) :: rest, none⟩ :: post, mem⟩ ⟨pre ++ ⟨(l, v) :: rest, some (mem l)⟩ :: post, mem⟩
  | store (pre post : List (Thread α K)) (l : α) (v x : K) (rest : List (AddOp α K)) (mem : α → K) :
    StepPlain ⟨pre ++ ⟨(l, v) :: rest, some x⟩ :: post, mem⟩ ⟨pre ++ ⟨rest, none⟩ :: post, write mem l (x + v)⟩

/-- All threads have finished. -/
def Finished {α : Type} (c : Cfg α K) : Prop := ∀ t ∈ c.threads, t.ops = [] ∧ t.reg = none

/-- Sum over ranks of the rank's own memory, element by element: `MPI_Reduce(.., MPI_SUM, 0)`,
source/WavelengthParallelisation.hpp:164-191. -/
def reduceRanks {α : Type} (ranks : List (α → K)) : α → K := fun l => (ranks.map fun m => m l).sum

/-- Memory of rank `r` before the formal solution: collisional rates on rank 0, zero elsewhere,
source/main.cpp:985-992. -/
def initialMem {α : Type} (coll : α → K) (r : Nat) : α → K := if r = 0 then coll else fun _ => 0

/-! ### Where collisional rates go -/

/-- `AtomicTreatment`, source/Types.hpp:609-613. -/
inductive Treatment
  | Detailed | Golding | Active
  deriving DecidableEq

/-- `has_gamma`, source/Types.hpp:723-728. -/
def Treatment.hasGamma : Treatment → Bool
  | .Detailed => false
  | .Golding => true
  | .Active => true

/-- `atoms_with_gamma_mapping`, source/Populations.hpp:863-876: the positions of the atoms with rate matrices. -/
def gammaMapping (ts : List Treatment) : List Nat :=
  (List.range ts.length).filter fun ia => match ts[ia]? with | some t => t.hasGamma | none => false

/-- `compute_collisions_to_gamma`, source/Collisions.cpp:4-49: the matrix in `Gamma[p]` afterwards, for each atom `p`;
matrices are allocated for all atoms (source/main.cpp:111-116). `coll ia` are the collisional rates of atom `ia`.
Simplification: a matrix of fewer levels than the atom's is not distinguished (in the program the writes are then out of
bounds). -/
def collisionsToGamma {M : Type} (zero : M) (coll : Nat → M) (ts : List Treatment) : List M :=
  (List.range ts.length).map fun p =>
    match (gammaMapping ts)[p]? with
    | some ia => coll ia
    | none => zero

/-- `stat_eq_impl`, source/Populations.cpp:387-391: the atoms whose populations are replaced; `only` is
`only_atom`. -/
def statEqAtoms (ts : List Treatment) (only : Option Nat) : List Nat :=
  (List.range ts.length).filter fun ia => match only with | some o => o == ia | none => true

end Rates
end DexRT
