import Verif.Model.Lte
import Verif.Model.AtomicData
/-!
Model of the populations of the whole atmosphere: `slice_pops` (source/Utils.hpp:196-206), `compute_lte_pops_flat` and
`compute_lte_pops` (source/Populations.cpp:8-65), `lte_pops` as the loops on memory that it is
(source/Populations.hpp:878-921), and `compute_nh0` (source/Populations.cpp:67-97). Exact real arithmetic.
-/
namespace DexRT.PopsField
open DexRT DexRT.Lte DexRT.Atomic

/-- `Fp2d pops` (level, cell): row-major memory of `rows * cols` numbers, source/Types.hpp (`Fp2d`). -/
structure Pops where
  rows : Nat
  cols : Nat
  mem : Nat → ℝ

/-- The view that `slice_pops` makes, source/Utils.hpp:196-206: it starts at `level_start * extent(1)` and has
`num_level` rows. Element `(i, ks)` of the view; outside the view, or outside the array it looks into, is UB. -/
def sliceAddr (p : Pops) (sl : Nat × Nat) (i ks : Nat) : Outcome Nat :=
  if i < sl.2 ∧ ks < p.cols ∧ sl.1 * p.cols + i * p.cols + ks < p.rows * p.cols then .ok (sl.1 * p.cols + i * p.cols + ks) else .ub

/-- `pops_slice(i, ks) = v` -/
def writeSlice (sl : Nat × Nat) (i ks : Nat) (v : ℝ) (p : Pops) : Outcome Pops := do
  let a ← sliceAddr p sl i ks
  .ok { p with mem := fun b => if b = a then v else p.mem b }

/-- `pops_slice(i, ks)` -/
def readSlice (sl : Nat × Nat) (i ks : Nat) (p : Pops) : Outcome ℝ := do
  let a ← sliceAddr p sl i ks
  .ok (p.mem a)

/-- What `lte_pops` uses of an atom: `abundance` and the levels (at least one), source/Types.hpp (`CompAtom`). -/
structure FieldAtom where
  abundance : ℝ
  n : Nat
  lv : Fin (n + 1) → Level

/-- source/Populations.hpp:900-912: the first loop of `lte_pops`, with the running `sum`. -/
noncomputable def loopRel (a : FieldAtom) (kbT saha : ℝ) (sl : Nat × Nat) (ks : Nat) (is : List (Fin a.n)) (p : Pops) :
    Outcome (Pops × ℝ) :=
  is.foldlM (fun st i => do
    let v := relPop a.lv kbT saha i.succ
    let q ← writeSlice sl (i.val + 1) ks v st.1
    .ok (q, st.2 + v)) (p, 1)

/-- source/Populations.hpp:916-920: the second loop. -/
noncomputable def loopScale (a : FieldAtom) (fmin pop0 : ℝ) (sl : Nat × Nat) (ks : Nat) (is : List (Fin a.n)) (p : Pops) :
    Outcome Pops :=
  is.foldlM (fun q i => do
    let v ← readSlice sl (i.val + 1) ks q
    writeSlice sl (i.val + 1) ks (max (v * pop0) fmin) q) p

/-- `lte_pops`, source/Populations.hpp:878-921, for cell `ks`: works in the memory of the populations. -/
noncomputable def lteCell (kB dbc fmin : ℝ) (a : FieldAtom) (sl : Nat × Nat) (temperature ne ntot : ℝ) (ks : Nat) (p : Pops) :
    Outcome Pops := do
  let r ← loopRel a (temperature * kB) (sahaTerm dbc temperature ne) sl ks (List.finRange a.n) p
  let pop0 := ntot / r.2
  let q ← writeSlice sl 0 ks pop0 r.1
  loopScale a fmin pop0 sl ks (List.finRange a.n) q

/-- The fields of the atmosphere that are read, source/Types.hpp (`SparseAtmosphere`). -/
structure Atmos where
  temperature : Nat → ℝ
  ne : Nat → ℝ
  nhTot : Nat → ℝ

/-- Number of levels per atom: `adata.num_level`. -/
def numLevels (atoms : List FieldAtom) : List Nat := atoms.map fun a => a.n + 1

/-- source/Populations.cpp:8-65: all atoms, all cells. `sched` is the order in which the threads (atom, cell) run; the
kernels of different atoms are launched without waiting, so threads of different atoms may be mixed. Simplification: a
thread runs as a whole (no two threads touch the same element: C83_lte holds for every order). -/
noncomputable def computeLtePops (kB dbc fmin : ℝ) (atoms : List FieldAtom) (f : Atmos) (sched : List (Nat × Nat)) (p : Pops) :
    Outcome Pops :=
  sched.foldlM (fun q t => do
    let a ← readAt atoms t.1
    let sl ← readAt (ranges (numLevels atoms)).1 t.1
    lteCell kB dbc fmin a sl (f.temperature t.2) (f.ne t.2) (a.abundance * f.nhTot t.2) t.2 q) p

/-- One thread of source/Populations.cpp:75-94: the value for `nh0(ks)`. -/
noncomputable def nh0Value (sahaConst ionE : ℝ) (haveH : Bool) (f : Atmos) (p : Pops) (ks : Nat) : Outcome ℝ :=
  if haveH then readSlice (0, p.rows) 0 ks p
  else do
    let r ← hPart sahaConst ionE (f.temperature ks) (f.ne ks) (f.nhTot ks)
    .ok r.1

/-- source/Populations.cpp:67-97 `compute_nh0`: threads in the order `sched`; `nh0` has `p.cols` elements. -/
noncomputable def computeNh0 (sahaConst ionE : ℝ) (haveH : Bool) (f : Atmos) (p : Pops) (sched : List Nat) (nh0 : Nat → ℝ) :
    Outcome (Nat → ℝ) :=
  sched.foldlM (fun m ks => do
    let v ← nh0Value sahaConst ionE haveH f p ks
    if ks < p.cols then .ok (fun k => if k = ks then v else m k) else .ub) nh0

end DexRT.PopsField
