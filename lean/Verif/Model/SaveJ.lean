import Verif.Model.Sparse
import Mathlib.Algebra.Order.Field.Rat
/-!
Model of how the mean intensity reaches the output file: which formal solution J comes from at the end of a
run, its allocated width (`allocate_J`), and the J part of `save_results`
(source/main.cpp:40-63, 746-791, 1060-1089; source/main_3d.cpp:30-53, 433-489, 893-921).
-/
namespace DexRT

/-- The configuration values used: `config.mode == NonLte`, `sparse_calculation`, `final_dense_fs`,
`store_J_on_cpu`, `output.sparse` (source/DexrtConfig.hpp:40-60). -/
structure SaveCfg where
  nonLte : Bool
  sparseCalc : Bool
  finalDense : Bool
  storeOnCpu : Bool
  outSparse : Bool

/-- Whether the last formal solution was restricted to the active cells: source/main.cpp:1060-1063 and
source/main_3d.cpp:893-896 switch `sparse_calculation` off for a final solution, reallocating J
(`true` is restored at 1088 / 920 before saving). -/
def SaveCfg.lastSparse (c : SaveCfg) : Bool :=
  if c.nonLte && c.sparseCalc && c.finalDense then false else c.sparseCalc

/-- `num_cells` of `allocate_J` (2D), source/main.cpp:44-53. `sparse` is `sparse_calculation` at the
last call. -/
def allocCells2 (B : Nat) (bm : BlockMap Coord2) (sparse : Bool) : Int :=
  if sparse then numActiveCells (B * B) bm else bm.dims.x * bm.dims.z * (B * B)

/-- `num_cells` of `allocate_J` (3D), source/main_3d.cpp:33-42. -/
def allocCells3 (B : Nat) (bm : BlockMap Coord3) (sparse : Bool) : Int :=
  if sparse then numActiveCells (B * B * B) bm else bm.dims.x * bm.dims.y * bm.dims.z * (B * B * B)

/-- The variable "J" of the output file: dimensions (wavelength, ks), or (wavelength, z, [y,] x). -/
inductive JFile (C V : Type) where
  | ks (q : Pages V)
  | grid (g : Nat × C → V)

variable {V : Type} [Zero V]

/-- `reshape(extent(0), num_z, num_x)`, source/main.cpp:779, 786: same storage, row-major; YAKL stops the
program if the number of elements changes. -/
def reshape2 (nx nz : Int) (q : Pages V) : Outcome (Nat × Coord2 → V) :=
  if q.cells = nz * nx then .ok fun p => q.val p.1 (p.2.z * nx + p.2.x) else .throws

/-- `reshape(extent(0), num_z, num_y, num_x)`, source/main_3d.cpp:468-473, 483-488. -/
def reshape3 (nx ny nz : Int) (q : Pages V) : Outcome (Nat × Coord3 → V) :=
  if q.cells = nz * ny * nx then .ok fun p => q.val p.1 ((p.2.z * ny + p.2.y) * nx + p.2.x) else .throws

/-- source/main.cpp:756-787: the J part of `save_results` (2D). `q` is `J_cpu` or `J`, `tempCells` is
`atmos.temperature.extent(0)`. At this point `sparse_calculation` has its configured value again. -/
def saveJ2 (B : Nat) (bm : BlockMap Coord2) (c : SaveCfg) (tempCells : Int) (q : Pages V)
    (sched : Nat → List (Nat × Int)) (junk : Nat × Coord2 → V) : Outcome (JFile Coord2 V) :=
  let sparseJ := c.sparseCalc && decide (q.cells = tempCells)
  if sparseJ then
    if c.outSparse then .ok (.ks q)
    else do
      let r ← if c.storeOnCpu then rehydrate2Host B bm q sched junk else rehydrate2Device B bm q sched junk
      .ok (.grid r)
  else do
    let r ← reshape2 (bm.dims.x * B) (bm.dims.z * B) q
    .ok (.grid r)

/-- source/main_3d.cpp:446-489: the J part of `save_results` (3D), `NO_J_3D` being false. `atm` are
`atmos.num_x`, `num_y`, `num_z`. -/
def saveJ3 (B : Nat) (bm : BlockMap Coord3) (c : SaveCfg) (atm : Coord3) (tempCells : Int) (q : Pages V)
    (sched : Nat → List (Nat × Int)) (junk : Nat × Coord3 → V) : Outcome (JFile Coord3 V) :=
  let sparseJ := decide (q.cells = tempCells)
  if sparseJ then
    if c.outSparse then .ok (.ks q)
    else do
      let r ← if c.storeOnCpu then rehydrate3Host B bm q sched junk else rehydrate3Device B bm q sched junk
      .ok (.grid r)
  else do
    let r ← reshape3 atm.x atm.y atm.z q
    .ok (.grid r)

end DexRT
