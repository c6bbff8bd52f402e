import Verif.Model.Sparse
/-!
Model of reading the model atmosphere: source/Atmosphere.hpp:10-241 (dense files), 280-438 (sparse files),
source/BlockMap.cpp:311-326, 424-450 (`init_and_sparsify_atmos`), source/MiscSparse.cpp:7-100
(`sparsify_atmosphere`). `W` is the type of the numbers in the file (f32), `V` of the numbers in the program
(`fp_t`), `cv` the conversion between the two (the identity in single precision).
-/
namespace DexRT
namespace AtmosFile

/-- What the loaders see of a NetCDF file: dimensions, scalar variables, arrays over the grid (2D or 3D,
`C` the cell), arrays over the active cells, the list `morton_tiles` and integer global attributes.
Simplification: an array over the grid is taken to have the extents of the named dimensions; a variable of
the wrong rank is one that is not there (the NetCDF library throws in both cases). -/
structure NcFile (C W : Type) where
  dim : String → Option Int
  scalar : String → Option W
  grid : String → Option (C → W)
  flat : String → Option (Int → W)
  tiles : String → Option (List (BitVec 32))
  attr : String → Option (List Int)

/-- A required item: the library throws when it is not in the file
(`getDimSize`, `read`, and `ncwrap` of source/Atmosphere.hpp:307-313, which aborts). -/
def need {α : Type} : Option α → Outcome α
  | some a => .ok a
  | none => .throws

/-- `AtmosphereNd` and `SparseAtmosphere` (source/Types.hpp:440-477): the scalars and the nine fields, as
functions of the cell (`K = C`) or of the storage address (`K = Int`). `numX` ... are only in the sparse one. -/
structure Atmos (K V : Type) where
  voxelScale : V
  offsetX : V
  offsetY : V
  offsetZ : V
  moving : Bool
  temperature : K → V
  pressure : K → V
  ne : K → V
  nhTot : K → V
  nh0 : K → V
  vturb : K → V
  vx : K → V
  vy : K → V
  vz : K → V

/-- The floating point operations of the velocity test. -/
structure FloatOps (V : Type) where
  add : V → V → V
  mul : V → V → V
  sqrt : V → V
  /-- `a > b` -/
  gt : V → V → Bool
  /-- `Kokkos::reduction_identity<fp_t>::max()`, the most negative finite number -/
  lowest : V
  zero : V
  ten : V

variable {C W V : Type}

/-- A Kokkos reduction: the iterations are dealt to threads, each folds its share from the identity, and the
partial results are joined pairwise. -/
inductive Red (K : Type) where
  | chunk (is : List K)
  | join (l r : Red K)

/-- The iterations of a reduction, from left to right. -/
def Red.iters {K : Type} : Red K → List K
  | .chunk is => is
  | .join l r => l.iters ++ r.iters

/-- source/Atmosphere.hpp:117-121 (231-235, 429-433): the body of the reduction. -/
def maxBody (fl : FloatOps V) (vel2 : V) (running : V) : V :=
  if fl.gt vel2 running then vel2 else running

/-- `dex_parallel_reduce(..., Kokkos::Max)`: source/LoopUtils.hpp:293-351. `Kokkos::Max::join` is
`if (dest < src) dest = src`. -/
def runMax {K : Type} (fl : FloatOps V) (vel2 : K → V) : Red K → V
  | .chunk is => is.foldl (fun r i => maxBody fl (vel2 i) r) fl.lowest
  | .join l r =>
    let dest := runMax fl vel2 l
    let src := runMax fl vel2 r
    if fl.gt src dest then src else dest

/-- source/Atmosphere.hpp:118 (232, 430). -/
def vel2 {K : Type} (fl : FloatOps V) (vx vy vz : K → V) (k : K) : V :=
  fl.add (fl.add (fl.mul (vz k) (vz k)) (fl.mul (vy k) (vy k))) (fl.mul (vx k) (vx k))

/-- source/Atmosphere.hpp:112-125 (226-237, 424-435). -/
def isMoving {K : Type} (fl : FloatOps V) (vx vy vz : K → V) (red : Red K) : Bool :=
  fl.gt (fl.sqrt (runMax fl (vel2 fl vx vy vz) red)) fl.ten

/-- source/Atmosphere.hpp:29-53 (148-172, 343-367) and the conversions 61-107 (181-219, 376-416): the scalars and the eight
variables, `get` being the arrays of the file, and source/Atmosphere.hpp:109-110 (221-222, 418-419): `nh0` is zero.
The velocity test follows. -/
def readFields {K : Type} (fl : FloatOps V) (cv : W → V) (scalar : String → Option W) (get : String → Option (K → W))
    (red : Red K) : Outcome (Atmos K V) := do
  let voxelScale ← need (scalar "voxel_scale")
  let temperature ← need (get "temperature")
  let pressure ← need (get "pressure")
  let ne ← need (get "ne")
  let nhTot ← need (get "nh_tot")
  let vturb ← need (get "vturb")
  let vx ← need (get "vx")
  let vy ← need (get "vy")
  let vz ← need (get "vz")
  let offsetX := ((scalar "offset_x").map cv).getD fl.zero
  let offsetY := ((scalar "offset_y").map cv).getD fl.zero
  let offsetZ := ((scalar "offset_z").map cv).getD fl.zero
  let vx' := fun k => cv (vx k)
  let vy' := fun k => cv (vy k)
  let vz' := fun k => cv (vz k)
  .ok { voxelScale := cv voxelScale, offsetX := offsetX, offsetY := offsetY, offsetZ := offsetZ,
        moving := isMoving fl vx' vy' vz' red,
        temperature := fun k => cv (temperature k), pressure := fun k => cv (pressure k), ne := fun k => cv (ne k),
        nhTot := fun k => cv (nhTot k), nh0 := fun _ => fl.zero, vturb := fun k => cv (vturb k),
        vx := vx', vy := vy', vz := vz' }

/-- source/Atmosphere.hpp:10-128 `load_atmos`: extents and fields. -/
def loadDense2 (fl : FloatOps V) (cv : W → V) (f : NcFile Coord2 W) (red : Red Coord2) :
    Outcome (Coord2 × Atmos Coord2 V) := do
  let x ← need (f.dim "x")
  let z ← need (f.dim "z")
  let a ← readFields fl cv f.scalar f.grid red
  .ok ({ x := x, z := z }, a)

/-- source/Atmosphere.hpp:130-240 `load_atmos_3d_host`. -/
def loadDense3 (fl : FloatOps V) (cv : W → V) (f : NcFile Coord3 W) (red : Red Coord3) :
    Outcome (Coord3 × Atmos Coord3 V) := do
  let x ← need (f.dim "x")
  let y ← need (f.dim "y")
  let z ← need (f.dim "z")
  let a ← readFields fl cv f.scalar f.grid red
  .ok ({ x := x, y := y, z := z }, a)

/-- source/Atmosphere.hpp:278-300 `atmosphere_file_is_sparse`. -/
def isSparse (f : NcFile C W) : Outcome Bool :=
  match f.attr "sparse" with
  | none => .ok false
  | some [v] => .ok (decide (v ≠ 0))
  | some _ => .throws

/-- `nc_get_att_int` of an attribute of one integer (source/Atmosphere.hpp:317-323). -/
def needAttr (f : NcFile C W) (name : String) : Outcome Int :=
  match f.attr name with
  | some [v] => .ok v
  | some _ => .ub
  | none => .throws

/-- source/Atmosphere.hpp:303-438 `load_sparse_atmosphere<2>`: (`num_x`, `num_z`), number of cells, fields. -/
def loadSparse2 (B : Nat) (fl : FloatOps V) (cv : W → V) (f : NcFile Coord2 W) (red : Red Int) :
    Outcome (Coord2 × Int × Atmos Int V) := do
  let x ← needAttr f "num_x"
  let z ← needAttr f "num_z"
  let b ← needAttr f "block_size"
  if b ≠ B then .throws
  else do
    let cells ← need (f.dim "cells")
    let a ← readFields fl cv f.scalar f.flat red
    .ok ({ x := x, z := z }, cells, a)

/-- source/Atmosphere.hpp:303-438 `load_sparse_atmosphere<3>`. -/
def loadSparse3 (B : Nat) (fl : FloatOps V) (cv : W → V) (f : NcFile Coord3 W) (red : Red Int) :
    Outcome (Coord3 × Int × Atmos Int V) := do
  let x ← needAttr f "num_x"
  let z ← needAttr f "num_z"
  let y ← needAttr f "num_y"
  let b ← needAttr f "block_size"
  if b ≠ B then .throws
  else do
    let cells ← need (f.dim "cells")
    let a ← readFields fl cv f.scalar f.flat red
    .ok ({ x := x, y := y, z := z }, cells, a)

/-- source/MiscSparse.cpp:7-49 (51-100) `sparsify_atmosphere`, one field at a time: `one` is the kernel on one field.
In 2D the nine assignments are in one kernel; they touch different arrays, so the order between them is immaterial.
`junk` is what the new arrays held. -/
def sparsify (one : (C → V) → (Int → V) → Outcome (Int → V)) (a : Atmos C V) (junk : Atmos Int V) :
    Outcome (Atmos Int V) := do
  let temperature ← one a.temperature junk.temperature
  let pressure ← one a.pressure junk.pressure
  let ne ← one a.ne junk.ne
  let nhTot ← one a.nhTot junk.nhTot
  let nh0 ← one a.nh0 junk.nh0
  let vturb ← one a.vturb junk.vturb
  let vx ← one a.vx junk.vx
  let vy ← one a.vy junk.vy
  let vz ← one a.vz junk.vz
  .ok { voxelScale := a.voxelScale, offsetX := a.offsetX, offsetY := a.offsetY, offsetZ := a.offsetZ, moving := a.moving,
        temperature := temperature, pressure := pressure, ne := ne, nhTot := nhTot, nh0 := nh0, vturb := vturb,
        vx := vx, vy := vy, vz := vz }

/-- The parallel schedules of one load: the order of the sparsify kernels (as a function of the map), of the tile
writes (as a function of the tile list) and the shapes of the two velocity reductions. -/
structure Sched (C : Type) where
  kernel : BlockMap C → List (Nat × Int)
  tileWrites : List (BitVec 32) → List (BitVec 32 × Nat)
  dense : C → Red C
  flat : Int → Red Int

variable [LE V] [DecidableLE V]

/-- source/BlockMap.cpp:424-450 `init_and_sparsify_atmos` (2D); `isZero` is `cutoff_temperature == 0`
(source/BlockMap.cpp:79). The mip levels built from the map (437, 446) are the subject of C09. -/
def load2 (B : Nat) (fl : FloatOps V) (cv : W → V) (isZero : V → Bool) (f : NcFile Coord2 W) (cutoff : V)
    (sc : Sched Coord2) (junk : Atmos Int V) : Outcome (BlockMap Coord2 × Atmos Int V) := do
  let sparse ← isSparse f
  if sparse then do
    let cells0 ← need (f.dim "cells")
    let (d, cells, a) ← loadSparse2 B fl cv f (sc.flat cells0)
    let n ← need (f.dim "num_active_tiles")
    let tiles ← need (f.tiles "morton_tiles")
    let bm ← setupFromFile2 B d.x d.z n cells tiles (sc.tileWrites tiles)
    .ok (bm, a)
  else do
    let x0 ← need (f.dim "x")
    let z0 ← need (f.dim "z")
    let (d, a) ← loadDense2 fl cv f (sc.dense { x := x0, z := z0 })
    let bm ← setupSparse2 B d.x d.z (fun z x => a.temperature { x := x, z := z }) cutoff (isZero cutoff)
    let s ← sparsify (fun src old => sparsifyField2 B bm d src (sc.kernel bm) old) a junk
    .ok (bm, s)

/-- source/BlockMap.cpp:424-450 `init_and_sparsify_atmos` (3D). -/
def load3 (B : Nat) (fl : FloatOps V) (cv : W → V) (isZero : V → Bool) (f : NcFile Coord3 W) (cutoff : V)
    (sc : Sched Coord3) (junk : Atmos Int V) : Outcome (BlockMap Coord3 × Atmos Int V) := do
  let sparse ← isSparse f
  if sparse then do
    let cells0 ← need (f.dim "cells")
    let (d, cells, a) ← loadSparse3 B fl cv f (sc.flat cells0)
    let n ← need (f.dim "num_active_tiles")
    let tiles ← need (f.tiles "morton_tiles")
    let bm ← setupFromFile3 B d.x d.y d.z n cells tiles (sc.tileWrites tiles)
    .ok (bm, a)
  else do
    let x0 ← need (f.dim "x")
    let y0 ← need (f.dim "y")
    let z0 ← need (f.dim "z")
    let (d, a) ← loadDense3 fl cv f (sc.dense { x := x0, y := y0, z := z0 })
    let bm ← setupSparse3 B d.x d.y d.z (fun z y x => a.temperature { x := x, y := y, z := z }) cutoff (isZero cutoff)
    let s ← sparsify (fun src old => sparsifyField3 B bm d src (sc.kernel bm) old) a junk
    .ok (bm, s)

end AtmosFile
end DexRT
