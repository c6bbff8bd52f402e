import Verif.Model.AtmosFile
import Verif.Spec.Sparse
/-!
Vocabulary of C81: complete files, what a loaded atmosphere must hold, and which velocities count as moving.
-/
namespace DexRT
namespace AtmosFile

variable {C W V K : Type}

/-- The variables every atmosphere file must have. -/
def required : List String := ["temperature", "pressure", "ne", "nh_tot", "vturb", "vx", "vy", "vz"]

/-- The file has the voxel scale and all required fields. -/
def Complete (scalar : String → Option W) (get : String → Option (K → W)) : Prop :=
  (scalar "voxel_scale").isSome ∧ ∀ n ∈ required, (get n).isSome

/-- The loaded atmosphere `a` holds at storage address `adr` what the file has for `k`, each quantity under its own
name; the neutral hydrogen density starts at zero. -/
structure CellIs (cv : W → V) (zero : V) (get : String → Option (K → W)) (a : Atmos Int V) (k : K) (adr : Int) : Prop where
  temperature : (get "temperature").map (fun v => cv (v k)) = some (a.temperature adr)
  pressure : (get "pressure").map (fun v => cv (v k)) = some (a.pressure adr)
  ne : (get "ne").map (fun v => cv (v k)) = some (a.ne adr)
  nhTot : (get "nh_tot").map (fun v => cv (v k)) = some (a.nhTot adr)
  vturb : (get "vturb").map (fun v => cv (v k)) = some (a.vturb adr)
  vx : (get "vx").map (fun v => cv (v k)) = some (a.vx adr)
  vy : (get "vy").map (fun v => cv (v k)) = some (a.vy adr)
  vz : (get "vz").map (fun v => cv (v k)) = some (a.vz adr)
  nh0 : a.nh0 adr = zero

/-- The scalars: the voxel scale of the file, and the offsets of the file or zero where it has none. -/
structure ScalarsAre (cv : W → V) (zero : V) (scalar : String → Option W) (a : Atmos Int V) : Prop where
  voxelScale : (scalar "voxel_scale").map cv = some a.voxelScale
  offsetX : (∀ w, scalar "offset_x" = some w → a.offsetX = cv w) ∧ (scalar "offset_x" = none → a.offsetX = zero)
  offsetY : (∀ w, scalar "offset_y" = some w → a.offsetY = cv w) ∧ (scalar "offset_y" = none → a.offsetY = zero)
  offsetZ : (∀ w, scalar "offset_z" = some w → a.offsetZ = cv w) ∧ (scalar "offset_z" = none → a.offsetZ = zero)

/-- The speed at `k`, as the machine computes it, is above 10 m/s. -/
def Fast (fl : FloatOps V) (cv : W → V) (get : String → Option (K → W)) (k : K) : Prop :=
  ∃ x y z, get "vx" = some x ∧ get "vy" = some y ∧ get "vz" = some z ∧
    fl.gt (fl.sqrt (fl.add (fl.add (fl.mul (cv (z k)) (cv (z k))) (fl.mul (cv (y k)) (cv (y k))))
      (fl.mul (cv (x k)) (cv (x k))))) fl.ten = true

/-- What is used of floating point arithmetic; `num` are the values that are not NaN. All of it holds of IEEE
numbers with correctly rounded `sqrt`; nothing is said of `add` and `mul`. -/
structure FloatLaws (fl : FloatOps V) (num : V → Prop) : Prop where
  gt_num : ∀ a b, fl.gt a b = true → num a ∧ num b
  irrefl : ∀ a, fl.gt a a = false
  trans : ∀ a b c, fl.gt a b = true → fl.gt b c = true → fl.gt a c = true
  split : ∀ a b c, num b → fl.gt a c = true → fl.gt a b = true ∨ fl.gt b c = true
  num_lowest : num fl.lowest
  sqrt_mono : ∀ a b, num b → fl.gt a b = false → fl.gt (fl.sqrt a) fl.ten = true → fl.gt (fl.sqrt b) fl.ten = true
  sqrt_pos : ∀ a, fl.gt (fl.sqrt a) fl.ten = true → fl.gt a fl.lowest = true

/-- Every schedule of the parallel kernels of one load: `cells` cells per tile, `inb` the cells of the grid. -/
structure GoodSched (cells : Nat) (inb : C → C → Bool) (sc : Sched C) : Prop where
  kernel : ∀ bm, (sc.kernel bm).Perm (loopIters cells bm)
  tileWrites : ∀ tiles, (sc.tileWrites tiles).Perm tiles.zipIdx
  dense : ∀ d c, c ∈ (sc.dense d).iters ↔ inb d c = true
  flat : ∀ n i, i ∈ (sc.flat n).iters ↔ 0 ≤ i ∧ i < n

/-- A complete dense file of `nx` by `nz` tiles of side `B`. -/
structure DenseFile2 (B nx nz : Nat) (f : NcFile Coord2 W) : Prop where
  sparse : f.attr "sparse" = none ∨ f.attr "sparse" = some [0]
  dimX : f.dim "x" = some ((nx : Int) * (B : Int))
  dimZ : f.dim "z" = some ((nz : Int) * (B : Int))
  complete : Complete f.scalar f.grid

/-- A complete dense file of `nx` by `ny` by `nz` tiles of side `B`. -/
structure DenseFile3 (B nx ny nz : Nat) (f : NcFile Coord3 W) : Prop where
  sparse : f.attr "sparse" = none ∨ f.attr "sparse" = some [0]
  dimX : f.dim "x" = some ((nx : Int) * (B : Int))
  dimY : f.dim "y" = some ((ny : Int) * (B : Int))
  dimZ : f.dim "z" = some ((nz : Int) * (B : Int))
  complete : Complete f.scalar f.grid

/-- A complete sparse file with the given tiles: distinct tiles of the grid, and as many cells as they have. -/
structure SparseFile2 (B nx nz : Nat) (tiles : List (BitVec 32)) (f : NcFile Coord2 W) : Prop where
  sparse : ∃ v, v ≠ 0 ∧ f.attr "sparse" = some [v]
  numX : f.attr "num_x" = some [(nx : Int) * (B : Int)]
  numZ : f.attr "num_z" = some [(nz : Int) * (B : Int)]
  block : f.attr "block_size" = some [(B : Int)]
  isTiles : f.tiles "morton_tiles" = some tiles
  inGrid : ∀ m ∈ tiles, GridTile2 B ((nx : Int) * (B : Int)) ((nz : Int) * (B : Int)) (decodeMorton2 m)
  nodup : tiles.Nodup
  fits : (tiles.length : Int) * ((B : Int) * (B : Int)) ≤ i32Max
  numActive : f.dim "num_active_tiles" = some (tiles.length : Int)
  cells : f.dim "cells" = some ((tiles.length : Int) * ((B : Int) * (B : Int)))
  complete : Complete f.scalar f.flat

/-- A complete sparse file with the given tiles (3D); tile codes have 30 bits. -/
structure SparseFile3 (B nx ny nz : Nat) (tiles : List (BitVec 32)) (f : NcFile Coord3 W) : Prop where
  sparse : ∃ v, v ≠ 0 ∧ f.attr "sparse" = some [v]
  numX : f.attr "num_x" = some [(nx : Int) * (B : Int)]
  numY : f.attr "num_y" = some [(ny : Int) * (B : Int)]
  numZ : f.attr "num_z" = some [(nz : Int) * (B : Int)]
  block : f.attr "block_size" = some [(B : Int)]
  isTiles : f.tiles "morton_tiles" = some tiles
  inGrid : ∀ m ∈ tiles,
    GridTile3 B ((nx : Int) * (B : Int)) ((ny : Int) * (B : Int)) ((nz : Int) * (B : Int)) (decodeMorton3 m)
  code : ∀ m ∈ tiles, m.toNat < 2 ^ 30
  nodup : tiles.Nodup
  fits : (tiles.length : Int) * ((B : Int) * (B : Int) * (B : Int)) ≤ i32Max
  numActive : f.dim "num_active_tiles" = some (tiles.length : Int)
  cells : f.dim "cells" = some ((tiles.length : Int) * ((B : Int) * (B : Int) * (B : Int)))
  complete : Complete f.scalar f.flat

end AtmosFile
end DexRT
