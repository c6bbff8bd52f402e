import Verif.Model.MultiLevel
import Verif.Model.Sparse
import Mathlib.Algebra.Field.Basic
import Mathlib.Analysis.SpecialFunctions.Log.Basic
/-!
Model of the mip chain: source/Mipmaps.cpp:149-374, source/Mipmaps3d.cpp:145-420,
source/CoreAndVoigtEmisOpac.cpp:152-320, 407-594. Exact arithmetic.
-/
namespace DexRT

/-- A parallel kernel whose iterations read the array they write: `f i m` is the element and value
iteration `i` writes when it runs on memory `m`. -/
def kernelLoop {ι K V : Type} [DecidableEq K] (f : ι → (K → V) → Outcome (K × V)) :
    List ι → (K → V) → Outcome (K → V)
  | [], m => .ok m
  | i :: is, m => do
    let (k, v) ← f i m
    kernelLoop f is (fun k' => if k' = k then v else m k')

/-- Checked read of an array of `len` elements. -/
def mipRead {V : Type} (len : Int) (m : Int → V) (i : Int) : Outcome V :=
  if 0 ≤ i ∧ i < len then .ok (m i) else .ub

variable {F : Type} [Field F]

/-- source/Mipmaps.cpp:258-263, 276-296, 327-328 (`emis`, `opac`), 199-236 (`vx`, `vy`, `vz`) and
source/CoreAndVoigtEmisOpac.cpp:182-187, 251-276, 305-316 (`eta_star`, ...), one array and one
wavelength (or line): the four sub-cells are summed, scaled by `scale` (`FP(0.25)` in all of them) and
stored. `(tile_idx, block_idx)` is `p`; level is `lm1 + 1`. -/
def mipBody2 (B : Nat) (mr : MRMap Coord2) (len : Int) (scale : F) (lm1 : Nat) (p : Nat × Int)
    (m : Int → F) : Outcome (Int × F) := do
  let G := mgeo2 B
  let u : Int := 2 ^ (lm1 + 1) / 2
  let ks := mipLoopIdx B 2 mr.off (lm1 + 1) p.1 p.2
  let c ← mipLoopCoord2 B mr.bm (lm1 + 1) p.1 p.2
  let (i0, s) ← G.idx mr G.fresh lm1 c
  let (i1, s) ← G.idx mr s lm1 { x := c.x + u, z := c.z }
  let (i2, s) ← G.idx mr s lm1 { x := c.x, z := c.z + u }
  let (i3, _) ← G.idx mr s lm1 { x := c.x + u, z := c.z + u }
  let v0 ← mipRead len m i0
  let v1 ← mipRead len m i1
  let v2 ← mipRead len m i2
  let v3 ← mipRead len m i3
  if ¬ (0 ≤ ks ∧ ks < len) then .ub
  else .ok (ks, (0 + v0 + v1 + v2 + v3) * scale)

/-- source/Mipmaps3d.cpp:277-310, 321-341, 374-375 (`emis`, `opac`, where `scale` is `FP(0.25)`),
194-256 (velocities, `FP(0.125)`) and source/CoreAndVoigtEmisOpac.cpp:437-470, 531-534, 548-553, 581-590
(line data, `FP(0.125)`): eight sub-cells. -/
def mipBody3 (B : Nat) (mr : MRMap Coord3) (len : Int) (scale : F) (lm1 : Nat) (p : Nat × Int)
    (m : Int → F) : Outcome (Int × F) := do
  let G := mgeo3 B
  let u : Int := 2 ^ (lm1 + 1) / 2
  let ks := mipLoopIdx B 3 mr.off (lm1 + 1) p.1 p.2
  let c ← mipLoopCoord3 B mr.bm (lm1 + 1) p.1 p.2
  let (i0, s) ← G.idx mr G.fresh lm1 c
  let (i1, s) ← G.idx mr s lm1 { x := c.x + u, y := c.y, z := c.z }
  let (i2, s) ← G.idx mr s lm1 { x := c.x, y := c.y + u, z := c.z }
  let (i3, s) ← G.idx mr s lm1 { x := c.x + u, y := c.y + u, z := c.z }
  let (i4, s) ← G.idx mr s lm1 { x := c.x, y := c.y, z := c.z + u }
  let (i5, s) ← G.idx mr s lm1 { x := c.x + u, y := c.y, z := c.z + u }
  let (i6, s) ← G.idx mr s lm1 { x := c.x, y := c.y + u, z := c.z + u }
  let (i7, _) ← G.idx mr s lm1 { x := c.x + u, y := c.y + u, z := c.z + u }
  let v0 ← mipRead len m i0
  let v1 ← mipRead len m i1
  let v2 ← mipRead len m i2
  let v3 ← mipRead len m i3
  let v4 ← mipRead len m i4
  let v5 ← mipRead len m i5
  let v6 ← mipRead len m i6
  let v7 ← mipRead len m i7
  if ¬ (0 ≤ ks ∧ ks < len) then .ub
  else .ok (ks, (0 + v0 + v1 + v2 + v3 + v4 + v5 + v6 + v7) * scale)

/-- source/BlockMap.hpp:222-228 `loop_bounds(vox_size)` at mip level `level`. -/
def mipIters {C : Type} (B D level : Nat) (bm : BlockMap C) : List (Nat × Int) :=
  loopIters (B ^ D / (2 ^ level) ^ D) bm

/-- source/Mipmaps.cpp:191-330: the levels in turn, one array; `sched l` is the order of the kernel
that fills level `l + 1`. -/
def mipChain2 (B : Nat) (mr : MRMap Coord2) (len : Int) (scale : F) (sched : Nat → List (Nat × Int)) :
    Nat → (Int → F) → Outcome (Int → F)
  | 0, m => .ok m
  | n + 1, m => do
    let m' ← mipChain2 B mr len scale sched n m
    kernelLoop (mipBody2 B mr len scale n) (sched n) m'

/-- source/Mipmaps3d.cpp:186-376. -/
def mipChain3 (B : Nat) (mr : MRMap Coord3) (len : Int) (scale : F) (sched : Nat → List (Nat × Int)) :
    Nat → (Int → F) → Outcome (Int → F)
  | 0, m => .ok m
  | n + 1, m => do
    let m' ← mipChain3 B mr len scale sched n m
    kernelLoop (mipBody3 B mr len scale n) (sched n) m'

/-- source/Mipmaps.cpp:293-294: the factor of every 2D mip kernel. -/
def mipScale2 : F := 1 / 4

/-- source/Mipmaps3d.cpp:249-251 and source/CoreAndVoigtEmisOpac.cpp:548-553: velocities and line data. -/
def mipScale3Vel : F := 1 / 8

/-- source/Mipmaps3d.cpp:340-341: emissivity and opacity, `FP(0.25)` although there are 8 sub-cells. -/
def mipScale3Emis : F := 1 / 4

/-! ### Choice of a tile's mip level -/

/-- Tolerances, source/Mipmaps.cpp:168-172. -/
structure MipTol where
  opacThreshold : ℝ
  chiVar : ℝ
  etaVar : ℝ

/-- source/Mipmaps.cpp:303-306: index of dispersion from the first two moments; division by zero gives
a NaN or infinity in the code except in the guarded case `m2 == 0`; the exact model's `x / 0 = 0`
differs only when `m1 = 0` and `m2 ≠ 0`, where the code's infinity fails the test: `none`. -/
noncomputable def dispersion (m1 m2 : ℝ) : Option ℝ :=
  if m2 = 0 then some 0 else if m1 = 0 then none else some |m2 / m1 - m1|

/-- source/Mipmaps.cpp:276-317 (`w = 1/4`), source/Mipmaps3d.cpp:321-364 (`w = 1/4`),
source/CoreAndVoigtEmisOpac.cpp:212-295 (`w = 1/4`), 490-573 (`w = 1/8`): does this mip cell pass?
`cells` are the sub-cells' (chi, eta), `ds` the sub-cell size; a test that compares an infinity fails.
In the CoreAndVoigt variants (chi, eta) already contain the line contribution and the `1e-15`, and the
threshold is compared with `chi + 1e-15`; that is passed as `eps = 0`. -/
noncomputable def mipTest (tol : MipTol) (w eps ds : ℝ) (cells : List (ℝ × ℝ)) : Bool :=
  let consider := cells.any fun q => decide (q.1 * ds > tol.opacThreshold)
  let m1chi := w * (cells.map fun q => Real.log ((q.1 + eps) * ds)).sum
  let m2chi := w * (cells.map fun q => Real.log ((q.1 + eps) * ds) ^ 2).sum
  let m1eta := w * (cells.map fun q => Real.log ((q.2 + eps) * ds)).sum
  let m2eta := w * (cells.map fun q => Real.log ((q.2 + eps) * ds) ^ 2).sum
  if consider then
    match dispersion m1chi m2chi, dispersion m1eta m2eta with
    | some dc, some de => decide (¬ (dc > tol.chiVar ∨ de > tol.etaVar))
    | _, _ => false
  else true

/-- source/Mipmaps.cpp:323-325, source/CoreAndVoigtEmisOpac.cpp:301-303: the atomic counter of one tile
after a level's kernel: the number of its iterations (in any order) whose test passed. -/
def countPassed {ι : Type} (passed : ι → Bool) (iters : List ι) : Nat :=
  iters.foldl (fun n i => if passed i then n + 1 else n) 0

/-- source/Mipmaps.cpp:363 `square(BLOCK_SIZE >> level) * wave_batch` (2D), source/Mipmaps3d.cpp:410
`cube(block_size >> level)` (3D, where `waves = 1`). -/
def mipExpected (B D waves level : Nat) : Nat := (B >>> level) ^ D * waves

/-- source/Mipmaps.cpp:356-370, source/Mipmaps3d.cpp:403-416, one tile, all levels: `count lvl` is the
counter of level `lvl`, `cur` the entry (level + 1). Dividing by zero is UB. -/
def levelLoop (expected count : Nat → Nat) : Nat → Nat → Outcome Nat
  | 0, cur => .ok cur
  | n + 1, cur => do
    let cur' ← levelLoop expected count n cur
    let level := n + 1
    if cur' = level then
      if expected level = 0 then .ub else .ok (cur' + count level / expected level)
    else .ok cur'

/-- source/Mipmaps.cpp:174-188, 191, 323-325, 356-373: the entry of a tile: 0 if it is not active,
otherwise the result of the level loop started from 1. `passed l (block, wave)` is the outcome of the
test of that iteration of level `l`, `sched l` the order of its iterations that belong to this tile. -/
def tileEntry (B D waves : Nat) (active : Bool) (passed : Nat → Nat × Nat → Bool)
    (sched : Nat → List (Nat × Nat)) (maxMip : Nat) : Outcome Nat :=
  if active then
    levelLoop (mipExpected B D waves) (fun l => countPassed (passed l) (sched l)) maxMip 1
  else .ok 0

/-- The iterations of one tile at mip level `level`: `FlatLoop<3>(bounds.dim(0), bounds.dim(1), wave_batch)`,
source/Mipmaps.cpp:243-247, source/CoreAndVoigtEmisOpac.cpp:171, with `bounds.dim(1)` from
source/BlockMap.hpp:193-197, 222-228. -/
def tileIters (B D waves level : Nat) : List (Nat × Nat) :=
  (List.range (B ^ D / (2 ^ level) ^ D)).flatMap fun b => (List.range waves).map fun w => (b, w)

end DexRT
