import Verif.Model.Basic
/-!
Model of the parallel-loop helpers, source/LoopUtils.hpp.
-/
namespace DexRT

/-- Narrowing conversion `i32(v)` (modular since C++20). -/
def toI32 (v : Int) : Int := (v + 2147483648) % 4294967296 - 2147483648

/-- Left-to-right `i32` product of bounds, e.g. `bounds[1] * bounds[2] * bounds[3]`
(source/LoopUtils.hpp:380, 395, ...); overflow is UB. -/
def prodI32 : List Int → Outcome Int
  | [] => .ok 1
  | b :: bs => bs.foldl (fun acc x => do mulI32 (← acc) x) (.ok b)

/-- source/LoopUtils.hpp:377-457, the body shared by `FlatLoop<3>`..`FlatLoop<6>`: `rest` are the
bounds still to the right of the index being extracted, `off` the running `offset`. -/
def unpackGo : List Int → Int → Int → Outcome (List Int)
  | [], i, off => .ok [toI32 (i - off)]
  | b :: bs, i, off => do
    let d ← prodI32 (b :: bs)
    let k := toI32 ((i - off).tdiv d)
    let ks ← unpackGo bs i (off + k * d)
    .ok (k :: ks)

/-- source/LoopUtils.hpp:361-457 `FlatLoop<N>::unpack`. `FlatLoop<2>` multiplies `bounds[1] * idx0`
in `i32` (368-369); the others multiply `idx0 * dim_prod` in `i64`. -/
def unpack (bounds : List Int) (i : Int) : Outcome (List Int) :=
  match bounds with
  | [] => .ub
  | [_] => .ok [toI32 i]
  | [_, b1] => do
    let i0 := toI32 (i.tdiv b1)
    let p ← mulI32 b1 i0
    .ok [i0, toI32 (i - p)]
  | _ :: rest => unpackGo rest i 0

/-- source/LoopUtils.hpp:35-39: `num_iter` (i64 product of all bounds). -/
def numIter (bounds : List Int) : Int := bounds.foldl (· * ·) 1

/-- source/LoopUtils.hpp:68-71: first loop. Constants `min_blocks = 256` (line 55),
`min_work_per_block = 128` (line 66): every caller uses the defaults. -/
def growBlocks (lead trail : Nat) : Nat × Nat :=
  if lead < 256 ∧ trail ≥ 128 then growBlocks (lead * 2) ((trail + 1) / 2) else (lead, trail)
termination_by trail
decreasing_by omega

/-- source/LoopUtils.hpp:73-76: second loop, `max_blocks = 8192` (line 56). -/
def capBlocks (lead trail : Nat) : Nat × Nat :=
  if lead ≥ 8192 then capBlocks ((lead + 1) / 2) (trail * 2) else (lead, trail)
termination_by lead
decreasing_by omega

/-- source/LoopUtils.hpp:78-81: third loop. Nothing stops it when `trailing_dims` is 0; bounds are
positive so that does not happen, and the model stops there. -/
def fillBlocks (lead trail : Nat) : Nat × Nat :=
  if trail < 128 ∧ 0 < trail then fillBlocks ((lead + 1) / 2) (trail * 2) else (lead, trail)
termination_by 128 - trail
decreasing_by omega

/-- source/LoopUtils.hpp:60-86 `balance_parallel_work_division`: (team_count, inner_work_count). -/
def balanceWork (b0 numIter : Nat) : Nat × Nat :=
  let (l1, t1) := growBlocks b0 (numIter / b0)
  let (l2, t2) := capBlocks l1 t1
  fillBlocks l2 t2

/-- source/LoopUtils.hpp:205-232: flat indices executed by the team version of `dex_parallel_for`
(league rank `r`, inner index `j`, guarded by `idx < num_iter`). -/
def teamIndices (b0 numIter : Nat) : List Nat :=
  let (teams, inner) := balanceWork b0 numIter
  (List.range teams).flatMap fun r => (List.range inner).filterMap fun j =>
    let idx := r * inner + j
    if idx ≥ numIter then none else some idx

/-- source/LoopUtils.hpp:168-193: flat indices executed by the CUDA/HIP version: 128 threads per block,
`grid_dim = ceil(num_iter / 128)` blocks narrowed to u32 at the launch, and
`blockIdx.x * blockDim.x + threadIdx.x` in 32-bit unsigned arithmetic. -/
def cudaIndices (numIter : Nat) : List Nat :=
  let grid := ((numIter + 128 - 1) / 128) % 4294967296
  (List.range grid).flatMap fun b => (List.range 128).filterMap fun t =>
    let idx := (b * 128 + t) % 4294967296
    if idx < numIter then some idx else none

end DexRT
