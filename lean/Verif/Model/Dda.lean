import Verif.Model.Clip
import Mathlib.Algebra.Order.Floor.Ring
import Mathlib.Data.Real.Archimedean
/-!
Model of the grid traversal `MultiLevelDDA` (source/BlockMap.hpp:1026-1336) in exact real arithmetic, in two and
three dimensions. `get_sample_level` of the index generator is an arbitrary function of the coordinate (its own
behaviour is the subject of the multi-level models); the answer is -1 for an empty or outside tile.
Simplification: coordinates are unbounded integers (`i32` in the code), no rounding of `t`.
-/
namespace DexRT
open Classical

/-- The two instantiations of the template. -/
inductive DdaDim where
  | two
  | three

/-- Number of axes. -/
abbrev DdaDim.n : DdaDim → ℕ
  | .two => 2
  | .three => 3

/-- The axis selection of `compute_axis_and_dt`, source/BlockMap.hpp:1148-1152 (2D) and 1162-1168 (3D). -/
noncomputable def pickAxis : (dim : DdaDim) → (Fin dim.n → ℝ) → Fin dim.n
  | .two, nh => if nh 1 < nh 0 then 1 else 0
  | .three, nh => if nh 0 ≤ nh 1 ∧ nh 0 ≤ nh 2 then 0 else if nh 1 ≤ nh 2 then 1 else 2

/-- What the traversal reads: the level lookup, the cap `max_mip_level`, the block size and the upper corner of the
grid (the lower one is 0, `assume_lower_tile_bound_0`, source/BlockMap.hpp:11). -/
structure DdaEnv (dim : DdaDim) where
  lvl : (Fin dim.n → ℤ) → ℤ
  maxMip : ℤ
  block : ℤ
  max : Fin dim.n → ℤ

/-- Members of `MultiLevelDDA`, source/BlockMap.hpp:1027-1037. `step` and `delta` only depend on the ray and are
`stepDir` and `deltaOf`. -/
structure Dda (dim : DdaDim) where
  axis : Fin dim.n
  mip : ℤ
  t : ℝ
  dt : ℝ
  size : ℤ
  coord : Fin dim.n → ℤ
  nextHit : Fin dim.n → ℝ

/-- The ray of the traversal after `update_origin` (source/BlockMap.hpp:1054): it starts at parameter 0. -/
structure DdaRay (dim : DdaDim) where
  o : Fin dim.n → ℝ
  d : Fin dim.n → ℝ
  t1 : ℝ

/-- `ray(t)`. -/
def DdaRay.pt {dim : DdaDim} (r : DdaRay dim) (t : ℝ) (i : Fin dim.n) : ℝ := r.o i + t * r.d i

/-- `step(ax)`, source/BlockMap.hpp:1077-1089. -/
noncomputable def DdaRay.stepDir {dim : DdaDim} (r : DdaRay dim) (i : Fin dim.n) : ℤ :=
  if r.d i = 0 then 0 else if 0 < r.d i then 1 else -1

/-- `delta(ax)`, source/BlockMap.hpp:1084, 1088. The code leaves it uninitialised when the direction is 0 (lines
1077-1080), where this is 0; it is then only read after `t` has become 1e24. -/
noncomputable def DdaRay.deltaOf {dim : DdaDim} (r : DdaRay dim) (i : Fin dim.n) : ℝ :=
  if 0 < r.d i then 1 / r.d i else -(1 / r.d i)

/-- `get_sample_level`, source/BlockMap.hpp:1107-1115. -/
def DdaEnv.sampleLevel {dim : DdaDim} (e : DdaEnv dim) (c : Fin dim.n → ℤ) : ℤ := min (e.lvl c) e.maxMip

/-- `get_step_size`, source/BlockMap.hpp:1117-1130. -/
def DdaEnv.stepSize {dim : DdaDim} (e : DdaEnv dim) (mip : ℤ) : ℤ := if mip < 0 then e.block else 2 ^ mip.toNat

/-- `c & ~(size-1)`, source/BlockMap.hpp:1071, 1208: rounding down to a multiple, for the powers of two that
`size` takes. -/
def maskCoord (c size : ℤ) : ℤ := c / size * size

/-- `in_bounds`, source/BlockMap.hpp:1293-1327 (the unsigned comparison rejects negative coordinates). -/
def DdaEnv.inBounds {dim : DdaDim} (e : DdaEnv dim) (c : Fin dim.n → ℤ) : Prop := ∀ i, 0 ≤ c i ∧ c i < e.max i

/-- source/BlockMap.hpp:1136-1139: the push of a hit that is not ahead. -/
noncomputable def pushHit (t nt : ℝ) : ℝ := nt + (t - 0.999999 * nt + 1e-6)

/-- `compute_axis_and_dt`, source/BlockMap.hpp:1132-1183. -/
noncomputable def computeAxisDt {dim : DdaDim} (r : DdaRay dim) (s : Dda dim) : Dda dim :=
  let ax := pickAxis dim s.nextHit
  let nh := if s.nextHit ax ≤ s.t then Function.update s.nextHit ax (pushHit s.t (s.nextHit ax)) else s.nextHit
  let dt := if r.t1 < nh ax then r.t1 - s.t else nh ax - s.t
  { s with axis := ax, nextHit := nh, dt := max dt 0 }

/-- source/BlockMap.hpp:1211-1221: the hit of each axis from the position and the (masked) coordinate. -/
noncomputable def hitsFrom {dim : DdaDim} (r : DdaRay dim) (t : ℝ) (coord : Fin dim.n → ℤ) (size : ℤ)
    (old : Fin dim.n → ℝ) : Fin dim.n → ℝ := fun i =>
  if r.stepDir i = 0 then old i
  else
    let h := t + ((coord i : ℝ) - r.pt t i) * (1 / r.d i)
    if 0 < r.stepDir i then h + (size : ℝ) * (1 / r.d i) else h

/-- `update_mip_level`, source/BlockMap.hpp:1193-1224. -/
noncomputable def updateMip {dim : DdaDim} (e : DdaEnv dim) (r : DdaRay dim) (lock : Bool) (s : Dda dim) : Dda dim :=
  let t := if lock then s.t else s.t + 1e-3
  let c0 := if lock then s.coord else fun i => ⌊r.pt t i⌋
  let mip := e.sampleLevel c0
  let size := e.stepSize mip
  let c := fun i => maskCoord (c0 i) size
  computeAxisDt r { s with t := t, mip := mip, size := size, coord := c, nextHit := hitsFrom r t c size s.nextHit }

/-- `next_intersection`, source/BlockMap.hpp:1226-1258 (its result is `t < t1` of the new state). -/
noncomputable def nextIntersection {dim : DdaDim} (r : DdaRay dim) (s : Dda dim) : Dda dim :=
  let ax := s.axis
  computeAxisDt r { s with
    t := s.nextHit ax,
    nextHit := Function.update s.nextHit ax (s.nextHit ax + (s.size : ℝ) * r.deltaOf ax),
    coord := Function.update s.coord ax (s.coord ax + s.size * r.stepDir ax) }

/-- source/BlockMap.hpp:1273-1278: the nudge on entering an empty region. -/
noncomputable def nudge {dim : DdaDim} (e : DdaEnv dim) (mip : ℤ) (s : Dda dim) : Dda dim :=
  if mip = -1 ∧ s.size ≠ e.block then { s with t := s.t + 0.01 } else s

/-- One pass of the loop of `step_through_grid`, source/BlockMap.hpp:1260-1285: `none` when the loop condition
fails (the traversal has ended), otherwise the next state. A state with `mip = -1` is passed over inside
`step_through_grid`; the others are returned to the caller. -/
noncomputable def advance {dim : DdaDim} (e : DdaEnv dim) (r : DdaRay dim) (s : Dda dim) : Option (Dda dim) :=
  let s1 := nextIntersection r s
  if s1.t < r.t1 then
    let m := e.sampleLevel s1.coord
    if m = s1.mip ∧ 0 ≤ m then some s1
    else some (updateMip e r false (nudge e m s1))
  else none

/-- The states of the traversal from `s`, at most `fuel` passes: the `do`-`while` of the callers
(source/RayMarching.hpp:492-596) with the loop of `step_through_grid` inlined. -/
noncomputable def visits {dim : DdaDim} (e : DdaEnv dim) (r : DdaRay dim) : ℕ → Dda dim → List (Dda dim)
  | 0, s => [s]
  | fuel + 1, s => match advance e r s with
    | none => [s]
    | some s' => s :: visits e r fuel s'

/-- source/BlockMap.hpp:1060-1090: the state before the first `compute_axis_and_dt` of `init`. -/
noncomputable def initState {dim : DdaDim} (e : DdaEnv dim) (r : DdaRay dim) : Dda dim :=
  let start := r.pt (0 + 1e-6)
  let c0 := fun i => ⌊start i⌋
  let size := if e.inBounds c0 ∧ e.sampleLevel c0 < 0 then e.block else 1
  let c := fun i => maskCoord (c0 i) size
  let nh : Fin dim.n → ℝ := fun i =>
    if r.d i = 0 then 1e24
    else if 0 < 1 / r.d i then 0 + ((c i : ℝ) + size - start i) * (1 / r.d i)
    else 0 + ((c i : ℝ) - start i) * (1 / r.d i)
  { axis := pickAxis dim nh, mip := 0, t := 0, dt := 0, size := size, coord := c, nextHit := nh }

/-- source/BlockMap.hpp:1092-1101: walking into the grid; `none` when the 32 steps are exceeded. -/
noncomputable def walkIn {dim : DdaDim} (e : DdaEnv dim) (r : DdaRay dim) : ℕ → Dda dim → Option (Dda dim)
  | fuel, s =>
    if ¬ e.inBounds s.coord ∨ (e.inBounds s.coord ∧ s.dt < 1e-6) then
      match fuel with
      | 0 => none
      | f + 1 => walkIn e r f (nextIntersection r s)
    else some s

/-- `init` after clipping and `update_origin`, source/BlockMap.hpp:1055-1104. -/
noncomputable def ddaInit {dim : DdaDim} (e : DdaEnv dim) (r : DdaRay dim) : Option (Dda dim) :=
  if |r.t1 - 0| < 1e-4 then none
  else (walkIn e r 32 (computeAxisDt r (initState e r))).map (updateMip e r true)

/-- `init`, source/BlockMap.hpp:1044-1104, for a segment in the world of the grid: clip, move the origin, start. -/
noncomputable def ddaStart {dim : DdaDim} (e : DdaEnv dim) (seg : RaySeg dim.n) : Option (DdaRay dim × Dda dim) :=
  match seg.clip { min := fun _ => 0, max := e.max } (1 / 10000) with
  | none => none
  | some (c, _) =>
    let m := c.updateOrigin c.t0
    let r : DdaRay dim := { o := m.o, d := m.d, t1 := m.t1 }
    (ddaInit e r).map fun s => (r, s)

end DexRT
