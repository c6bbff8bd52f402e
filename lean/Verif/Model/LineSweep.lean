import Verif.Model.VelInterp
import Verif.Model.RcInterp
import Verif.Model.March
import Mathlib.Analysis.SpecialFunctions.Log.Basic
/-!
Model of line sweeping (`RAYMARCH_TYPE == LineSweep`): source/LineSweepSetup.hpp and .cpp (which lines are swept, where
their samples are stored) and source/LineSweeping.hpp (extension of the samples along the lines, interpolation to the
probes). Exact real arithmetic; the march between two samples is the one of source/RayMarching.hpp (C78) and enters here as
the pair (emission, transmittance) it stores. Directions have no zero component (C77: true unless the number of directions
is 2 modulo 4), so no division by zero occurs. The `do_log2_extensions` code is compiled out (LineSweeping.hpp:200).
-/
namespace DexRT.LineSweep
open DexRT
open DexRT.VelInterp (truncInt)

/-- `GridBbox<2>`. -/
structure Box where
  lo : Fin 2 → ℤ
  hi : Fin 2 → ℤ

/-- `LsLine`, source/LineSweepSetup.hpp:10-22. -/
structure Line where
  o : Fin 2 → ℝ
  t0 : ℝ
  t1 : ℝ
  first : ℝ
  num : ℤ

/-- source/LineSweepSetup.cpp:12-29 `select_origin`. -/
noncomputable def selectOrigin (dir : Fin 2 → ℝ) (b : Box) : Fin 2 → ℝ :=
  haveI := Classical.propDecidable
  if 0 ≤ dir 1 then
    if dir 0 < 0 then ![(b.hi 0 : ℝ), b.lo 1] else ![(b.lo 0 : ℝ), b.lo 1]
  else
    if 0 ≤ dir 0 then ![(b.lo 0 : ℝ), b.hi 1] else ![(b.hi 0 : ℝ), b.hi 1]

/-- One round of the loop of source/LineSweepSetup.hpp:28-58: (no exit, t0, t1). -/
noncomputable def axisClip (lo hi : ℤ) (o d : ℝ) (t : ℝ × ℝ) : Bool × ℝ × ℝ :=
  haveI := Classical.propDecidable
  if hi ≤ lo then (false, t)
  else
    let a := ((lo : ℝ) - o) / d
    let b := ((hi : ℝ) - o) / d
    let ab : ℝ × ℝ := if b < a then (b, a) else (a, b)
    let t0 := if t.1 < ab.1 then ab.1 else t.1
    let t1 := if ab.2 < t.2 then ab.2 else t.2
    (decide (t0 ≤ t1), t0, t1)

/-- source/LineSweepSetup.hpp:24-64 `intersects`. -/
noncomputable def intersects (b : Box) (d o : Fin 2 → ℝ) (t : ℝ × ℝ) : Bool × ℝ × ℝ :=
  let r := axisClip (b.lo 0) (b.hi 0) (o 0) (d 0) t
  if r.1 then axisClip (b.lo 1) (b.hi 1) (o 1) (d 1) r.2 else r

/-- source/LineSweepSetup.hpp:66-80 `clip` of a line fresh from the constructor (`t0 = 0`, `t1 = 1e24`); `none` is `false`. -/
noncomputable def clip (b : Box) (d : Fin 2 → ℝ) (step : ℝ) (o : Fin 2 → ℝ) : Outcome (Option Line) :=
  haveI := Classical.propDecidable
  let r := intersects b d o (0, 1e24)
  if r.1 then do
    let i0 ← truncInt r.2.1
    let f0 : ℝ := i0 + 1 / 2 * step
    let first := if f0 < r.2.1 then f0 + step else f0
    let n ← truncInt ((r.2.2 - first) / step)
    if fitsI32 (n + 1) then .ok (some ⟨o, r.2.1, r.2.2, first, n + 1⟩) else .ub
  else .ok none

/-- `primary_vec`, source/LineSweepSetup.cpp:66-67. -/
def unit (p : Fin 2) : Fin 2 → ℝ := fun i => if i = p then 1 else 0

/-- source/LineSweepSetup.cpp:64-65; `|d1 / d0|` is infinite for `d0 = 0`. -/
noncomputable def primaryAxis (d : Fin 2 → ℝ) : Fin 2 :=
  haveI := Classical.propDecidable
  if d 0 = 0 ∨ 1 ≤ |d 1 / d 0| then 0 else 1

/-- source/LineSweepSetup.cpp:74: the origin moved inwards by half a voxel along the primary axis. -/
noncomputable def lineOrigin (d : Fin 2 → ℝ) (b : Box) : Fin 2 → ℝ :=
  haveI := Classical.propDecidable
  fun i => selectOrigin d b i + 1 / 2 * unit (primaryAxis d) i * (if d (primaryAxis d) < 0 then -1 else 1)

/-- The loop of source/LineSweepSetup.cpp:86-101 on one side (`normal`); `none` when it is still running after `fuel`
rounds. -/
noncomputable def sideLines (b : Box) (d : Fin 2 → ℝ) (step : ℝ) (normal : Fin 2 → ℝ) :
    (fuel : ℕ) → (pos : Fin 2 → ℝ) → Outcome (Option (List Line))
  | 0, _ => .ok none
  | fuel + 1, pos => do
    let pos' : Fin 2 → ℝ := fun i => pos i + normal i * step
    match ← clip b d step pos' with
    | none => .ok (some [])
    | some l => do
      let rest ← sideLines b d step normal fuel pos'
      haveI := Classical.propDecidable
      if l.t1 - l.t0 < 1 / 2 * step then .ok rest else .ok (rest.map (l :: ·))

/-- `LineSetDescriptor` with its lines, source/LineSweepSetup.hpp:83-92. -/
structure LineSet where
  origin : Fin 2 → ℝ
  d : Fin 2 → ℝ
  step : ℝ
  axis : Fin 2
  lines : List Line

/-- source/LineSweepSetup.cpp:56-119: the lines of one direction `d` (already inverted, lines 58-60). `std::sort` (102-108) by the
position along the primary axis. A base line that misses the box fails the assertion of line 77. -/
noncomputable def lineSet (b : Box) (d : Fin 2 → ℝ) (step : ℝ) (fuel : ℕ) : Outcome (Option LineSet) :=
  haveI := Classical.propDecidable
  let p := primaryAxis d
  let o := lineOrigin d b
  do
  match ← clip b d step o with
  | none => .throws
  | some base => do
    let up ← sideLines b d step (fun i => 1 * unit p i) fuel o
    let down ← sideLines b d step (fun i => -1 * unit p i) fuel o
    match up, down with
    | some u, some w => .ok (some ⟨o, d, step, p, (base :: (u ++ w)).mergeSort (fun x y => decide (x.o p ≤ y.o p))⟩)
    | _, _ => .ok none

/-- source/LineSweepSetup.cpp:32-41: the step of the lines of cascade `n`; `throws` when the interval is no multiple of it. -/
def lineStep (c : RcCfg) (l : LenCfg) (maxCascade n : ℕ) : Outcome ℚ :=
  let step : ℚ := 2 ^ n
  let iv := intervalLength c l maxCascade n
  let ratio := (iv.2 - iv.1) / step
  if ratio ≠ (⌊ratio⌋ : ℚ) then .throws else .ok step

/-- `std::vector::resize(n, 0)`. -/
def resize (l : List ℤ) (n : ℕ) : List ℤ := l.take n ++ List.replicate (n - l.length) 0

/-- source/LineSweepSetup.cpp:118-121 for one direction: `nums` are the numbers of samples of all lines so far, `first` the
index of the first line of the direction. -/
def extendStart (nums start : List ℤ) (first : ℕ) : List ℤ :=
  (List.range' (max first 1) (nums.length - max first 1)).foldl
    (fun st i => st.set i (st.getD (i - 1) 0 + nums.getD (i - 1) 0)) (resize start nums.length)

/-- `line_storage_start_idx` of a subset, source/LineSweepSetup.cpp:49-50, 118-121: `sets` are the numbers of samples of the lines
of each direction. Also `line_set_start_idx` (128-131). -/
def storageStart (sets : List (List ℤ)) : List ℤ × List ℤ :=
  let r := sets.foldl (fun (st : List ℤ × List ℤ × List ℤ) s =>
    let nums := st.1 ++ s
    (nums, extendStart nums st.2.1 st.1.length, st.2.2 ++ [(st.1.length : ℤ)])) ([], [0], [])
  r.2

/-- source/LineSweeping.hpp:94-98: line, direction and step of a flat index. -/
def lookup (start setStart : List ℤ) (lineStep : ℤ) : Outcome (ℕ × ℕ × ℤ) := do
  let l ← upperBound (start.map fun x : ℤ => (x : ℚ)) (some (lineStep : ℚ))
  if l = 0 then .ub
  else do
    let k ← upperBound (setStart.map fun x : ℤ => (x : ℚ)) (some ((l - 1 : ℕ) : ℚ))
    if k = 0 then .ub
    else do
      let s ← readAt start (l - 1)
      .ok (l - 1, k - 1, lineStep - s)

/-- source/LineSweeping.hpp:104-112: the piece of the line marched for sample `i`. -/
noncomputable def piece (l : Line) (step : ℝ) (i : ℕ) : ℝ × ℝ :=
  if i = 0 then (l.t0 - 10, l.first)
  else
    let t0 := max (l.first + ((i : ℝ) - 1) * step) l.first
    (t0, t0 + step)

/-- source/LineSweeping.hpp:282-305 for sample `t`: `copy` is the scratch copy of (source, transmittance) of the line, `k` is
`steps_to_merge`. -/
noncomputable def extendAt (copy : ℕ → ℝ × ℝ) (k : ℤ) (t : ℕ) : ℝ × ℝ :=
  let first : ℕ := (max ((t : ℤ) - (k - 1)) 0).toNat
  (List.range' first (t + 1 - first)).foldl (fun acc i => ((copy i).1 + acc.1 * (copy i).2, acc.2 * (copy i).2)) (0, 1)

/-- One team, source/LineSweeping.hpp:238-310, for one inclination: the line starts at `start`; the samples are copied, then
written by the threads in the order `sched`. -/
noncomputable def team (k : ℤ) (start : ℕ) (sched : List ℕ) (st : ℕ → ℝ × ℝ) : ℕ → ℝ × ℝ :=
  let copy : ℕ → ℝ × ℝ := fun t => st (start + t)
  sched.foldl (fun s t => Function.update s (start + t) (extendAt copy k t)) st

/-- All teams in some order: (start of the line, order of its threads). -/
noncomputable def extendAll (k : ℤ) (teams : List (ℕ × List ℕ)) (st : ℕ → ℝ × ℝ) : ℕ → ℝ × ℝ :=
  teams.foldl (fun s t => team k t.1 t.2 s) st

/-- source/LineSweeping.hpp:321-371 `world_to_line_grid_pos` (both instances): (position across the lines, position along
them), in steps. `line0` is the origin of the first line. -/
noncomputable def gridPos (ls : LineSet) (line0 : Fin 2 → ℝ) (p : Fin 2 → ℝ) : ℝ × ℝ :=
  let a := ls.axis
  let s : Fin 2 := 1 - a
  let q : Fin 2 → ℝ := fun i => p i - ls.origin i
  ((1 * q a + - ls.d a / ls.d s * q s - (line0 a - ls.origin a)) / ls.step, (0 * q a + 1 / ls.d s * q s) / ls.step)

/-- Element `i` of an array with checked bounds. -/
def atInt {α : Type} (l : List α) (i : ℤ) : Outcome α := if 0 ≤ i then readAt l i.toNat else .ub

/-- `i32(std::floor(x))`. -/
noncomputable def floorInt (x : ℝ) : Outcome ℤ := if fitsI32 ⌊x⌋ then .ok ⌊x⌋ else .ub

/-- The inner loop, source/LineSweeping.hpp:481-505: what one line adds to (I, 1 - transmittance). -/
noncomputable def lineTerm (st : List (ℝ × ℝ)) (base num : ℤ) (stepIdx wl : ℝ) (acc : ℝ × ℝ) : Outcome (ℝ × ℝ) := do
  let si ← floorInt stepIdx
  let w1 : ℝ := ((si + 1 : ℤ) : ℝ) - stepIdx
  let x ← atInt st (base + min (max si 0) (num - 1))
  let acc : ℝ × ℝ := (acc.1 + wl * w1 * x.1, acc.2 - wl * w1 * (1 - x.2))
  let y ← atInt st (base + min (max (si + 1) 0) (num - 1))
  .ok (acc.1 + wl * (1 - w1) * y.1, acc.2 - wl * (1 - w1) * (1 - y.2))

/-- source/LineSweeping.hpp:432-507: the pair (I, transmittance) of a ray of the probe at `p`. `start` are the storage indices of
the lines of the set, `frm` is the start of the interval. -/
noncomputable def interpAt (ls : LineSet) (start : List ℤ) (st : List (ℝ × ℝ)) (frm : ℝ) (p : Fin 2 → ℝ) : Outcome (ℝ × ℝ) := do
  let l0 ← readAt ls.lines 0
  let g := gridPos ls l0.o p
  let lineIdx := g.1
  let inv := 1 / ls.step
  let tIdx := g.2 - frm * inv
  let li ← truncInt lineIdx
  let w0 : ℝ := ((li + 1 : ℤ) : ℝ) - lineIdx
  let term := fun (acc : ℝ × ℝ) (l : ℤ) (w : ℝ) => do
    let i := min (max l 0) ((ls.lines.length : ℤ) - 1)
    let line ← atInt ls.lines i
    let base ← atInt start i
    lineTerm st base line.num (tIdx - line.first * inv) w acc
  let acc ← term (0, 1) li w0
  term acc (li + 1) (1 - w0)

/-- source/LineSweeping.hpp:509: the optical depth of the interval. -/
noncomputable def tauOf (tr : ℝ) : ℝ := min (- Real.log (max tr 1e-15)) 1e3

end DexRT.LineSweep
