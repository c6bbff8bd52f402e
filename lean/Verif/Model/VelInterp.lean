import Verif.Model.Basic
import Verif.Model.Interp
import Mathlib.Analysis.SpecialFunctions.Complex.Arg
import Mathlib.Analysis.SpecialFunctions.Trigonometric.Inverse
/-!
Model of the `VelocityInterp` line scheme: source/DirectionalEmisOpacInterp.hpp and .cpp, the angular range of a direction
of cascade 0 (source/RcUtilsModes.hpp:549-573) and the conversions between directions and angles
(source/Utils.hpp:208-236). Exact real arithmetic; angles that the code computes as 0/0 are `none` (NaN), with which every
comparison is false.
-/
namespace DexRT.VelInterp
open DexRT

/-- source/Utils.hpp:225-236 `angs_to_dir`: (theta, phi) to (x, y, z). -/
noncomputable def angsToDir (theta phi : ℝ) : Fin 3 → ℝ :=
  ![Real.cos phi * Real.sin theta, Real.cos theta, Real.sin phi * Real.sin theta]

/-- source/Utils.hpp:208-223 `dir_to_angs`; `std::atan2(y, x)` is `Complex.arg (x + iy)`; 0/0 for a direction along y. -/
noncomputable def dirToAngs (d : Fin 3 → ℝ) : ℝ × Option ℝ :=
  let s := Real.sqrt (1 - d 1 ^ 2)
  let theta := Real.arccos (d 1)
  if s = 0 then (theta, none)
  else
    let phi := Complex.arg ⟨d 0 / s, d 2 / s⟩
    (theta, some (if phi < 0 then phi + 2 * Real.pi else phi))

/-- `SphericalAngularRange`, source/RcUtilsModes.hpp:549-554. -/
structure AngRange where
  theta0 : ℝ
  theta1 : ℝ
  phi0 : ℝ
  phi1 : ℝ

/-- source/RcUtilsModes.hpp:556-573 `c0_flat_dir_angular_range`: `nd` directions, inclinations `muy` (`muyFirst`,
`muyLast` are the first and the last). -/
noncomputable def dirRange (nd : Nat) (muyFirst muyLast : ℝ) (k : Nat) : AngRange :=
  { theta0 := Real.arccos muyLast, theta1 := Real.arccos muyFirst,
    phi0 := 2 * Real.pi / nd * k, phi1 := 2 * Real.pi / nd * (k + 1) }

/-- `dot_vecs`, source/DirectionalEmisOpacInterp.cpp:45-51. -/
noncomputable def dot3 (a b : Fin 3 → ℝ) : ℝ := a 0 * b 0 + a 1 * b 1 + a 2 * b 2

/-- `in_range`, source/DirectionalEmisOpacInterp.cpp:74-78. -/
noncomputable def inRange (ang : Option ℝ) (lo hi : ℝ) : Bool :=
  haveI := Classical.propDecidable
  match ang with
  | none => false
  | some a => decide (lo ≤ a ∧ a ≤ hi)

/-- source/DirectionalEmisOpacInterp.cpp:73-118 `extra_tests`: the projections it looks at. -/
noncomputable def extraTests (vel : Fin 3 → ℝ) (angs : Option ℝ × Option ℝ) (r : AngRange) : List ℝ :=
  let th := inRange angs.1 r.theta0 r.theta1
  let ph := inRange angs.2 r.phi0 r.phi1
  if th && ph then [dot3 vel (angsToDir (angs.1.getD 0) (angs.2.getD 0))]
  else if th then [dot3 vel (angsToDir (angs.1.getD 0) r.phi0), dot3 vel (angsToDir (angs.1.getD 0) r.phi1)]
  else if ph then [dot3 vel (angsToDir r.theta0 (angs.2.getD 0)), dot3 vel (angsToDir r.theta1 (angs.2.getD 0))]
  else []

/-- source/DirectionalEmisOpacInterp.cpp:127-137: the four corners. -/
noncomputable def corners (vel : Fin 3 → ℝ) (r : AngRange) : List ℝ :=
  [dot3 vel (angsToDir r.theta0 r.phi0), dot3 vel (angsToDir r.theta0 r.phi1),
   dot3 vel (angsToDir r.theta1 r.phi0), dot3 vel (angsToDir r.theta1 r.phi1)]

/-- source/DirectionalEmisOpacInterp.cpp:53-66: the angles of the velocity and of its opposite; everything is NaN for
velocity zero. -/
noncomputable def velAngs (vel : Fin 3 → ℝ) : Option ℝ × Option ℝ :=
  let norm := Real.sqrt (vel 0 ^ 2 + vel 1 ^ 2 + vel 2 ^ 2)
  if norm = 0 then (none, none)
  else
    let a := dirToAngs fun i => vel i / norm
    (some a.1, a.2)

noncomputable def oppAngs (vel : Fin 3 → ℝ) : Option ℝ × Option ℝ :=
  let norm := Real.sqrt (vel 0 ^ 2 + vel 1 ^ 2 + vel 2 ^ 2)
  if norm = 0 then (none, none)
  else
    let a := dirToAngs fun i => - (vel i / norm)
    (some a.1, a.2)

/-- All projections tested for the directions `start, ..., start + num - 1`, source/DirectionalEmisOpacInterp.cpp:120-141. -/
noncomputable def tested (vel : Fin 3 → ℝ) (nd : Nat) (muyFirst muyLast : ℝ) (start num : Nat) : List ℝ :=
  (List.range num).flatMap fun i =>
    let r := dirRange nd muyFirst muyLast (start + i)
    corners vel r ++ extraTests vel (velAngs vel) r ++ extraTests vel (oppAngs vel) r

/-- source/DirectionalEmisOpacInterp.cpp:39-147, one cell with velocity `v`: (min, max) of the projected velocity. The
velocity is inverted (lines 54-57), the range widened by 2 percent of the values (143-144). -/
noncomputable def minMaxVel (v : Fin 3 → ℝ) (nd : Nat) (muyFirst muyLast : ℝ) (start num : Nat) : ℝ × ℝ :=
  let vel : Fin 3 → ℝ := ![- v 0, - v 1, - v 2]
  let m := (tested vel nd muyFirst muyLast start num).foldl (fun m x => (min m.1 x, max m.2 x)) (1e6, -1e6)
  (m.1 - 2 / 100 * |m.1|, m.2 + 2 / 100 * |m.2|)

/-- Emissivity and opacity. -/
structure Pair where
  eta : ℝ
  chi : ℝ

/-- `int(x)`: truncation towards zero; outside the range of `int` is UB. -/
noncomputable def truncInt (x : ℝ) : Outcome Int :=
  let t : Int := if 0 ≤ x then ⌊x⌋ else ⌈x⌉
  if fitsI32 t then .ok t else .ub

/-- Element of the table of one cell and wavelength; outside is UB. -/
def tabAt (tab : List Pair) (i : Int) : Outcome Pair := if 0 ≤ i then readAt tab i.toNat else .ub

/-- source/DirectionalEmisOpacInterp.hpp:145-170 `sample`, for one cell and wavelength; `bins` is
`INTERPOLATE_DIRECTIONAL_BINS`. -/
noncomputable def sample (bins : Nat) (start step : ℝ) (tab : List Pair) (vel : ℝ) : Outcome Pair :=
  haveI := Classical.propDecidable
  let frac : ℝ := if step = 0 then 0 else (vel - start) / step
  do
  let iv ← truncInt frac
  if frac < 0 ∨ (bins : ℝ) - 1 ≤ frac then do
    let i := min (max iv 0) ((bins : Int) - 1)
    let a ← tabAt tab i
    let b ← tabAt tab i
    .ok ⟨1 * a.eta + 0 * b.eta, 1 * a.chi + 0 * b.chi⟩
  else do
    let a ← tabAt tab iv
    let b ← tabAt tab (iv + 1)
    let tvp := frac - iv
    let tv := 1 - tvp
    .ok ⟨tv * a.eta + tvp * b.eta, tv * a.chi + tvp * b.chi⟩

/-- The velocity of bin `j`, the start and the step, source/DirectionalEmisOpacInterp.hpp:81-88. -/
noncomputable def velStep (bins : Nat) (mm : ℝ × ℝ) : ℝ := (mm.2 - mm.1) / ((bins : ℝ) - 1)

noncomputable def binVel (bins : Nat) (mm : ℝ × ℝ) (j : Nat) : ℝ := mm.1 + velStep bins mm * j

/-- source/DirectionalEmisOpacInterp.hpp:68-129, the table of one cell and wavelength; `f` is the emissivity and opacity
of the cell as a function of the projected velocity (`emis_opac`). -/
noncomputable def fillTab (bins : Nat) (mm : ℝ × ℝ) (f : ℝ → Pair) : List Pair := (List.range bins).map fun j => f (binVel bins mm j)

/-- A cell of the level below: start, step and table. -/
structure Cell where
  start : ℝ
  step : ℝ
  tab : List Pair

/-- `clamp_vel` with the range of source/DirectionalEmisOpacInterp.cpp:212-219, 238-246 (the upper end is one step too
far). -/
noncomputable def clampVel (bins : Nat) (c : Cell) (vel : ℝ) : ℝ :=
  haveI := Classical.propDecidable
  if vel < c.start then c.start else if c.start + bins * c.step < vel then c.start + bins * c.step else vel

/-- source/DirectionalEmisOpacInterp.cpp:224-265: bin `j` of a cell made of four cells of the level below; `mm` is its
velocity range. -/
noncomputable def mipBin (bins : Nat) (mm : ℝ × ℝ) (cells : List Cell) (j : Nat) : Outcome Pair := do
  let vel := binVel bins mm j
  let s ← cells.foldlM (fun (acc : Pair) c => do
    let x ← sample bins c.start c.step c.tab (clampVel bins c vel)
    .ok ⟨acc.eta + x.eta, acc.chi + x.chi⟩) ⟨0, 0⟩
  .ok ⟨s.eta * (1 / 4), s.chi * (1 / 4)⟩

end DexRT.VelInterp
