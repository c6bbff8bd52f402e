import Verif.Model.Dda
import Verif.Model.March
/-!
Model of the whole march of one ray: `multi_level_dda_raymarch_2d` (source/RayMarching.hpp:446-602) and
`multi_level_dda_raymarch_3d` (source/DynamicFormalSolution3d.cpp:318-458): clipping and traversal (`ddaStart`,
`advance`), the rule for the boundary intensity, and the accumulation (`marchInterval`).
Simplifications: exact real arithmetic; the emissivity and opacity that are gathered for a cell (stored values plus
the lines that depend on the velocity along the ray, RayMarching.hpp:496-581, DynamicFormalSolution3d.cpp:363-437) are
an arbitrary function of level and cell; `sample_boundary` is a given number.
-/
namespace DexRT
open Classical

/-- What a march reads (`Raymarch2dArgs`, source/RayMarching.hpp:407-438; `Raymarch3dArgs`,
source/DynamicFormalSolution3d.cpp:300-313, and the compile-time switches). -/
structure RaymarchArgs (dim : DdaDim) where
  /-- the segment of the ray -/
  seg : RaySeg dim.n
  /-- the multi-resolution grid -/
  env : DdaEnv dim
  /-- emissivity of a cell at a level, in the direction of the ray -/
  eta : ℤ → (Fin dim.n → ℤ) → ℝ
  /-- opacity of a cell at a level, in the direction of the ray -/
  chi : ℤ → (Fin dim.n → ℤ) → ℝ
  /-- `EXTRA_SAFE_SOURCE_FN` -/
  extraSafe : Bool
  /-- `distance_scale` -/
  scale : ℝ
  /-- `incl` of 2D; 3D has no inclination, which is `incl = 0` -/
  incl : ℝ
  /-- `RcMode & RC_SAMPLE_BC` -/
  sampleBc : Bool
  /-- `LAST_CASCADE_TO_INFTY` -/
  toInfty : Bool
  /-- the vertical component of the direction: `ray.dir(1)` in 2D, `ray.d(2)` in 3D -/
  up : ℝ
  /-- wavelength index, -1 for none -/
  la : ℤ
  /-- what `sample_boundary` returns -/
  bc : ℝ

/-- `inv_sin_theta`, source/RayMarching.hpp:487; 1 in 3D. -/
noncomputable def RaymarchArgs.invSin {dim : DdaDim} (a : RaymarchArgs dim) : ℝ := 1 / Real.sqrt (1 - a.incl ^ 2)

/-- `start_clipped` as `init` leaves it, source/BlockMap.hpp:1046 with source/Types.hpp:268-284. -/
noncomputable def startClipped {dim : DdaDim} (a : RaymarchArgs dim) : Bool :=
  match a.seg.clip { min := fun _ => 0, max := a.env.max } (1 / 10000) with
  | none => false
  | some (_, c) => c

/-- The intensity the march starts from: source/RayMarching.hpp:463-481 and
source/DynamicFormalSolution3d.cpp:331-346. `marcher` is the result of `init`. -/
noncomputable def startI {dim : DdaDim} (a : RaymarchArgs dim) (marcher : Bool) : ℝ :=
  if ((a.sampleBc && a.toInfty) || (a.sampleBc && (!marcher || startClipped a))) = true then
    (if 0 < a.up ∧ a.la ≠ -1 then a.bc else 0)
  else 0

/-- What the march makes of a state of the traversal: `can_sample` (source/BlockMap.hpp:1288-1290; levels are at least
-1, so `!= -1` is `0 ≤`) and the values of the cell. -/
noncomputable def RaymarchArgs.stepOf {dim : DdaDim} (a : RaymarchArgs dim) (s : Dda dim) : Step :=
  { sample := decide (0 ≤ s.mip), eta := a.eta s.mip s.coord, chi := a.chi s.mip s.coord, dt := s.dt }

/-- The states visited until the traversal ends; `none` if it has not after `fuel` steps. -/
noncomputable def visitsEnd {dim : DdaDim} (e : DdaEnv dim) (r : DdaRay dim) : ℕ → Dda dim → Option (List (Dda dim))
  | 0, s => match advance e r s with
    | none => some [s]
    | some _ => none
  | fuel + 1, s => match advance e r s with
    | none => some [s]
    | some s' => (visitsEnd e r fuel s').map (s :: ·)

/-- The states in which the body of the `do` loop runs (source/RayMarching.hpp:494-602): the first, whatever its
level, then those that `step_through_grid` returns, which have data (source/BlockMap.hpp:1260-1285). -/
def loopStates {dim : DdaDim} : List (Dda dim) → List (Dda dim)
  | [] => []
  | s :: l => s :: l.filter (fun v => decide (0 ≤ v.mip))

/-- source/RayMarching.hpp:446-602, source/DynamicFormalSolution3d.cpp:318-458: the interval returned; `none` if the
loop has not ended after `fuel` steps. A ray that is not marched has no `psi_star`: 0 in 2D, in 3D the member is left
uninitialised (source/DynamicFormalSolution3d.cpp:328, source/Types.hpp:157-162), which this model also gives as 0. -/
noncomputable def raymarch {dim : DdaDim} (a : RaymarchArgs dim) (fuel : ℕ) : Option Interval :=
  match ddaStart a.env a.seg with
  | none => some { I := startI a false, tau := 0, psiStar := 0 }
  | some (r, s) =>
    (visitsEnd a.env r fuel s).map fun l =>
      marchInterval a.extraSafe a.scale a.invSin (startI a true) ((loopStates l).map a.stepOf)

end DexRT
