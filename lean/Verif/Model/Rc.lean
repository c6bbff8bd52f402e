import Verif.Model.Basic
/-!
Model of the radiance-cascade geometry: source/RcUtilsModes.hpp and source/RcUtilsModes3d.hpp.

Compile-time configuration constants (source/UserConfig2d.hpp, source/UserConfig3d.hpp) are fields of a
configuration record, so every theorem ranges over all configurations the static asserts
(source/Config.hpp:41-58) allow.

Simplification (all definitions here): sizes are `Nat`; the `int` products `num_flat_dirs * (1 << e)` are
exact, i.e. cascades whose ray counts do not fit an `int` are outside the model. Products for which
overflow does matter (`powi`, the 3D upper-ray index) are modelled with checked arithmetic.
-/
namespace DexRT

/-- Storage mode: source/RcConstants.hpp:5-10 (`RC_PREAVERAGE`, `RC_DIR_BY_DIR`; both together are
excluded by source/Config.hpp:46). -/
inductive RcMode where
  | all
  | dirByDir
  | preaverage
deriving DecidableEq, Repr

/-- 2D configuration: `CASCADE_BRANCHING_FACTOR`, `UPPER_BRANCHING_FACTOR`, `BRANCHING_FACTOR_SWITCH`,
`PROBE0_NUM_RAYS` (source/UserConfig2d.hpp:25-60) and the storage mode. -/
structure RcCfg where
  cbf : Nat
  ubf : Nat
  switch : Nat
  p0rays : Nat
  mode : RcMode
deriving DecidableEq, Repr

/-- source/Config.hpp:41 `VARY_BRANCHING_FACTOR`. -/
def RcCfg.vary (c : RcCfg) : Bool := decide (c.switch > 0)

/-- source/Config.hpp:42 static assert. -/
def RcCfg.Valid (c : RcCfg) : Prop := 0 < c.p0rays ∧ ¬ (c.mode = .preaverage ∧ c.vary = true)

/-- source/RcUtilsModes.hpp:15-26 `num_flat_rays_exponent`. -/
def numFlatRaysExponent (c : RcCfg) (n : Nat) : Nat :=
  if c.vary then
    if n < c.switch then c.cbf * n
    else c.cbf * (c.switch - 1) + c.ubf * (n - (c.switch - 1))
  else c.cbf * n

/-- `CascadeStorage` / `CascadeRays`: source/Types.hpp:102-121 (the two structs have the same fields). -/
structure Casc2 where
  np0 : Nat
  np1 : Nat
  dirs : Nat
  wave : Nat
  incl : Nat
deriving DecidableEq, Repr

/-- source/RcUtilsModes.hpp:38-46 `cascade_size(CascadeStorage, n)` (and 48-56, the same for rays). -/
def cascadeSize (c : RcCfg) (c0 : Casc2) (n : Nat) : Casc2 :=
  { np0 := max 1 (c0.np0 >>> n), np1 := max 1 (c0.np1 >>> n),
    dirs := c0.dirs * 2 ^ numFlatRaysExponent c n, wave := c0.wave, incl := c0.incl }

/-- source/RcUtilsModes.hpp:58-80 `cascade_compute_size<RcMode>(CascadeStorage, n)`. -/
def cascadeComputeSize (c : RcCfg) (c0 : Casc2) (n : Nat) : Casc2 :=
  { np0 := max 1 (c0.np0 >>> n), np1 := max 1 (c0.np1 >>> n),
    dirs :=
      if c.vary then
        match c.mode with
        | .dirByDir => c0.dirs * 2 ^ numFlatRaysExponent c n * c.p0rays
        | _ => c0.dirs * 2 ^ numFlatRaysExponent c n
      else match c.mode with
        | .preaverage => c0.dirs * 2 ^ (c.cbf * (n + 1))
        | .dirByDir => (c0.dirs * c.p0rays) * 2 ^ (c.cbf * n)
        | .all => c0.dirs * 2 ^ (c.cbf * n),
    wave := c0.wave, incl := c0.incl }

/-- source/RcUtilsModes.hpp:82-97 `cascade_rays_to_storage`. -/
def raysToStorage (c : RcCfg) (r : Casc2) : Casc2 :=
  { r with dirs := match c.mode with
      | .preaverage => r.dirs / 2 ^ c.cbf
      | .dirByDir => r.dirs / c.p0rays
      | .all => r.dirs }

/-- source/RcUtilsModes.hpp:99-114 `cascade_storage_to_rays`. -/
def storageToRays (c : RcCfg) (s : Casc2) : Casc2 :=
  { s with dirs := match c.mode with
      | .preaverage => s.dirs * 2 ^ c.cbf
      | .dirByDir => s.dirs * c.p0rays
      | .all => s.dirs }

/-- source/RcUtilsModes.hpp:131-146 `upper_texels_per_ray`. -/
def upperTexelsPerRay (c : RcCfg) (n : Nat) : Nat :=
  match c.mode with
  | .preaverage => 1
  | _ => if c.vary then (if n + 1 < c.switch then 2 ^ c.cbf else 2 ^ c.ubf) else 2 ^ c.cbf

/-- source/RcUtilsModes.hpp:148-159 `upper_ray_idx`. -/
def upperRayIdx (c : RcCfg) (dir n : Nat) : Nat :=
  if c.vary then (if n + 1 < c.switch then dir * 2 ^ c.cbf else dir * 2 ^ c.ubf) else dir * 2 ^ c.cbf

/-- source/RcUtilsModes.hpp:173-180 `subset_tasks_per_cascade`. -/
def subsetTasks (c : RcCfg) : Nat :=
  match c.mode with
  | .dirByDir => c.p0rays
  | _ => 1

/-- source/RcUtilsModes.hpp:182-208 `nth_rays_subset`: `[start, start+num)` of the flat directions (all
other dimensions are whole): (start_flat_dirs, num_flat_dirs). -/
def nthRaysSubset (c : RcCfg) (rays : Casc2) (n : Nat) : Nat × Nat :=
  match c.mode with
  | .dirByDir => (n * (rays.dirs / c.p0rays), rays.dirs / c.p0rays)
  | _ => (0, rays.dirs)

/-- source/RcUtilsModes.hpp:211-219 `cascade_entries`. -/
def cascadeEntries (s : Casc2) : Nat := s.np0 * s.np1 * s.dirs * s.incl * s.wave

/-- `ProbeIndex`: source/RcUtilsModes.hpp:329-334. -/
structure ProbeIdx2 where
  u : Nat
  v : Nat
  dir : Nat
  incl : Nat
  wave : Nat
deriving DecidableEq, Repr

/-- source/RcUtilsModes.hpp:345-398 `probe_linear_index<RcMode>(CascadeStorage, ProbeIndex)` without the
debug-only bounds prints. -/
def probeLinearIndex (c : RcCfg) (s : Casc2) (p : ProbeIdx2) : Nat :=
  let idx := p.incl
  let m := s.incl
  let idx := idx + m * p.wave
  let m := m * s.wave
  let dir := match c.mode with
    | .preaverage => p.dir / 2 ^ c.cbf
    | .dirByDir => p.dir % s.dirs
    | .all => p.dir
  let idx := idx + m * dir
  let m := m * s.dirs
  let idx := idx + m * p.u
  let m := m * s.np0
  idx + m * p.v

/-- source/RcUtilsModes.hpp:400-446 `probe_linear_index(CascadeStorage, ProbeStorageIndex)`, used by the
final merge to J (source/MergeToJ.hpp:46-66). -/
def storageLinearIndex (s : Casc2) (p : ProbeIdx2) : Nat :=
  let idx := p.incl
  let m := s.incl
  let idx := idx + m * p.wave
  let m := m * s.wave
  let idx := idx + m * p.dir
  let m := m * s.dirs
  let idx := idx + m * p.u
  let m := m * s.np0
  idx + m * p.v

/-! ### 3D -/

/-- Angular branching in 3D: `ANGULAR_QUADRATURE_TYPE`, `HEALPIX_ORDER`, `USE_BRANCHING_FACTOR_3D`,
`AZ/POLAR_BRANCHING_FACTOR_3D`, `AZ/POLAR_BRANCHING_EXP_3D` (source/UserConfig3d.hpp:21-77). -/
inductive Branch3 where
  | healpix (order : Nat)
  | factor (az polar : Nat)
  | exp (az polar : Nat)
deriving DecidableEq, Repr

/-- 3D configuration: branching, `C0_AZ_RAYS_3D`, `C0_POLAR_RAYS_3D`, `DIR_BY_DIR_3D`. -/
structure RcCfg3 where
  branch : Branch3
  c0az : Nat
  c0polar : Nat
  dirByDir : Bool
deriving DecidableEq, Repr

/-- source/RcUtilsModes3d.hpp:17-31 `powi`, with `int` overflow as UB: `result`, `x`, `exponent` are the
loop variables. -/
def powiGo (result x : Int) (e : Nat) : Outcome Int :=
  if h : e = 0 then .ok result
  else do
    let r ← if e % 2 = 1 then mulI32 result x else .ok result
    let x' ← mulI32 x x
    powiGo r x' (e / 2)
termination_by e
decreasing_by omega

/-- source/RcUtilsModes3d.hpp:17-31 `powi`. -/
def powi (x : Int) (e : Nat) : Outcome Int := powiGo 1 x e

/-- source/RcUtilsModes3d.hpp:34-41 `az_rays_factor` (`powi` taken as exact exponentiation). -/
def azFactor (b : Branch3) (n : Nat) : Nat :=
  match b with
  | .healpix o => 2 ^ (2 * o * n)
  | .factor a _ => a ^ n
  | .exp a _ => 2 ^ (a * n)

/-- source/RcUtilsModes3d.hpp:43-50 `polar_rays_factor`. -/
def polarFactor (b : Branch3) (n : Nat) : Nat :=
  match b with
  | .healpix _ => 1
  | .factor _ p => p ^ n
  | .exp _ p => 2 ^ (p * n)

/-- `CascadeStorage3d` / `CascadeRays3d`: source/Types.hpp:109-127. -/
structure Casc3 where
  np0 : Nat
  np1 : Nat
  np2 : Nat
  az : Nat
  polar : Nat
deriving DecidableEq, Repr

/-- source/RcUtilsModes3d.hpp:60-70 `cascade_size(CascadeStorage3d, n)`. -/
def cascadeSize3 (b : Branch3) (c0 : Casc3) (n : Nat) : Casc3 :=
  { np0 := max 1 (c0.np0 >>> n), np1 := max 1 (c0.np1 >>> n), np2 := max 1 (c0.np2 >>> n),
    az := c0.az * azFactor b n, polar := c0.polar * polarFactor b n }

/-- source/RcUtilsModes3d.hpp:84-98 `cascade_compute_size<RcMode>(CascadeStorage3d, n)`. -/
def cascadeComputeSize3 (c : RcCfg3) (c0 : Casc3) (n : Nat) : Casc3 :=
  { np0 := max 1 (c0.np0 >>> n), np1 := max 1 (c0.np1 >>> n), np2 := max 1 (c0.np2 >>> n),
    az := if c.dirByDir then (c0.az * c.c0az) * azFactor c.branch n else c0.az * azFactor c.branch n,
    polar := if c.dirByDir then (c0.polar * c.c0polar) * polarFactor c.branch n
             else c0.polar * polarFactor c.branch n }

/-- source/RcUtilsModes3d.hpp:100-114 `cascade_rays_to_storage`. -/
def raysToStorage3 (c : RcCfg3) (r : Casc3) : Casc3 :=
  if c.dirByDir then { r with az := r.az / c.c0az, polar := r.polar / c.c0polar } else r

/-- source/RcUtilsModes3d.hpp:116-130 `cascade_storage_to_rays`. -/
def storageToRays3 (c : RcCfg3) (s : Casc3) : Casc3 :=
  if c.dirByDir then { s with az := s.az * c.c0az, polar := s.polar * c.c0polar } else s

/-- source/RcUtilsModes3d.hpp:137-151 `upper_texels_per_ray_3d`: (az, polar). -/
def upperTexels3 (b : Branch3) : Nat × Nat :=
  match b with
  | .healpix o => (2 ^ (2 * o), 1)
  | .factor a p => (a, p)
  | .exp a p => (2 ^ a, 2 ^ p)

/-- source/RcUtilsModes3d.hpp:155-162 `subset_tasks_per_cascade_3d`. -/
def subsetTasks3 (c : RcCfg3) : Nat := if c.dirByDir then c.c0az * c.c0polar else 1

/-- `CascadeRaysSubset3d`: source/Types.hpp:143-148. -/
structure Subset3 where
  startAz : Nat
  numAz : Nat
  startPolar : Nat
  numPolar : Nat
deriving DecidableEq, Repr

/-- source/RcUtilsModes3d.hpp:164-190 `nth_rays_subset`. -/
def nthRaysSubset3 (c : RcCfg3) (rays : Casc3) (n : Nat) : Subset3 :=
  if c.dirByDir then
    let azPer := rays.az / c.c0az
    let polarPer := rays.polar / c.c0polar
    let polarIndex := n / c.c0az
    let azIndex := n - polarIndex * c.c0az
    { startAz := azIndex * azPer, numAz := azPer, startPolar := polarIndex * polarPer, numPolar := polarPer }
  else { startAz := 0, numAz := rays.az, startPolar := 0, numPolar := rays.polar }

/-- source/RcUtilsModes3d.hpp:193-200 `cascade_entries`. -/
def cascadeEntries3 (s : Casc3) : Nat := s.np0 * s.np1 * s.np2 * s.az * s.polar

/-- `ProbeIndex3d`: source/RcUtilsModes3d.hpp:303-307. -/
structure ProbeIdx3 where
  u : Nat
  v : Nat
  w : Nat
  polar : Nat
  az : Nat
deriving DecidableEq, Repr

/-- source/RcUtilsModes3d.hpp:316-380 `probe_linear_index<RcMode>(CascadeStorage3d, ProbeIndex3d)`. -/
def probeLinearIndex3 (c : RcCfg3) (s : Casc3) (p : ProbeIdx3) : Nat :=
  let az := if c.dirByDir then p.az - p.az / s.az * s.az else p.az
  let polar := if c.dirByDir then p.polar - p.polar / s.polar * s.polar else p.polar
  let idx := az
  let m := s.az
  let idx := idx + m * polar
  let m := m * s.polar
  let idx := idx + m * p.u
  let m := m * s.np0
  let idx := idx + m * p.v
  let m := m * s.np1
  idx + m * p.w

/-- source/DynamicFormalSolution3d.cpp:483-484 (and 536-537, source/StaticFormalSolution3d.cpp:70-71):
`this_probe.az * upper_dims.num_az_rays / casc_dims.num_az_rays` in `int`. -/
def upperStart3 (idx upperNum thisNum : Nat) : Outcome Int := do
  let p ← mulI32 idx upperNum
  .ok (p.tdiv thisNum)

end DexRT
