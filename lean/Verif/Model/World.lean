import Verif.Model.FormalSol
import Verif.Model.Raymarch
import Verif.Model.Dirs
/-!
The march of the rays of the cascades: what `cascade_i_25d` (source/RadianceCascades.hpp:677-752 with
`march_and_merge_average_interval`, lines 30-57) and `compute_cascade_i_3d` (source/DynamicFormalSolution3d.cpp:667-761)
pass to the march of one ray (`raymarch`), as a function of cascade and probe. This connects the models of the ray
directions and segments (`marchSeg2`, `probeRay3`), of the march (`raymarch`) and of the kernels (`pass2`, `pass3`).
Simplification: emissivity and opacity of a cell are given functions of wavelength, direction, level and cell (what
the march gathers: stored values plus direction-dependent lines); the boundary condition a given function of wavelength,
position and direction (`sample_boundary`); real arithmetic.
-/
namespace DexRT.Fs
open DexRT DexRT.Dir

/-- The atmosphere as the march sees it. -/
structure World (dim : DdaDim) where
  /-- stored level of a tile, -1 for none: `get_sample_level` -/
  lvl : (Fin dim.n → ℤ) → ℤ
  /-- `BLOCK_SIZE`, `BLOCK_SIZE_3D` -/
  block : ℤ
  /-- upper corner of the grid -/
  max : Fin dim.n → ℤ
  /-- `max_mip_to_sample` of a cascade: source/RadianceCascades.hpp:677-680, source/DynamicFormalSolution3d.cpp:667-670 -/
  mip : Nat → ℤ
  /-- `EXTRA_SAFE_SOURCE_FN` -/
  extraSafe : Bool
  /-- `LAST_CASCADE_TO_INFTY` -/
  toInfty : Bool
  /-- `atmos.voxel_scale` -/
  scale : ℝ
  /-- `get_offsets(atmos)` -/
  offset : Fin 3 → ℝ
  /-- emissivity of a cell: wavelength, direction of travel, level, cell -/
  eta : ℤ → (Fin 3 → ℝ) → ℤ → (Fin dim.n → ℤ) → ℝ
  /-- opacity of a cell -/
  chi : ℤ → (Fin 3 → ℝ) → ℤ → (Fin dim.n → ℤ) → ℝ
  /-- `sample_boundary`: wavelength, position, direction of travel -/
  bc : ℤ → (Fin 3 → ℝ) → (Fin 3 → ℝ) → ℝ

/-- The grid that the rays of cascade `n` traverse. -/
def World.env {dim : DdaDim} (w : World dim) (n : Nat) : DdaEnv dim :=
  { lvl := w.lvl, maxMip := w.mip n, block := w.block, max := w.max }

/-- What a 2D formal solution needs besides: cascade lengths, inclinations, first wavelength. -/
structure Rays2 where
  len : LenCfg
  /-- `incl_quad.muy` -/
  muy : Nat → ℝ
  laStart : ℤ

/-- Arguments of the march of the ray of probe `p` of cascade `n` in 2D, for the segment `seg`:
source/RadianceCascades.hpp:37-57, 700-739, source/RayMarching.hpp:471-480. `bc` is `RC_SAMPLE_BC`. -/
noncomputable def World.args2 (w : World .two) (e : Env2 ℝ) (g : Rays2) (bc : Bool) (n : Nat) (p : ProbeIdx2)
    (seg : RaySeg 2) : RaymarchArgs .two :=
  let nd := (cascadeComputeSize e.cfg e.c0 n).dirs
  let ray := rayProps e.cfg g.len e.num n nd p.u p.v p.dir
  let mu := invertedMu ray (g.muy p.incl)
  let la := g.laStart + p.wave
  { seg := seg, env := w.env n, eta := w.eta la mu, chi := w.chi la mu, extraSafe := w.extraSafe, scale := w.scale,
    incl := g.muy p.incl, sampleBc := bc, toInfty := w.toInfty, up := (invertDirection ray).dir 1, la := la,
    bc := w.bc la ![ray.centre 0 * w.scale + w.offset 0, w.offset 1, ray.centre 1 * w.scale + w.offset 2] mu }

/-- The interval of a ray as the kernels use it. -/
noncomputable def segOf (r : Interval) : Seg ℝ := ⟨r.I, Real.exp (-r.tau), r.psiStar⟩

/-- `march_and_merge_average_interval` up to the merge, source/RadianceCascades.hpp:37-57: marching the ray of probe
`p` of cascade `n` returned `s`. -/
def MarchRay2 (w : World .two) (e : Env2 ℝ) (g : Rays2) (bc : Bool) (n : Nat) (p : ProbeIdx2) (s : Seg ℝ) : Prop :=
  ∃ seg fuel res, marchSeg2 e.cfg g.len e.num n (cascadeComputeSize e.cfg e.c0 n).dirs p.u p.v p.dir = some seg ∧
    raymarch (w.args2 e g bc n p seg) fuel = some res ∧ s = segOf res

/-- Number of directions of cascade `n` in 3D (`npix = dims.num_az_rays`, source/RcUtilsModes3d.hpp:505). -/
def npix3 (e : Env3 ℝ) (n : Nat) : Nat := (cascadeComputeSize3 e.cfg e.c0 n).az

/-- Arguments of the march of the ray of probe `p` of cascade `n` in 3D, for the default HEALPix directions (one polar
index): source/DynamicFormalSolution3d.cpp:707-738, 331-346. -/
noncomputable def World.args3 (w : World .three) (e : Env3 ℝ) (l : LenCfg3) (la : ℤ) (bc : Bool) (n : Nat) (p : ProbeIdx3) :
    RaymarchArgs .three :=
  let seg := probeRay3 l e.num n (npix3 e n) p.u p.v p.w p.az
  { seg := seg, env := w.env n, eta := w.eta la seg.d, chi := w.chi la seg.d, extraSafe := w.extraSafe, scale := w.scale,
    incl := 0, sampleBc := bc, toInfty := w.toInfty, up := seg.d 2, la := la,
    bc := w.bc la (fun i => seg.o i * w.scale + w.offset i) seg.d }

/-- source/DynamicFormalSolution3d.cpp:466-476: marching the ray of probe `p` of cascade `n` returned `s`. -/
def MarchRay3 (w : World .three) (e : Env3 ℝ) (l : LenCfg3) (la : ℤ) (bc : Bool) (n : Nat) (p : ProbeIdx3) (s : Seg ℝ) : Prop :=
  ∃ fuel res, raymarch (w.args3 e l la bc n p) fuel = some res ∧ s = segOf res

end DexRT.Fs
