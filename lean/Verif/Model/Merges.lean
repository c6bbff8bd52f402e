import Verif.Model.FormalSol
import Verif.Model.Dirs
import Mathlib.Analysis.SpecialFunctions.Complex.Arg
import Mathlib.Analysis.SpecialFunctions.Log.Basic
/-!
Model of the four merges a 2D build can select (`RcConfiguration`, source/UserConfig2d.hpp:130-163):
`march_and_merge_bilinear_fix`, `interp_probe_dir`, `march_and_merge_parallax_fix`, `march_parallax_fix_inner`,
`march_and_merge_dispatch` and `parallax_fix_inner_merge` (source/RadianceCascades.hpp:90-614).

Simplifications (all definitions here): `fp_t` is ℝ; the march of a ray is an arbitrary function of the ray's geometry,
giving the intensity, transmission and diagonal operator of the interval; `PREAVERAGE` is off (excluded by
source/Config.hpp:47), so a texel holds one ray.
-/
namespace DexRT.Merges
open DexRT DexRT.Fs DexRT.Dir

/-- `RcConfiguration`, source/UserConfig2d.hpp:136-141, with `PARALLAX_MERGE_ABOVE_CASCADE` and
`INNER_PARALLAX_MERGE_ABOVE_CASCADE` (lines 154-158). -/
inductive Conf where
  | vanilla
  | parallax (above : Int)
  | inner (above : Int)
  | bilinear

/-- What a merge reads besides the buffers. -/
structure Env where
  cfg : RcCfg
  l : LenCfg
  c0 : Casc2
  num : Nat
  march : RayProps → Seg ℝ

/-- `cascade_storage_to_rays(cascade_size(c0, n))`, source/RadianceCascades.hpp:120, 638-640. -/
def Env.rays (e : Env) (n : Nat) : Casc2 := storageToRays e.cfg (cascadeSize e.cfg e.c0 n)

/-- `ray_props` of a ray of cascade `n`. -/
noncomputable def Env.ray (e : Env) (n : Nat) (p : ProbeIdx2) : RayProps :=
  rayProps e.cfg e.l e.num n (e.rays n).dirs p.u p.v p.dir

/-- The environment of `FormalSol` for the default merge: its march is that of the inverted ray,
source/RadianceCascades.hpp:37-55. -/
noncomputable def Env.env2 (e : Env) : Env2 ℝ :=
  { cfg := e.cfg, c0 := e.c0, num := e.num, pp := false, probes := fun _ => ⟨false, { x := 0, z := 0 }, []⟩,
    march := fun _ n p => e.march (invertDirection (e.ray n p)) }

/-- The mean over the upper rays of one upper probe: source/RadianceCascades.hpp:149-170, and 541-559 (where
`probe_fetch` is `probe_linear_index` and a read). -/
noncomputable def upperAvg (e : Env) (n : Nat) (p : ProbeIdx2) (upper : List ℝ) (U V : Nat) : Outcome ℝ :=
  sumLoop (fun r => do
    let x ← readAt upper (probeLinearIndex e.cfg (cascadeSize e.cfg e.c0 (n + 1))
      { u := U, v := V, dir := upperRayIdx e.cfg p.dir n + r, incl := p.incl, wave := p.wave })
    .ok (1 / (upperTexelsPerRay e.cfg n : ℝ) * x)) (List.range (upperTexelsPerRay e.cfg n)) 0

/-- `upper_centre_probe`/`upper_ray_mid_idx` and its ray: source/RadianceCascades.hpp:122-133, 513-530. -/
noncomputable def centralRay (e : Env) (n : Nat) (p : ProbeIdx2) (U V : Nat) : RayProps :=
  e.ray (n + 1) { u := U, v := V, dir := upperRayIdx e.cfg p.dir n + upperTexelsPerRay e.cfg n / 2, incl := p.incl,
                  wave := p.wave }

/-- The ray marched for one upper probe: source/RadianceCascades.hpp:105, 134-138. A ray of length zero (a division by zero
in the code) keeps direction zero. -/
noncomputable def fixRay (e : Env) (n : Nat) (p : ProbeIdx2) (U V : Nat) : RayProps :=
  let ray := invertDirection (e.ray n p)
  let start := (centralRay e n p U V).start
  let d : Fin 2 → ℝ := fun i => ray.stop i - start i
  let len := Real.sqrt (d 0 ^ 2 + d 1 ^ 2)
  { ray with start := start, dir := fun i => d i / len }

/-- The four upper probes: `bilinear_offset`, `bilinear_weights` and a computation at each; a negative coordinate is
outside the arrays. -/
noncomputable def corners (e : Env) (n : Nat) (p : ProbeIdx2) (f : Nat → Nat → Outcome ℝ) : Outcome ℝ :=
  sumLoop (fun k =>
    let s := bilinearSample p.u p.v (cascadeSize e.cfg e.c0 (n + 1)).np0 (cascadeSize e.cfg e.c0 (n + 1)).np1 k
    if 0 ≤ s.1.1 ∧ 0 ≤ s.1.2 then do
      let x ← f s.1.1.toNat s.1.2.toNat
      .ok ((s.2 : ℝ) * x)
    else .ub) (List.range 4) 0

/-- source/RadianceCascades.hpp:92-198 `march_and_merge_bilinear_fix`: intensity and `psi_star`. The result starts as
`interp{}` (line 111) and only `I` (and `tau`) are added to it (lines 172-175). -/
noncomputable def mergeBilinear (e : Env) (n : Nat) (upper : Option (List ℝ)) (p : ProbeIdx2) : Outcome (ℝ × ℝ) :=
  match upper with
  | none =>
    let ri := e.march (invertDirection (e.ray n p))
    .ok (ri.I, ri.psi)
  | some u => do
    let I ← corners e n p fun U V => do
      let ri := e.march (fixRay e n p U V)
      let x ← upperAvg e n p u U V
      .ok (ri.I + ri.T * x)
    .ok (I, 0)

/-- `std::atan2(z, x)`. -/
noncomputable def atan2 (z x : ℝ) : ℝ := Complex.arg ⟨x, z⟩

/-- source/RadianceCascades.hpp:200-245 `interp_probe_dir` on one buffer: the two directions around a fractional index, for
`g` of the entries (`g` is the identity for intensities, `exp(-·)` for optical depths). `%` is the C++ remainder; a negative
index is outside the buffer. -/
noncomputable def interpDir (cfg : RcCfg) (s : Casc2) (g : ℝ → ℝ) (buf : List ℝ) (p : ProbeIdx2) (frac : ℝ) : Outcome ℝ :=
  let base : Int := ⌊frac⌋
  let d0 := (base + (s.dirs : Int)).tmod s.dirs
  let d1 := (base + 1 + (s.dirs : Int)).tmod s.dirs
  let w1 := frac - base
  if 0 ≤ d0 ∧ 0 ≤ d1 then do
    let x0 ← readAt buf (probeLinearIndex cfg s { p with dir := d0.toNat })
    let x1 ← readAt buf (probeLinearIndex cfg s { p with dir := d1.toNat })
    .ok ((1 - w1) * g x0 + w1 * g x1)
  else .ub

/-- source/RadianceCascades.hpp:284-310: half way from the far end of the ray to the far ends of the previous and the next
ray. -/
noncomputable def cone (e : Env) (n : Nat) (p : ProbeIdx2) : (Fin 2 → ℝ) × (Fin 2 → ℝ) :=
  let ray := invertDirection (e.ray n p)
  let prev := e.ray n { p with dir := if p.dir = 0 then (e.rays n).dirs - 1 else p.dir - 1 }
  let next := e.ray n { p with dir := if p.dir + 1 ≥ (e.rays n).dirs then 0 else p.dir + 1 }
  (fun i => ray.start i + 1 / 2 * (prev.stop i - ray.start i), fun i => ray.start i + 1 / 2 * (next.stop i - ray.start i))

/-- `parallax_dir`, source/RadianceCascades.hpp:321-329. -/
noncomputable def parallaxDir (e : Env) (n : Nat) (p : ProbeIdx2) (U V r : Nat) : Fin 2 → ℝ := fun i =>
  ((r : ℝ) + 1 / 2) * ((cone e n p).2 i - (cone e n p).1 i) * (1 / (upperTexelsPerRay e.cfg n : ℝ)) + (cone e n p).1 i -
    ![(probePos U (n + 1) : ℝ), (probePos V (n + 1) : ℝ)] i

/-- source/RadianceCascades.hpp:247-345 `march_and_merge_parallax_fix`. `interp_probe_dir` is called without `RcMode`; with
`DIR_BY_DIR` and `PREAVERAGE` off (source/Config.hpp:48-57) that makes no difference to the index. -/
noncomputable def mergeParallax (e : Env) (n : Nat) (upper : Option (List ℝ)) (p : ProbeIdx2) : Outcome (ℝ × ℝ) :=
  let ri := e.march (invertDirection (e.ray n p))
  match upper with
  | none => .ok (ri.I + ri.T * 0, ri.psi)
  | some u => do
    let x ← corners e n p fun U V =>
      sumLoop (fun r => do
        let d := parallaxDir e n p U V r
        let y ← interpDir e.cfg (e.rays (n + 1)) id u { u := U, v := V, dir := 0, incl := p.incl, wave := p.wave }
          (fracDirIdx (e.rays (n + 1)).dirs (atan2 (d 1) (d 0)))
        .ok (1 / (upperTexelsPerRay e.cfg n : ℝ) * y)) (List.range (upperTexelsPerRay e.cfg n)) 0
    .ok (ri.I + ri.T * x, ri.psi)

/-- source/RadianceCascades.hpp:347-384 `march_parallax_fix_inner`: no merge in this kernel. -/
noncomputable def marchInner (e : Env) (n : Nat) (p : ProbeIdx2) : Outcome (ℝ × ℝ) :=
  let ri := e.march (invertDirection (e.ray n p))
  .ok (ri.I, ri.psi)

/-- source/RadianceCascades.hpp:386-451 `march_and_merge_dispatch`. -/
noncomputable def dispatch (c : Conf) (e : Env) (n : Nat) (upper : Option (List ℝ)) (p : ProbeIdx2) : Outcome (ℝ × ℝ) :=
  match c with
  | .vanilla => marchMerge2 e.env2 false n upper p
  | .bilinear => mergeBilinear e n upper p
  | .parallax above => if (n : Int) ≤ above then marchMerge2 e.env2 false n upper p else mergeParallax e n upper p
  | .inner above => if (n : Int) ≤ above then marchMerge2 e.env2 false n upper p else marchInner e n p

/-- The intensity the "RC Separate Merge Loop" stores for one ray, source/RadianceCascades.hpp:480-570: `curI`, `curTau` are
`cascade_I`, `cascade_tau` of this cascade as the first kernel left them. -/
noncomputable def innerMerge (e : Env) (n : Nat) (curI curTau upper : List ℝ) (p : ProbeIdx2) : Outcome ℝ :=
  corners e n p fun U V => do
    let c := centralRay e n p U V
    let d : Fin 2 → ℝ := fun i => c.start i - ![(probePos p.u n : ℝ), (probePos p.v n : ℝ)] i
    let f := fracDirIdx (e.rays n).dirs (atan2 (d 1) (d 0))
    let I ← interpDir e.cfg (e.rays n) id curI p f
    let E ← interpDir e.cfg (e.rays n) (fun t => Real.exp (-t)) curTau p f
    let tau := min (-Real.log E) 10000
    let x ← upperAvg e n p upper U V
    .ok (I + Real.exp (-tau) * x)

end DexRT.Merges
