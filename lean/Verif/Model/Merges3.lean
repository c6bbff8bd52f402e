import Verif.Model.FormalSol
import Verif.Model.Dirs
import Verif.Model.Clip
/-!
Model of the trilinear-fix merge of the 3D formal solution: `trilinear_probe_ray` (source/RcUtilsModes3d.hpp:587-614) and
`march_and_merge_trilinear_interval_3d` (source/DynamicFormalSolution3d.cpp:517-587), selected by the constant
`trilinear_fix` (line 715), for the HEALPix directions. The march of a ray is an arbitrary function of its geometry.
-/
namespace DexRT.Merges3
open DexRT DexRT.Fs DexRT.Dir

/-- What the merge reads. -/
structure Env where
  cfg : RcCfg3
  c0 : Casc3
  l : LenCfg3
  num : Nat
  march : RaySeg 3 → Seg ℝ

/-- Number of directions of cascade `n`: `cascade_storage_to_rays(casc_dims)`, source/DynamicFormalSolution3d.cpp:532. -/
def Env.npix (e : Env) (n : Nat) : Nat := (cascadeComputeSize3 e.cfg e.c0 n).az

/-- `args.ray`: source/DynamicFormalSolution3d.cpp:720-732. -/
noncomputable def Env.ray (e : Env) (n : Nat) (p : ProbeIdx3) : RaySeg 3 := probeRay3 e.l e.num n (e.npix n) p.u p.v p.w p.az

/-- `probe_pos`, source/RcUtilsModes3d.hpp:202-209. -/
noncomputable def pos (u v w n : Nat) : Fin 3 → ℝ := ![(probePos u n : ℝ), (probePos v n : ℝ), (probePos w n : ℝ)]

/-- `trilinear_probe_ray`: source/RcUtilsModes3d.hpp:587-614. A ray of length zero (a division by zero in the code) keeps
direction zero. -/
noncomputable def triRay (e : Env) (n : Nat) (p : ProbeIdx3) (U V W : Nat) : RaySeg 3 :=
  let o := pos p.u p.v p.w n
  let upperO := pos U V W (n + 1)
  let dir := rayDir3 (e.npix n) p.az
  let length := intervalLength3 e.l e.num n
  let endPos : Fin 3 → ℝ := fun i => o i - dir i * length.1
  let startPos : Fin 3 → ℝ := fun i => upperO i - dir i * length.2
  let eff : Fin 3 → ℝ := fun i => endPos i - startPos i
  let t1 := Real.sqrt (eff 0 ^ 2 + eff 1 ^ 2 + eff 2 ^ 2)
  { o := startPos, d := fun i => eff i * (1 / t1), negZero := fun _ => false, t0 := 0, t1 := t1 }

/-- `upper_interp.I` for one upper probe: source/DynamicFormalSolution3d.cpp:563-577. -/
noncomputable def upperAvg (e : Env) (n : Nat) (upper : List ℝ) (ps as : Int) (U V W : Nat) : Outcome ℝ :=
  let tex := upperTexels3 e.cfg.branch
  sumLoop (fun q : Nat × Nat =>
    if 0 ≤ ps ∧ 0 ≤ as then do
      let x ← readAt upper (probeLinearIndex3 e.cfg (cascadeSize3 e.cfg.branch e.c0 (n + 1))
        { u := U, v := V, w := W, polar := ps.toNat + q.1, az := as.toNat + q.2 })
      .ok (1 / ((tex.1 * tex.2 : Nat) : ℝ) * x)
    else .ub) ((List.range tex.2).flatMap fun i => (List.range tex.1).map fun j => (i, j)) 0

/-- `march_and_merge_trilinear_interval_3d`, the intensity: source/DynamicFormalSolution3d.cpp:524-587. -/
noncomputable def mergeTri (e : Env) (n : Nat) (upper : Option (List ℝ)) (p : ProbeIdx3) : Outcome ℝ :=
  match upper with
  | none => .ok (e.march (e.ray n p)).I
  | some u => do
    let lo := cascadeSize3 e.cfg.branch e.c0 n
    let up := cascadeSize3 e.cfg.branch e.c0 (n + 1)
    let ps ← upperStart3 p.polar up.polar lo.polar
    let as ← upperStart3 p.az up.az lo.az
    sumLoop (fun k =>
      let s := trilinearSample p.u p.v p.w up.np0 up.np1 up.np2 k
      if 0 ≤ s.1.1 ∧ 0 ≤ s.1.2.1 ∧ 0 ≤ s.1.2.2 then do
        let ri := e.march (triRay e n p s.1.1.toNat s.1.2.1.toNat s.1.2.2.toNat)
        let x ← upperAvg e n u ps as s.1.1.toNat s.1.2.1.toNat s.1.2.2.toNat
        .ok ((s.2 : ℝ) * (ri.I + ri.T * x))
      else .ub) (List.range 8) 0

end DexRT.Merges3
