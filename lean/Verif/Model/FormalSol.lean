import Verif.Model.MeanJ
import Verif.Model.Interp
/-!
Model of a whole radiance-cascade formal solution: the per-cascade kernels `cascade_i_25d`
(source/RadianceCascades.hpp:615-815) and `compute_cascade_i_3d` (source/DynamicFormalSolution3d.cpp:645-781),
the merge with the cascade above (`march_and_merge_average_interval`, source/RadianceCascades.hpp:30-88, and
`march_and_merge_average_interval_3d`, source/DynamicFormalSolution3d.cpp:466-515), and the drivers that call
them from the last cascade down to cascade 0 and then add to J (source/DynamicFormalSolution.cpp:409-513,
source/StaticFormalSolution.cpp:60-95, source/DynamicFormalSolution3d.cpp:783-884).

Simplifications (all definitions here): `fp_t` is an exact field `K`; the march of one ray is an arbitrary
function giving the intensity, the transmission `exp(-tau)` and the diagonal operator of the interval (C23, C24
and C36-C39 are about that march); the default ray configuration (`RcConfiguration::Vanilla`) and
`RaymarchType::Raymarch` only; `STORE_TAU_CASCADES` off (the stored optical depths never enter an intensity).
-/
namespace DexRT.Fs
open DexRT

variable {K : Type} [Field K]

/-- What marching one ray gives: `RadianceInterval`, source/Types.hpp:157-162, with the transmission
`exp(-tau)` in place of `tau` (the only use `merge_intervals`, source/RayMarching.hpp:293-305, makes of it). -/
structure Seg (K : Type) where
  I : K
  T : K
  psi : K

/-- The intensity buffers `i_cascades` and `psi_star` (`none`: not initialised), source/CascadeState.hpp:8-18. -/
structure Mem (K : Type) where
  bufs : List (List K)
  psi : Option (List K)

/-- Checked array store: out of bounds is UB. -/
def storeAt (xs : List K) (i : Nat) (v : K) : Outcome (List K) :=
  if i < xs.length then .ok (xs.set i v) else .ub

/-- The stores of an iteration to `psi_star` when the ALO is computed: source/RadianceCascades.hpp:786-788,
source/DynamicFormalSolution3d.cpp:770-773. -/
def storePsi (alo : Bool) (psi : Option (List K)) (lin : Nat) (v : K) : Outcome (Option (List K)) :=
  if alo then
    match psi with
    | none => .ub
    | some ps => do
      let ps' ← storeAt ps lin v
      .ok (some ps')
  else .ok psi

/-- The "RC Loop" of a cascade, iterations in the order `sched`: each computes `(lin_idx, I, psi_star)` from the
buffers as they are at that moment and stores into buffer `i` (source/RadianceCascades.hpp:692-790,
source/DynamicFormalSolution3d.cpp:703-776). -/
def rcLoop {ι : Type} (body : List (List K) → ι → Outcome (Nat × K × K)) (i : Nat) (alo : Bool) :
    List ι → Mem K → Outcome (Mem K)
  | [], m => .ok m
  | it :: its, m => do
    let r ← body m.bufs it
    let buf ← readAt m.bufs i
    let buf' ← storeAt buf r.1 r.2.1
    let psi' ← storePsi alo m.psi r.1 r.2.2
    rcLoop body i alo its { bufs := m.bufs.set i buf', psi := psi' }

/-- `upper_I`: the upper buffer, not initialised when `ip` is -1; source/RadianceCascades.hpp:633-637,
source/DynamicFormalSolution3d.cpp:661-665. -/
def readUpper (bufs : List (List K)) (ip : Option Nat) : Outcome (Option (List K)) :=
  match ip with
  | none => .ok none
  | some j => do
    let b ← readAt bufs j
    .ok (some b)

/-- One call of a cascade kernel: the cascade, whether the boundary is sampled (`RC_SAMPLE_BC`) and whether the
ALO is computed (`RC_COMPUTE_ALO`). -/
structure Task where
  n : Nat
  bc : Bool
  alo : Bool
deriving DecidableEq, Repr

/-- Kernel calls in order. -/
def runTasks (call : Task → Mem K → Outcome (Mem K)) : List Task → Mem K → Outcome (Mem K)
  | [], m => .ok m
  | t :: ts, m => do
    let m' ← call t m
    runTasks call ts m'

/-- `for (int casc_idx = num_cascades - 1; casc_idx >= 1; --casc_idx)`: source/DynamicFormalSolution.cpp:468-476,
source/DynamicFormalSolution3d.cpp:823-831. -/
def middleTasks (num : Nat) : List Task :=
  (List.range (num - 1)).reverse.map fun k => { n := k + 1, bc := false, alo := false }

/-- Kernel calls of one pass of `dynamic_formal_sol_rc`: source/DynamicFormalSolution.cpp:461-493; `alo` is
`psi_star.initialized() && !lambda_iterate`. -/
def tasks2 (num : Nat) (alo : Bool) : List Task :=
  { n := num, bc := true, alo := false } :: (middleTasks num ++ [{ n := 0, bc := false, alo := alo }])

/-- Kernel calls of one pass of `static_formal_sol_given_rc`: source/StaticFormalSolution.cpp:68-87. -/
def tasksStatic2 (num : Nat) : List Task :=
  { n := num, bc := true, alo := false } ::
    (List.range num).reverse.map fun k => { n := k, bc := false, alo := false }

/-- Kernel calls of `dynamic_formal_sol_rc_3d_subset`: source/DynamicFormalSolution3d.cpp:812-850. -/
def tasks3 (num : Nat) (alo : Bool) : List Task :=
  (if num > 0 then [{ n := num, bc := true, alo := false }] else []) ++
    (middleTasks num ++ [{ n := 0, bc := false, alo := alo }])

/-- `psi_star = FP(0.0)` when it is initialised: source/DynamicFormalSolution.cpp:451-453,
source/DynamicFormalSolution3d.cpp:864-866. -/
def zeroPsi (m : Mem K) : Mem K := { m with psi := m.psi.map fun ps => ps.map fun _ => 0 }

/-! ### 2D -/

/-- What the 2D kernel reads: `c0_size`, `num_cascades`, `PINGPONG_BUFFERS`, the probes of each cascade and the
march of a ray: `march sample_bc cascade probe`. -/
structure Env2 (K : Type) where
  cfg : RcCfg
  c0 : Casc2
  num : Nat
  pp : Bool
  probes : Nat → Probes2
  march : Bool → Nat → ProbeIdx2 → Seg K

/-- source/RcUtilsModes.hpp:118-126 `rays_per_stored_texel`. -/
def raysPerTexel (c : RcCfg) : Nat :=
  match c.mode with
  | .preaverage => 2 ^ c.cbf
  | _ => 1

/-- The term `ray_weight * weights(bilin) * upper_I(lin_idx)`: source/RadianceCascades.hpp:74-81. A negative
coordinate is outside the array. -/
def upperTerm2 (e : Env2 K) (n : Nat) (p : ProbeIdx2) (upper : List K) (bilin r : Nat) : Outcome K :=
  let up := cascadeSize e.cfg e.c0 (n + 1)
  let s := bilinearSample p.u p.v up.np0 up.np1 bilin
  if 0 ≤ s.1.1 ∧ 0 ≤ s.1.2 then do
    let x ← readAt upper (probeLinearIndex e.cfg up
      { u := s.1.1.toNat, v := s.1.2.toNat, dir := upperRayIdx e.cfg p.dir n + r, incl := p.incl,
        wave := p.wave })
    .ok (1 / (upperTexelsPerRay e.cfg n : K) * (s.2 : K) * x)
  else .ub

/-- Sum of the terms of a loop, each of which may fail. -/
def sumLoop {ι : Type} (f : ι → Outcome K) : List ι → K → Outcome K
  | [], acc => .ok acc
  | i :: is, acc => do
    let x ← f i
    sumLoop f is (acc + x)

/-- `interp.I`: source/RadianceCascades.hpp:63-86, the loops over the four probes and the upper rays. -/
def interp2 (e : Env2 K) (n : Nat) (p : ProbeIdx2) (upper : List K) : Outcome K :=
  sumLoop (fun kr : Nat × Nat => upperTerm2 e n p upper kr.1 kr.2)
    ((List.range 4).flatMap fun k => (List.range (upperTexelsPerRay e.cfg n)).map fun r => (k, r)) 0

/-- `march_and_merge_average_interval`: source/RadianceCascades.hpp:30-88 with `merge_intervals`
(source/RayMarching.hpp:293-305). `upper` is `none` when `upper_I` is not initialised. -/
def marchMerge2 (e : Env2 K) (bc : Bool) (n : Nat) (upper : Option (List K)) (p : ProbeIdx2) :
    Outcome (K × K) :=
  let ri := e.march bc n p
  match upper with
  | none => .ok (ri.I + ri.T * 0, ri.psi)
  | some u => do
    let x ← interp2 e n p u
    .ok (ri.I + ri.T * x, ri.psi)

/-- The loop over the rays stored in one texel: source/RadianceCascades.hpp:709-776. -/
def texelLoop {ι : Type} (w : K) (f : ι → Outcome (K × K)) : List ι → K × K → Outcome (K × K)
  | [], acc => .ok acc
  | i :: is, acc => do
    let x ← f i
    texelLoop w f is (acc.1 + w * x.1, acc.2 + w * x.2)

/-- One iteration of the "RC Loop" for pass `t` of cascade `n`: source/RadianceCascades.hpp:700-790. `ip` is the
index of the upper buffer. -/
def body2 (e : Env2 K) (bc : Bool) (n t : Nat) (ip : Option Nat) (bufs : List (List K)) (it : JIter) :
    Outcome (Nat × K × K) := do
  let c ← (e.probes n).coord it.k
  if 0 ≤ c.x ∧ 0 ≤ c.z then do
    let sub := nthRaysSubset e.cfg (cascadeComputeSize e.cfg e.c0 n) t
    let phi := it.phi + sub.1
    let upper ← readUpper bufs ip
    let probe := fun i => ({ u := c.x.toNat, v := c.z.toNat, dir := phi * raysPerTexel e.cfg + i,
                             incl := it.theta, wave := it.wave } : ProbeIdx2)
    let avg ← texelLoop (1 / (raysPerTexel e.cfg : K)) (fun i => marchMerge2 e bc n upper (probe i))
      (List.range (raysPerTexel e.cfg)) (0, 0)
    .ok (probeLinearIndex e.cfg (cascadeSize e.cfg e.c0 n) (probe 0), avg.1, avg.2)
  else .ub

/-- The iteration space of the "RC Loop": source/RadianceCascades.hpp:694-699, `wave_batch` of lines 662 and
678. -/
def iters2 (e : Env2 K) (n t waves probes : Nat) : List JIter :=
  jIters probes ((nthRaysSubset e.cfg (cascadeComputeSize e.cfg e.c0 n) t).2 / raysPerTexel e.cfg)
    (min waves e.c0.wave) e.c0.incl

/-- `cascade_i_25d`: source/RadianceCascades.hpp:615-815. `sched` orders the iterations of each call. -/
def call2 (e : Env2 K) (t : Nat) (sched : Task → List JIter) (k : Task) (m : Mem K) : Outcome (Mem K) :=
  let io := cascadeIndices e.pp e.num k.n
  rcLoop (fun bufs it => body2 e k.bc k.n t io.2 bufs it) io.1 k.alo (sched k) m

/-- One pass (`subset_idx = t`) of `dynamic_formal_sol_rc`: source/DynamicFormalSolution.cpp:451-493. -/
def pass2 (e : Env2 K) (t : Nat) (lambdaIterate : Bool) (sched : Task → List JIter) (m : Mem K) :
    Outcome (Mem K) :=
  runTasks (call2 e t sched) (tasks2 e.num (m.psi.isSome && !lambdaIterate)) (zeroPsi m)

/-- One pass of `static_formal_sol_given_rc`: source/StaticFormalSolution.cpp:60-87. -/
def passStatic2 (e : Env2 K) (t : Nat) (sched : Task → List JIter) (m : Mem K) : Outcome (Mem K) :=
  runTasks (call2 e t sched) (tasksStatic2 e.num) m

/-- The loop over the passes: each pass fills the buffers and is then added to J. -/
def passesJ (pass : Nat → Mem K → Outcome (Mem K)) (merge : Nat → List K → Arr2 K → Outcome (Arr2 K)) :
    List Nat → Mem K → Arr2 K → Outcome (Mem K × Arr2 K)
  | [], m, J => .ok (m, J)
  | t :: ts, m, J => do
    let m1 ← pass t m
    let c0 ← readAt m1.bufs 0
    let J1 ← merge t c0 J
    passesJ pass merge ts m1 J1

/-- `dynamic_formal_sol_rc`: source/DynamicFormalSolution.cpp:450-512. The Gamma contributions (C48-C58) do not
touch the buffers or J. -/
def formalSol2 (e : Env2 K) (me : MergeEnv K) (laStart : Nat) (lambdaIterate : Bool)
    (sched : Nat → Task → List JIter) (jsched : Nat → List JIter) :
    List Nat → Mem K → Arr2 K → Outcome (Mem K × Arr2 K) :=
  passesJ (fun t m => pass2 e t lambdaIterate (sched t) m) (fun t c0 J => mergeC0ToJ me laStart c0 (jsched t) J)

/-- `static_formal_sol_given_rc`: source/StaticFormalSolution.cpp:60-97. -/
def formalSolStatic2 (e : Env2 K) (me : MergeEnv K) (laStart : Nat)
    (sched : Nat → Task → List JIter) (jsched : Nat → List JIter) :
    List Nat → Mem K → Arr2 K → Outcome (Mem K × Arr2 K) :=
  passesJ (fun t m => passStatic2 e t (sched t) m) (fun t c0 J => mergeC0ToJ me laStart c0 (jsched t) J)

/-! ### 3D -/

/-- What the 3D kernel reads. -/
structure Env3 (K : Type) where
  cfg : RcCfg3
  c0 : Casc3
  num : Nat
  pp : Bool
  probes : Nat → Probes3
  march : Bool → Nat → ProbeIdx3 → Seg K

/-- The term `ray_weight * weights(tri_idx) * upper_I(lin_idx)`: source/DynamicFormalSolution3d.cpp:480-507. -/
def upperTerm3 (e : Env3 K) (n : Nat) (p : ProbeIdx3) (upper : List K) (ps as : Int) (tri i j : Nat) :
    Outcome K :=
  let up := cascadeSize3 e.cfg.branch e.c0 (n + 1)
  let s := trilinearSample p.u p.v p.w up.np0 up.np1 up.np2 tri
  let tex := upperTexels3 e.cfg.branch
  if 0 ≤ s.1.1 ∧ 0 ≤ s.1.2.1 ∧ 0 ≤ s.1.2.2 ∧ 0 ≤ ps ∧ 0 ≤ as then do
    let x ← readAt upper (probeLinearIndex3 e.cfg up
      { u := s.1.1.toNat, v := s.1.2.1.toNat, w := s.1.2.2.toNat, polar := ps.toNat + i, az := as.toNat + j })
    .ok (1 / ((tex.1 * tex.2 : Nat) : K) * (s.2 : K) * x)
  else .ub

/-- `interp.I`: source/DynamicFormalSolution3d.cpp:478-513. -/
def interp3 (e : Env3 K) (n : Nat) (p : ProbeIdx3) (upper : List K) : Outcome K := do
  let lo := cascadeSize3 e.cfg.branch e.c0 n
  let up := cascadeSize3 e.cfg.branch e.c0 (n + 1)
  let ps ← upperStart3 p.polar up.polar lo.polar
  let as ← upperStart3 p.az up.az lo.az
  let tex := upperTexels3 e.cfg.branch
  sumLoop (fun q : Nat × Nat × Nat => upperTerm3 e n p upper ps as q.1 q.2.1 q.2.2)
    ((List.range 8).flatMap fun k => (List.range tex.2).flatMap fun i => (List.range tex.1).map fun j => (k, i, j)) 0

/-- `march_and_merge_average_interval_3d`: source/DynamicFormalSolution3d.cpp:466-515. -/
def marchMerge3 (e : Env3 K) (bc : Bool) (n : Nat) (upper : Option (List K)) (p : ProbeIdx3) :
    Outcome (K × K) :=
  let ri := e.march bc n p
  match upper with
  | none => .ok (ri.I + ri.T * 0, ri.psi)
  | some u => do
    let x ← interp3 e n p u
    .ok (ri.I + ri.T * x, ri.psi)

/-- One iteration of the "RC Loop 3D": source/DynamicFormalSolution3d.cpp:703-776. -/
def body3 (e : Env3 K) (bc : Bool) (n t : Nat) (ip : Option Nat) (bufs : List (List K)) (it : JIter3) :
    Outcome (Nat × K × K) := do
  let c ← (e.probes n).coord it.k
  if 0 ≤ c.x ∧ 0 ≤ c.y ∧ 0 ≤ c.z then do
    let sub := nthRaysSubset3 e.cfg (cascadeComputeSize3 e.cfg e.c0 n) t
    let upper ← readUpper bufs ip
    let probe : ProbeIdx3 := { u := c.x.toNat, v := c.y.toNat, w := c.z.toNat,
                               polar := it.theta + sub.startPolar, az := it.phi + sub.startAz }
    let r ← marchMerge3 e bc n upper probe
    .ok (probeLinearIndex3 e.cfg (cascadeSize3 e.cfg.branch e.c0 n) probe, r.1, r.2)
  else .ub

/-- The iteration space of the "RC Loop 3D": source/DynamicFormalSolution3d.cpp:705. -/
def iters3 (e : Env3 K) (n t probes : Nat) : List JIter3 :=
  let sub := nthRaysSubset3 e.cfg (cascadeComputeSize3 e.cfg e.c0 n) t
  jIters3 probes sub.numPolar sub.numAz

/-- `compute_cascade_i_3d`: source/DynamicFormalSolution3d.cpp:645-781. -/
def call3 (e : Env3 K) (t : Nat) (sched : Task → List JIter3) (k : Task) (m : Mem K) : Outcome (Mem K) :=
  let io := cascadeIndices e.pp e.num k.n
  rcLoop (fun bufs it => body3 e k.bc k.n t io.2 bufs it) io.1 k.alo (sched k) m

/-- One pass of `dynamic_formal_sol_rc_3d`: source/DynamicFormalSolution3d.cpp:783-867. -/
def pass3 (e : Env3 K) (t : Nat) (lambdaIterate : Bool) (sched : Task → List JIter3) (m : Mem K) :
    Outcome (Mem K) :=
  runTasks (call3 e t sched) (tasks3 e.num (m.psi.isSome && !lambdaIterate)) (zeroPsi m)

/-- `dynamic_formal_sol_rc_3d`: source/DynamicFormalSolution3d.cpp:863-883, the loop over the passes. -/
def formalSol3 (e : Env3 K) (me : MergeEnv3) (la : Nat) (lambdaIterate : Bool)
    (sched : Nat → Task → List JIter3) (jsched : Nat → List JIter3) :
    List Nat → Mem K → Arr2 K → Outcome (Mem K × Arr2 K) :=
  passesJ (fun t m => pass3 e t lambdaIterate (sched t) m) (fun t c0 J => mergeC0ToJ3 me la c0 (jsched t) J)

end DexRT.Fs
