import Verif.Model.ActiveProbes
import Verif.Model.Emis
import Mathlib.Algebra.Order.Field.Rat
import Mathlib.Algebra.Field.Basic
/-!
Model of the angular integration to the mean intensity J: `merge_c0_to_J` (source/MergeToJ.hpp:10-70),
`merge_c0_to_J_3d` (source/DynamicFormalSolution3d.cpp:599-643), the probe enumeration
`DeviceProbesToCompute` (source/Types.hpp:323-382), and the handling of J per wavelength batch
(`setup_wavelength_batch`, `copy_J_plane_to_host`: source/main.cpp:401-424, source/main_3d.cpp:677-686).

Simplification: `fp_t` is an exact field `K`, so the order of the `atomic_add`s only matters through which
additions happen; the theorems quantify over every order of the iterations.
-/
namespace DexRT

variable {K : Type} [Field K]

/-- `DeviceProbesToCompute<2>`: source/Types.hpp:323-327. `np` is `num_probes` (x = u, z = v). -/
structure Probes2 where
  sparse : Bool
  np : Coord2
  active : List Coord2

/-- source/Types.hpp:372-381 `num_active_probes` (2D); the product is an `int`. -/
def Probes2.num (P : Probes2) : Outcome Int :=
  if P.sparse then .ok P.active.length else mulI32 P.np.x P.np.z

/-- source/Types.hpp:329-348 `operator()` (2D). `num_probes(0) * probe_coord(1)` is an `int` product. -/
def Probes2.coord (P : Probes2) (k : Nat) : Outcome Coord2 :=
  if P.sparse then
    match P.active[k]? with
    | none => .ub
    | some c => .ok c
  else do
    let z := (k : Int).tdiv P.np.x
    let o ← mulI32 P.np.x z
    .ok { x := k - o, z := z }

/-- `DeviceProbesToCompute<3>`: source/Types.hpp:323-327. -/
structure Probes3 where
  sparse : Bool
  np : Coord3
  active : List Coord3

/-- source/Types.hpp:372-381 `num_active_probes` (3D): the first product is an `int`, the second `i64`
(taken as exact). -/
def Probes3.num (P : Probes3) : Outcome Int :=
  if P.sparse then .ok P.active.length else do
    let a ← mulI32 P.np.x P.np.y
    .ok (a * P.np.z)

/-- source/Types.hpp:350-370 `operator()` (3D): `stride` and the products assigned to `offset` are
`int`s. -/
def Probes3.coord (P : Probes3) (k : Nat) : Outcome Coord3 :=
  if P.sparse then
    match P.active[k]? with
    | none => .ub
    | some c => .ok c
  else do
    let stride ← mulI32 P.np.x P.np.y
    let z := (k : Int).tdiv stride
    let offset ← mulI32 z stride
    let y := ((k : Int) - offset).tdiv P.np.x
    let o2 ← mulI32 y P.np.x
    .ok { x := k - (offset + o2), y := y, z := z }

/-- A 2D array of `fp_t` indexed `[row, ks]`: `Fp2d J`. -/
structure Arr2 (K : Type) where
  rows : Nat
  cols : Nat
  get : Nat → Nat → K

/-- `Kokkos::atomic_add(&J(row, ks), v)`, source/MergeToJ.hpp:66; outside the array is UB. -/
def Arr2.add (J : Arr2 K) (row ks : Int) (v : K) : Outcome (Arr2 K) :=
  if 0 ≤ row ∧ row < J.rows ∧ 0 ≤ ks ∧ ks < J.cols then
    .ok { J with get := fun r k => if (r : Int) = row ∧ (k : Int) = ks then J.get r k + v else J.get r k }
  else .ub

/-- `J = FP(0.0)`, source/main.cpp:415. -/
def Arr2.zero (J : Arr2 K) : Arr2 K := { J with get := fun _ _ => 0 }

/-- The parallel loop: iterations run in the order `sched`, each performing one atomic addition
`(row, ks, value)`. -/
def addAll {ι : Type} (f : ι → Outcome (Int × Int × K)) : List ι → Arr2 K → Outcome (Arr2 K)
  | [], J => .ok J
  | i :: is, J => do
    let a ← f i
    let J' ← J.add a.1 a.2.1 a.2.2
    addAll f is J'

/-- source/RcUtilsModes.hpp:162-169 `c0_dirs_to_average`. -/
def c0DirsToAverage (c : RcCfg) : Nat :=
  match c.mode with
  | .preaverage => c.p0rays / 2 ^ c.cbf
  | _ => c.p0rays

/-- What `merge_c0_to_J` reads besides the cascade: configuration, `c0_dims`, the probes, the block map
and the inclination weights. -/
structure MergeEnv (K : Type) where
  cfg : RcCfg
  s : Casc2
  P : Probes2
  B : Nat
  bm : BlockMap Coord2
  wmuy : List K

/-- An iteration of the loop: source/MergeToJ.hpp:36-41. -/
structure JIter where
  k : Nat
  phi : Nat
  wave : Nat
  theta : Nat
deriving DecidableEq, Repr

/-- source/MergeToJ.hpp:26-31: the row of J for the first wavelength of the batch. -/
def jFirstRow (s : Casc2) (jRows laStart : Nat) : Nat := if s.wave = jRows then 0 else laStart

/-- source/MergeToJ.hpp:52-58: the storage address of the probe's cell. -/
def MergeEnv.ks (e : MergeEnv K) (c : Coord2) : Outcome Int :=
  if e.P.sparse then do
    let (a, _) ← (geo2 e.B).idx e.bm (geo2 e.B).fresh c
    .ok a
  else .ok (c.z * e.P.np.x + c.x)

/-- source/RcUtilsModes.hpp:400-460 `probe_fetch` with a storage index; a negative coordinate is outside
the array. -/
def fetch2 (c0 : List K) (s : Casc2) (c : Coord2) (dir incl wave : Nat) : Outcome K :=
  if 0 ≤ c.x ∧ 0 ≤ c.z then
    readAt c0 (storageLinearIndex s { u := c.x.toNat, v := c.z.toNat, dir := dir, incl := incl, wave := wave })
  else .ub

/-- source/MergeToJ.hpp:41-67: one iteration. `firstRow` is the (adjusted) `la_start`. -/
def jBody (e : MergeEnv K) (firstRow : Nat) (c0 : List K) (i : JIter) : Outcome (Int × Int × K) := do
  let w ← readAt e.wmuy i.theta
  let rayWeight := 1 / (c0DirsToAverage e.cfg : K) * w
  let c ← e.P.coord i.k
  let ks ← e.ks c
  let sample ← fetch2 c0 e.s c i.phi i.theta i.wave
  .ok (((firstRow + i.wave : Nat) : Int), ks, rayWeight * sample)

/-- The iteration space `FlatLoop<4>(num_active_probes, num_flat_dirs, wave_batch, num_incl)`,
source/MergeToJ.hpp:36-41. -/
def jIters (n dirs waves incls : Nat) : List JIter :=
  (List.range n).flatMap fun k => (List.range dirs).flatMap fun phi =>
    (List.range waves).flatMap fun wave => (List.range incls).map fun theta => ⟨k, phi, wave, theta⟩

/-- source/MergeToJ.hpp:10-70 `merge_c0_to_J` with its loop run in the order `sched`, which must be an
ordering of the iteration space (a theorem hypothesis). -/
def mergeC0ToJ (e : MergeEnv K) (laStart : Nat) (c0 : List K) (sched : List JIter) (J : Arr2 K) : Outcome (Arr2 K) :=
  addAll (jBody e (jFirstRow e.s J.rows laStart) c0) sched J

/-- The calls of `merge_c0_to_J` in one formal solution, one per subset of directions
(source/DynamicFormalSolution.cpp:450-512, source/StaticFormalSolution.cpp:60-95): `c0 t` is cascade 0 as
computed for subset `t`. -/
def formalSolJ (e : MergeEnv K) (laStart : Nat) (c0 : Nat → List K) (sched : Nat → List JIter) :
    List Nat → Arr2 K → Outcome (Arr2 K)
  | [], J => .ok J
  | t :: ts, J => do
    let J' ← mergeC0ToJ e laStart (c0 t) (sched t) J
    formalSolJ e laStart c0 sched ts J'

/-- source/main.cpp:401-410 `copy_J_plane_to_host`: rows `0..waves-1` of `J` overwrite rows
`laStart..laStart+waves-1` of `J_cpu`. -/
def copyPlane (J Jcpu : Arr2 K) (laStart waves : Nat) : Outcome (Arr2 K) :=
  if waves ≤ J.rows ∧ laStart + waves ≤ Jcpu.rows ∧ J.cols ≤ Jcpu.cols then
    .ok { Jcpu with get := fun r k =>
      if laStart ≤ r ∧ r < laStart + waves ∧ k < J.cols then J.get (r - laStart) k else Jcpu.get r k }
  else .ub

/-- The loop over wavelength batches with `store_J_on_cpu` (source/main.cpp:1000-1013, 412-424): `J` is a
plane, cleared before and copied out after each batch. `sol la J` is the formal solution of the batch
starting at `la`. -/
def batchesCpu (sol : Nat → Arr2 K → Outcome (Arr2 K)) (waves : Nat → Nat) :
    List Nat → Arr2 K → Arr2 K → Outcome (Arr2 K × Arr2 K)
  | [], J, Jcpu => .ok (J, Jcpu)
  | la :: las, J, Jcpu => do
    let J' ← sol la J.zero
    let Jcpu' ← copyPlane J' Jcpu la (waves la)
    batchesCpu sol waves las J' Jcpu'

/-- The same loop with J kept on the device for all wavelengths. -/
def batchesDev (sol : Nat → Arr2 K → Outcome (Arr2 K)) : List Nat → Arr2 K → Outcome (Arr2 K)
  | [], J => .ok J
  | la :: las, J => do
    let J' ← sol la J
    batchesDev sol las J'

/-! ### 3D -/

/-- What `merge_c0_to_J_3d` reads besides the cascade. -/
structure MergeEnv3 where
  cfg : RcCfg3
  s : Casc3
  P : Probes3
  B : Nat
  bm : BlockMap Coord3

/-- source/DynamicFormalSolution3d.cpp:616-624. -/
structure JIter3 where
  k : Nat
  theta : Nat
  phi : Nat
deriving DecidableEq, Repr

/-- source/DynamicFormalSolution3d.cpp:630-636: `probe_coord(2) * num_probes(1) + probe_coord(1)` is
computed as `int` before the conversion to `i64`. -/
def MergeEnv3.ks (e : MergeEnv3) (c : Coord3) : Outcome Int :=
  if e.P.sparse then do
    let (a, _) ← (geo3 e.B).idx e.bm (geo3 e.B).fresh c
    .ok a
  else do
    let a ← mulI32 c.z e.P.np.y
    if fitsI32 (a + c.y) then .ok ((a + c.y) * e.P.np.x + c.x) else .ub

/-- source/RcUtilsModes3d.hpp:382-440 `probe_fetch` with a storage index. -/
def fetch3 (c0 : List K) (s : Casc3) (c : Coord3) (polar az : Nat) : Outcome K :=
  if 0 ≤ c.x ∧ 0 ≤ c.y ∧ 0 ≤ c.z then
    readAt c0 (az + s.az * (polar + s.polar * (c.x.toNat + s.np0 * (c.y.toNat + s.np1 * c.z.toNat))))
  else .ub

/-- source/DynamicFormalSolution3d.cpp:603-605: `1 / (num_az_rays * num_polar_rays)` of the whole ray set
of cascade 0. -/
def rayWeight3 (c : RcCfg3) (s : Casc3) : K :=
  1 / (((cascadeComputeSize3 c s 0).az * (cascadeComputeSize3 c s 0).polar : Nat) : K)

/-- source/DynamicFormalSolution3d.cpp:618-641: one iteration. `row` is `J_slice ? 0 : la`. -/
def jBody3 (e : MergeEnv3) (row : Nat) (c0 : List K) (i : JIter3) : Outcome (Int × Int × K) := do
  let c ← e.P.coord i.k
  let ks ← e.ks c
  let sample ← fetch3 c0 e.s c i.theta i.phi
  .ok ((row : Int), ks, rayWeight3 e.cfg e.s * sample)

/-- `FlatLoop<3>(num_active_probes, num_polar_rays, num_az_rays)`. -/
def jIters3 (n polar az : Nat) : List JIter3 :=
  (List.range n).flatMap fun k => (List.range polar).flatMap fun theta =>
    (List.range az).map fun phi => ⟨k, theta, phi⟩

/-- source/DynamicFormalSolution3d.cpp:599-643 `merge_c0_to_J_3d`. -/
def mergeC0ToJ3 (e : MergeEnv3) (la : Nat) (c0 : List K) (sched : List JIter3) (J : Arr2 K) : Outcome (Arr2 K) :=
  addAll (jBody3 e (if J.rows = 1 then 0 else la) c0) sched J

/-- One call per subset of directions, source/DynamicFormalSolution3d.cpp (subset loop). -/
def formalSolJ3 (e : MergeEnv3) (la : Nat) (c0 : Nat → List K) (sched : Nat → List JIter3) :
    List Nat → Arr2 K → Outcome (Arr2 K)
  | [], J => .ok J
  | t :: ts, J => do
    let J' ← mergeC0ToJ3 e la (c0 t) (sched t) J
    formalSolJ3 e la c0 sched ts J'

end DexRT
