import Verif.Model.World
import Verif.Model.Mipmap
import Verif.Model.AtmosFile
import Verif.Model.Loops
/-!
Model of a whole `GivenFs` run in 3D: `init_given_emis_opac` (source/main_3d.cpp:54-102), `allocate_J`
(source/main_3d.cpp:30-53) and `static_formal_sol_rc_given_3d` (source/StaticFormalSolution3d.cpp:332-470) with its march
(lines 16-58), its merge of cascades (60-103), its merge to J (179-216) and the lookup that `compute_mips` fills
(source/Mipmaps3d.cpp:148-183).
Simplifications: exact real arithmetic; `mip_levels` all 0 (the default: the coarser levels are C34, C35), so `compute_mips`
only marks the tiles; HEALPix directions (the default). As in 2D the march is a total function of the arrays: where it would
read outside an array the value is `junk`, which the theorems quantify over.
-/
namespace DexRT.Given3
open DexRT DexRT.Fs DexRT.AtmosFile DexRT.Dir Classical

/-- The settings that a 3D `GivenFs` run depends on. -/
structure Settings where
  /-- `ENTRY_SIZE_3D` -/
  E : Nat
  /-- `BLOCK_SIZE_3D` -/
  B : Nat
  cfg : RcCfg3
  len : LenCfg3
  /-- `max_cascade` -/
  num : Nat
  /-- `PINGPONG_BUFFERS` (the 2D constant, which `cascade_indices` uses) -/
  pp : Bool

/-- What `init_given_emis_opac` leaves in the state. -/
structure Given where
  nx : Int
  ny : Int
  nz : Int
  nw : Int
  /-- `given_state.emis(la, z, y, x)` -/
  eta : Coord3 → Int → ℝ
  /-- `given_state.opac(la, z, y, x)` -/
  chi : Coord3 → Int → ℝ
  scale : ℝ
  bm : BlockMap Coord3
  lk : MLLookup Coord3
  off : Nat → Int

/-- source/main_3d.cpp:54-102 `init_given_emis_opac`: `cv` is the conversion of the numbers of the file. -/
def initGiven3 {W : Type} (s : Settings) (cv : W → ℝ) (f : NcFile (Coord3 × Int) W) : Outcome Given := do
  let x ← need (f.dim "x")
  let y ← need (f.dim "y")
  let z ← need (f.dim "z")
  let nw ← need (f.dim "wavelength")
  let eta ← need (f.grid "eta")
  let chi ← need (f.grid "chi")
  let scale := ((f.scalar "voxel_scale").map cv).getD 1
  let bm ← setupDense3 s.B x y z
  let lk ← MLLookup.init3 s.E bm.dims
  let off ← mipOffsets s.E s.B 3 bm.numActive 0
  .ok { nx := x, ny := y, nz := z, nw := nw, eta := fun c la => cv (eta (c, la)), chi := fun c la => cv (chi (c, la)),
        scale := scale, bm := bm, lk := lk, off := off }

/-- The orders in which the kernels of one wavelength run, what the arrays held before, and `junk`. -/
structure WaveOrder where
  /-- "Copy eta, chi", source/StaticFormalSolution3d.cpp:350-360 -/
  copy : List (Nat × Int)
  /-- "Set active blocks in mr_block_map", source/Mipmaps3d.cpp:172-182 -/
  tiles : List Nat
  /-- "RC Loop 3D", by subset and cascade -/
  rc : Nat → Task → List JIter3
  /-- the merge to J, by subset -/
  j : Nat → List JIter3
  oldEmis : Int → ℝ
  oldOpac : Int → ℝ
  mem : Mem ℝ
  junk : ℝ
  junkLevel : ℤ

/-- The multi-resolution map: source/BlockMap.hpp:395-445. -/
def mrOf (s : Settings) (g : Given) (lk : MLLookup Coord3) : MRMap Coord3 :=
  { bm := g.bm, off := g.off, maxStore := 2 ^ s.E - 1, get := fun t => lk.get s.E (lk.flat3 t) }

/-- Length of the arrays of the mip chain. -/
def bufLen (s : Settings) (g : Given) : Int := mipBufferLen s.B 3 g.bm.numActive g.off 0

/-- source/StaticFormalSolution3d.cpp:350-360, one of the two arrays. -/
def copyWave (s : Settings) (g : Given) (src : Coord3 → Int → ℝ) (la : Nat) (sched : List (Nat × Int)) (old : Int → ℝ) :
    Outcome (Int → ℝ) :=
  if (la : Int) < g.nw then
    sparsifyField3 s.B g.bm { x := g.nx, y := g.ny, z := g.nz } (fun c => src c la) sched old
  else .ub

/-- source/Mipmaps3d.cpp:159, 169-182, 420: every active tile has entry 1. -/
def packTiles (s : Settings) (g : Given) (sched : List Nat) : Outcome (MLLookup Coord3) := do
  let n := g.bm.dims.x * g.bm.dims.y * g.bm.dims.z
  let arr ← writeLoop (fun i => do
      let m ← readAt g.bm.activeTiles i
      let key := g.lk.flat3 (decodeMorton3 m)
      if 0 ≤ key ∧ key < n then .ok (key, 1) else .ub) sched (fun _ => (0 : Int))
  .ok (g.lk.pack s.E ((List.range n.toNat).map fun j : Nat => arr (j : Int)))

/-- Reading an array of the mip chain in the march, source/StaticFormalSolution3d.cpp:40-46. -/
noncomputable def readCell {V : Type} (s : Settings) (g : Given) (mr : MRMap Coord3) (junk : V) (m : Int → V) (l : ℤ) (c : Fin 3 → ℤ) : V :=
  match (mgeo3 s.B).idx mr (mgeo3 s.B).fresh l.toNat { x := c 0, y := c 1, z := c 2 } with
  | .ok (a, _) => if 0 ≤ a ∧ a < bufLen s g then m a else junk
  | _ => junk

/-- `get_sample_level` in the march; coordinates are `i32`. -/
noncomputable def readLevel (s : Settings) (mr : MRMap Coord3) (junk : ℤ) (c : Fin 3 → ℤ) : ℤ :=
  if fitsI32 (c 0) ∧ fitsI32 (c 1) ∧ fitsI32 (c 2) then
    match (mgeo3 s.B).sampleLevel mr (mgeo3 s.B).fresh { x := c 0, y := c 1, z := c 2 } with
    | .ok (v, _) => v
    | _ => junk
  else -1

/-- source/StaticFormalSolution3d.cpp:38-54: the body of the `do` loop on `(result.I, result.tau)`. -/
noncomputable def staticStep (scale : ℝ) (r : ℝ × ℝ) (st : Step) : ℝ × ℝ :=
  if st.sample then
    let chi := st.chi + 1e-15
    let tau := chi * st.dt * scale
    (r.1 * Real.exp (-tau) + st.eta / chi * -(Real.exp (-tau) - 1), r.2 + tau)
  else r

/-- What the march of a ray reads. -/
structure StaticArgs where
  seg : RaySeg 3
  env : DdaEnv .three
  eta : ℤ → (Fin 3 → ℤ) → ℝ
  chi : ℤ → (Fin 3 → ℤ) → ℝ
  scale : ℝ

/-- The values of the cell of a state of the traversal (`can_sample`, the two arrays, `dt`). -/
noncomputable def StaticArgs.stepOf (a : StaticArgs) (v : Dda .three) : Step :=
  { sample := decide (0 ≤ v.mip), eta := a.eta v.mip v.coord, chi := a.chi v.mip v.coord, dt := v.dt }

/-- source/StaticFormalSolution3d.cpp:16-58 `multi_level_dda_raymarch_3d`: `(I, tau)`; a ray that misses the grid returns a
default `RadianceInterval`; there is no boundary condition. `none` if the loop has not ended after `fuel` steps. -/
noncomputable def staticMarch (a : StaticArgs) (fuel : ℕ) : Option (ℝ × ℝ) :=
  match ddaStart a.env a.seg with
  | none => some (0, 0)
  | some (r, v) => (visitsEnd a.env r fuel v).map fun l => ((loopStates l).map a.stepOf).foldl (staticStep a.scale) (0, 0)

/-- What marching a ray of direction index `az` of the probe `p` of cascade `n` gives: source/StaticFormalSolution3d.cpp:422-433.
The interval has no `psi_star` (`RadianceInterval<DexEmpty>`), here 0. -/
def StaticRay (args : Nat → ProbeIdx3 → StaticArgs) (n : Nat) (p : ProbeIdx3) (sg : Seg ℝ) : Prop :=
  ∃ fuel r, staticMarch (args n p) fuel = some r ∧ sg = ⟨r.1, Real.exp (-r.2), 0⟩

/-- The result of a march as a function (the kernel has no boundary: the first argument is not used). -/
noncomputable def marchOf (args : Nat → ProbeIdx3 → StaticArgs) : Bool → Nat → ProbeIdx3 → Seg ℝ :=
  haveI : Nonempty (Seg ℝ) := ⟨⟨0, 0, 0⟩⟩
  fun _ n p => Classical.epsilon (StaticRay args n p)

/-- `c0_size`: source/main_3d.cpp:93-99, 184. -/
def c0Of (s : Settings) (Nx Ny Nz : Nat) : Casc3 := raysToStorage3 s.cfg ⟨Nx, Ny, Nz, s.cfg.c0az, s.cfg.c0polar⟩

/-- The arguments of the march of the ray of probe `p` of cascade `n` at one wavelength: source/StaticFormalSolution3d.cpp:383-386,
422-433 (`max_mip_to_sample` is 0); `emis`, `opac`, `lk` are the arrays. -/
noncomputable def memArgs (s : Settings) (g : Given) (lk : MLLookup Coord3) (o : WaveOrder) (emis opac : Int → ℝ) (Nx Ny Nz : Nat)
    (n : Nat) (p : ProbeIdx3) : StaticArgs :=
  { seg := probeRay3 s.len s.num n (cascadeComputeSize3 s.cfg (c0Of s Nx Ny Nz) n).az p.u p.v p.w p.az
    env := { lvl := readLevel s (mrOf s g lk) o.junkLevel, maxMip := 0, block := s.B, max := ![g.nx, g.ny, g.nz] }
    eta := readCell s g (mrOf s g lk) o.junk emis
    chi := readCell s g (mrOf s g lk) o.junk opac
    scale := g.scale }

/-- `FlatLoop<3>(num_probes(2), num_probes(1), num_probes(0)).unpack(k)` reversed: source/StaticFormalSolution3d.cpp:191-202,
405-415. -/
def probeCoord (c : Casc3) (k : Nat) : Outcome Coord3 := do
  let r ← unpack [(c.np2 : Int), c.np1, c.np0] k
  match r with
  | [z, y, x] => .ok { x := x, y := y, z := z }
  | _ => .ub

/-- The cascades of a run on `Nx` by `Ny` by `Nz` cells. `probes` is not used by the kernels of this file. -/
def envOf (s : Settings) (Nx Ny Nz : Nat) (march : Bool → Nat → ProbeIdx3 → Seg ℝ) : Env3 ℝ :=
  { cfg := s.cfg, c0 := c0Of s Nx Ny Nz, num := s.num, pp := s.pp,
    probes := fun n => { sparse := false, np := probeDims3 s.cfg.branch (c0Of s Nx Ny Nz) n, active := [] }, march := march }

/-- One iteration of the "RC Loop 3D": source/StaticFormalSolution3d.cpp:408-452. `march_and_merge_average_interval_3d` (lines
60-103) is the same text as that of DynamicFormalSolution3d.cpp:466-515 without `psi_star`. -/
noncomputable def body (e : Env3 ℝ) (n t : Nat) (ip : Option Nat) (bufs : List (List ℝ)) (it : JIter3) : Outcome (Nat × ℝ × ℝ) := do
  let rays := cascadeComputeSize3 e.cfg e.c0 n
  let c ← probeCoord rays it.k
  if 0 ≤ c.x ∧ 0 ≤ c.y ∧ 0 ≤ c.z then do
    let sub := nthRaysSubset3 e.cfg rays t
    let upper ← readUpper bufs ip
    let probe : ProbeIdx3 := { u := c.x.toNat, v := c.y.toNat, w := c.z.toNat,
                               polar := it.theta + sub.startPolar, az := it.phi + sub.startAz }
    let r ← marchMerge3 e false n upper probe
    .ok (probeLinearIndex3 e.cfg (cascadeSize3 e.cfg.branch e.c0 n) probe, r.1, r.2)
  else .ub

/-- The kernel of one cascade, source/StaticFormalSolution3d.cpp:369-458. -/
noncomputable def call (e : Env3 ℝ) (t : Nat) (sched : Task → List JIter3) (k : Task) (m : Mem ℝ) : Outcome (Mem ℝ) :=
  let io := cascadeIndices e.pp e.num k.n
  rcLoop (fun bufs it => body e k.n t io.2 bufs it) io.1 k.alo (sched k) m

/-- `for (int casc_idx = num_cascades; casc_idx >= 0; --casc_idx)`: source/StaticFormalSolution3d.cpp:368. -/
def tasks (num : Nat) : List Task := (List.range (num + 1)).reverse.map fun k => { n := k, bc := false, alo := false }

/-- One iteration of `merge_c0_to_J_3d`, source/StaticFormalSolution3d.cpp:196-213, with the default weight. -/
noncomputable def jBody (e : Env3 ℝ) (la : Nat) (c0 : List ℝ) (i : JIter3) : Outcome (Int × Int × ℝ) := do
  let c ← probeCoord (cascadeComputeSize3 e.cfg e.c0 0) i.k
  let sample ← fetch3 c0 e.c0 c i.theta i.phi
  .ok ((la : Int), (i.k : Int), rayWeight3 e.cfg e.c0 * sample)

/-- source/StaticFormalSolution3d.cpp:363-468: the subsets of one wavelength. -/
noncomputable def subsets (e : Env3 ℝ) (la : Nat) (rc : Nat → Task → List JIter3) (j : Nat → List JIter3) :
    List Nat → Mem ℝ → Arr2 ℝ → Outcome (Mem ℝ × Arr2 ℝ) :=
  passesJ (fun t m => runTasks (call e t (rc t)) (tasks e.num) m) (fun t c0 J => addAll (jBody e la c0) (j t) J)

/-- source/StaticFormalSolution3d.cpp:349-469: one wavelength. -/
noncomputable def wave3 (s : Settings) (g : Given) (o : WaveOrder) (la : Nat) (J : Arr2 ℝ) : Outcome (Arr2 ℝ) := do
  let emis ← copyWave s g g.eta la o.copy o.oldEmis
  let opac ← copyWave s g g.chi la o.copy o.oldOpac
  let lk ← packTiles s g o.tiles
  let Nx := g.nx.toNat
  let Ny := g.ny.toNat
  let Nz := g.nz.toNat
  let e := envOf s Nx Ny Nz (marchOf (memArgs s g lk o emis opac Nx Ny Nz))
  let r ← subsets e la o.rc o.j (List.range (subsetTasks3 s.cfg)) o.mem J
  .ok r.2

/-- source/main_3d.cpp:30-53 `allocate_J`: number of columns. -/
def jCols (s : Settings) (g : Given) : Nat :=
  (g.bm.dims.x * g.bm.dims.y * g.bm.dims.z * ((s.B : Int) * (s.B : Int) * (s.B : Int))).toNat

/-- The loop over wavelengths, source/StaticFormalSolution3d.cpp:349. -/
noncomputable def wavesLoop (s : Settings) (g : Given) (o : Nat → WaveOrder) : List Nat → Arr2 ℝ → Outcome (Arr2 ℝ)
  | [], J => .ok J
  | la :: ls, J => do
    let J' ← wave3 s g (o la) la J
    wavesLoop s g o ls J'

/-- A whole run up to `save_results`: source/main_3d.cpp:54-102, 30-53, 726. `o la` are the orders at wavelength `la`. -/
noncomputable def run3 {W : Type} (s : Settings) (cv : W → ℝ) (f : NcFile (Coord3 × Int) W) (o : Nat → WaveOrder) : Outcome (Arr2 ℝ) := do
  let g ← initGiven3 s cv f
  let nw := g.nw.toNat
  wavesLoop s g o (List.range nw) ⟨nw, jCols s g, fun _ _ => 0⟩

end DexRT.Given3
