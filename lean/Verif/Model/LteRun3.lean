import Verif.Model.GivenFs3
import Verif.Model.LteRun
/-!
Model of a whole `Lte` run in 3D (source/main_3d.cpp) with precomputed line data (`LINE_SCHEME_3D = CoreAndVoigt`, the default):
reading the atmosphere and setting up (`init_atmos_atoms`, source/main_3d.cpp:101-170; `allocate_J`, lines 30-53), LTE
populations and neutral hydrogen (lines 732, 818), the loop over wavelengths (lines 826-851), `dynamic_formal_sol_rc_3d`
(source/DynamicFormalSolution3d.cpp:849-893) with `fill_mip0_atomic` (source/Mipmaps3d.cpp:38-125), the precomputed line data
(source/CoreAndVoigtEmisOpac.cpp:330-403) and the march that reads them (source/DynamicFormalSolution3d.cpp:70-102, 321-447).
Composed from the models of the parts.
Simplifications: exact real arithmetic; one rank; all probes computed (`sparse_calculation = false`, the default); `mip_levels`
all 0 (the default); no charge conservation, no file of initial populations, no restart (C72, C73 treat those); `max_iter > 0`
(C73). `Gamma`, `wphi` are computed but not used in this mode and left out. The march is a total function of the arrays as in the
`GivenFs` run. Kernels without velocity arrays (`vx` not initialised, `GivenFs`) do not occur here.
-/
namespace DexRT.Lte3
open DexRT DexRT.Fs DexRT.AtmosFile DexRT.Dir DexRT.Given3 DexRT.Emis Classical

/-- What a 3D `Lte` run depends on besides the atmosphere. -/
structure Run where
  s : Settings
  k : Consts
  /-- `state.phi`, the Voigt function -/
  phi : ℝ → ℝ → ℝ
  /-- `state.adata` -/
  ad : AData
  /-- `state.have_h` -/
  haveH : Bool
  sahaConst : ℝ
  ionE : ℝ
  /-- `CORE_AND_VOIGT_MAX_LINES_3D` -/
  maxLines : Nat
  /-- `threshold_temperature` -/
  cutoff : ℝ
  /-- the boundary condition (`sample_boundary`): wavelength, position, direction -/
  bc : ℤ → (Fin 3 → ℝ) → (Fin 3 → ℝ) → ℝ
  /-- `EXTRA_SAFE_SOURCE_FN` -/
  extraSafe : Bool
  /-- `LAST_CASCADE_TO_INFTY_3D` -/
  toInfty : Bool
  /-- `0 < initial_lambda_iterations`: source/main_3d.cpp:841 -/
  lam : Bool
  /-- `store_J_on_cpu` -/
  onCpu : Bool

/-- The orders of the kernels before the wavelengths, and what the arrays held. -/
structure StartOrder where
  load : Sched Coord3
  junk : Atmos Int ℝ
  pops : List (Nat × Nat)
  nh0 : List Nat
  oldPops : Nat → ℝ
  oldNh0 : Nat → ℝ

/-- The state at the start of the formal solution. -/
structure Started where
  g : Given
  atmos : Atmos Int ℝ
  pops : PopsField.Pops
  nh0 : Nat → ℝ

/-- source/main_3d.cpp:124-143, 732, 818: everything before the wavelengths (`mr_block_map.init_and_sparsify_atmos`,
`compute_lte_pops`, `compute_nh0`). -/
noncomputable def start3 {W : Type} (r : Run) (cv : W → ℝ) (f : NcFile Coord3 W) (o : StartOrder) : Outcome Started := do
  let (bm, a) ← load3 r.s.B LteRun.realOps cv (fun x => decide (x = 0)) f r.cutoff o.load o.junk
  let lk ← MLLookup.init3 r.s.E bm.dims
  let off ← mipOffsets r.s.E r.s.B 3 bm.numActive 0
  let atoms := LteRun.fieldAtoms r.ad
  let p0 : PopsField.Pops := ⟨(atoms.map fun a => a.n + 1).sum,
    (numActiveCells ((r.s.B : Int) * (r.s.B : Int) * (r.s.B : Int)) bm).toNat, o.oldPops⟩
  let p ← PopsField.computeLtePops r.k.kB r.k.dbc r.k.fmin atoms (LteRun.popAtmos a) o.pops p0
  let h ← PopsField.computeNh0 r.sahaConst r.ionE r.haveH (LteRun.popAtmos a) p o.nh0 o.oldNh0
  .ok { g := { nx := bm.bboxMax.x, ny := bm.bboxMax.y, nz := bm.bboxMax.z, nw := r.ad.wavelength.length, eta := fun _ _ => 0,
               chi := fun _ _ => 0, scale := a.voxelScale, bm := bm, lk := lk, off := off },
        atmos := a, pops := p, nh0 := h }

/-- The orders at one wavelength: those of the formal solution (`b.copy`: the cells of the kernel that fills emissivity and
opacity), of the kernels that copy the velocities and fill slot `krl`; what memory held; junk. -/
structure LaOrder where
  b : WaveOrder
  vel : List (Nat × Int)
  cav : Nat → List (Nat × Int)
  /-- `lte_scratch`, source/DynamicFormalSolution3d.cpp:854-855, by cell -/
  scratch : Nat → Emis.Pops
  oldBase : Int → EO
  oldVel : Int → ℝ × ℝ × ℝ
  oldCav : Nat → Int → Core

/-- A kernel over the cells of the map that writes one element per cell: source/Mipmaps3d.cpp:49-103, 107-119,
source/CoreAndVoigtEmisOpac.cpp:365-402 (`ks = loop_idx`, `loop_coord`). Simplification: arrays of the same shape that one
iteration writes together are one array of tuples. -/
def cellCol {V : Type} (s : Settings) (g : Given) (val : Nat → Outcome V) (sched : List (Nat × Int)) (old : Int → V) :
    Outcome (Int → V) :=
  writeLoop (fun p => do
    let ks := (geo3 s.B).loopIdx p.1 p.2
    let _ ← loopCoord3 s.B g.bm p.1 p.2
    if ¬ (0 ≤ ks ∧ ks < numActiveCells ((s.B : Int) * (s.B : Int) * (s.B : Int)) g.bm) then .ub
    else do
      let v ← val ks.toNat
      .ok (ks, v)) sched old

/-- `AtmosPointParams` of a cell, source/Mipmaps3d.cpp:57-62, source/CoreAndVoigtEmisOpac.cpp:372-378: without velocity. -/
def pointAt (st : Started) (ks : Nat) : Point :=
  { temperature := st.atmos.temperature ks, ne := st.atmos.ne ks, vturb := st.atmos.vturb ks, nhtot := st.atmos.nhTot ks,
    vel := 0, nh0 := st.nh0 ks }

/-- source/Mipmaps3d.cpp:68-102 for one cell, with `BASE_MIP_CONTAINS_3D = Continua` (source/Config.hpp:71, CoreAndVoigt). -/
noncomputable def baseVal (r : Run) (st : Started) (o : LaOrder) (la ks : Nat) : Outcome EO := do
  let res ← emisOpac r.k r.phi r.ad la (LteRun.popsAt r.ad st.pops ks) (o.scratch ks) (pointAt st ks)
    (some (scan Line.isActive r.ad.lines la)) (some (scan Cont.isActive r.ad.conts la)) true .StaticOnly
  if LteRun.LevelsExist r.ad then .ok res.1 else .ub

/-- source/CoreAndVoigtEmisOpac.cpp:386-399 for one cell and slot `krl`. -/
noncomputable def coreVal (r : Run) (st : Started) (mapping : List Int) (krl ks : Nat) : Outcome Core := do
  let kr ← readAt mapping krl
  let c ← coreAndVoigt r.k r.ad (LteRun.popsAt r.ad st.pops ks) (pointAt st ks) kr.toNat
  if LteRun.LevelsExist r.ad then .ok c else .ub

/-- source/DynamicFormalSolution3d.cpp:404-421: one slot of the active set; `lambda0s(krl)` is that of the line of the slot. -/
noncomputable def slotTerm (r : Run) (mapping : List Int) (cav : Nat → Core) (lambda vel : ℝ) (krl : Nat) : Outcome EO := do
  let kr ← readAt mapping krl
  let l ← readAt r.ad.lines kr.toNat
  .ok (cavEmis r.k r.phi (cav krl) l.lambda0 lambda vel)

/-- Emissivity and opacity of a cell in the march, source/DynamicFormalSolution3d.cpp:84-98, 388-421 (`1e-15` is added in
`raymarch`), from what it reads: the base value, the velocity and the slots. -/
noncomputable def sampleOf (r : Run) (mapping : List Int) (la : ℤ) (mu : Fin 3 → ℝ) (base : EO) (v : ℝ × ℝ × ℝ) (cav : Nat → Core) : Outcome EO := do
  let set ← localSet r.maxLines mapping (scan Line.isActive r.ad.lines la.toNat)
  let lambda ← readAt r.ad.wavelength la.toNat
  accum (slotTerm r mapping cav lambda (v.1 * mu 0 + v.2.1 * mu 1 + v.2.2 * mu 2)) set base

/-- The arrays at one wavelength. -/
structure Arrays where
  base : Int → EO
  vel : Int → ℝ × ℝ × ℝ
  mapping : List Int
  cav : Nat → Int → Core
  lk : MLLookup Coord3

/-- The same, with the arrays read at level `l` of cell `c`. -/
noncomputable def sampleMem (r : Run) (g : Given) (o : LaOrder) (A : Arrays) (la : ℤ) (mu : Fin 3 → ℝ) (l : ℤ) (c : Fin 3 → ℤ) : EO :=
  let rd {V : Type} (junk : V) (m : Int → V) : V := readCell r.s g (mrOf r.s g A.lk) junk m l c
  match sampleOf r A.mapping la mu (rd ⟨o.b.junk, o.b.junk⟩ A.base) (rd (o.b.junk, o.b.junk, o.b.junk) A.vel)
    (fun krl => rd ⟨o.b.junk, o.b.junk, o.b.junk, o.b.junk⟩ (A.cav krl)) with
  | .ok e => e
  | _ => ⟨o.b.junk, o.b.junk⟩

/-- What the march reads: source/DynamicFormalSolution3d.cpp:645-741. -/
noncomputable def memWorld (r : Run) (st : Started) (o : LaOrder) (A : Arrays) : World .three :=
  { lvl := readLevel r.s (mrOf r.s st.g A.lk) o.b.junkLevel
    block := r.s.B
    max := ![st.g.nx, st.g.ny, st.g.nz]
    mip := fun _ => 0
    extraSafe := r.extraSafe
    toInfty := r.toInfty
    scale := st.g.scale
    offset := ![st.atmos.offsetX, st.atmos.offsetY, st.atmos.offsetZ]
    eta := fun la mu l c => (sampleMem r st.g o A la mu l c).eta
    chi := fun la mu l c => (sampleMem r st.g o A la mu l c).chi
    bc := r.bc }

/-- source/Mipmaps3d.cpp:38-125 `fill_mip0_atomic` and `compute_mips`, source/DynamicFormalSolution3d.cpp:857-858. The loop that
fills the slots ends at the first unused one (source/CoreAndVoigtEmisOpac.cpp:386-389). -/
noncomputable def arrays (r : Run) (st : Started) (o : LaOrder) (la : Nat) : Outcome Arrays := do
  let s := r.s
  let g := st.g
  let base ← cellCol s g (baseVal r st o la) o.b.copy o.oldBase
  let vel ← cellCol s g (fun ks => .ok (st.atmos.vx ks, st.atmos.vy ks, st.atmos.vz ks)) o.vel o.oldVel
  let mapping ← fillMapping3 r.maxLines (scan Line.isActive r.ad.lines la)
  let cav ← Given.forAll (fun krl => if LteRun.filled mapping krl then cellCol s g (coreVal r st mapping krl) (o.cav krl) (o.oldCav krl)
    else .ok (o.oldCav krl)) (o.oldCav 0) (List.range r.maxLines)
  let lk ← packTiles s g o.b.tiles
  .ok ⟨base, vel, mapping, cav, lk⟩

/-- The result of a march as a function. -/
noncomputable def marchOf (w : World .three) (e : Env3 ℝ) (l : LenCfg3) (la : ℤ) : Bool → Nat → ProbeIdx3 → Seg ℝ :=
  haveI : Nonempty (Seg ℝ) := ⟨⟨0, 0, 0⟩⟩
  fun bc n p => Classical.epsilon (MarchRay3 w e l la bc n p)

/-- What `merge_c0_to_J_3d` reads: source/DynamicFormalSolution3d.cpp:599-615; all probes are computed. -/
def mergeEnv (s : Settings) (bm : BlockMap Coord3) (Nx Ny Nz : Nat) : MergeEnv3 :=
  { cfg := s.cfg, s := c0Of s Nx Ny Nz, B := s.B, bm := bm,
    P := { sparse := false, np := probeDims3 s.cfg.branch (c0Of s Nx Ny Nz) 0, active := [] } }

/-- `dynamic_formal_sol_rc_3d`, source/DynamicFormalSolution3d.cpp:849-893, at wavelength `la`. -/
noncomputable def wave3 (r : Run) (st : Started) (o : LaOrder) (la : Nat) (J : Arr2 ℝ) : Outcome (Arr2 ℝ) := do
  let A ← arrays r st o la
  let Nx := st.g.nx.toNat
  let Ny := st.g.ny.toNat
  let Nz := st.g.nz.toNat
  let e0 := envOf r.s Nx Ny Nz (fun _ _ _ => ⟨0, 0, 0⟩)
  let e := envOf r.s Nx Ny Nz (marchOf (memWorld r st o A) e0 r.s.len la)
  let q ← formalSol3 e (mergeEnv r.s st.g.bm Nx Ny Nz) la r.lam o.b.rc o.b.j (List.range (subsetTasks3 r.s.cfg)) o.b.mem J
  .ok q.2

/-- A whole run: the J that `save_results` has. `old` is what the host copy of J held (it is cleared: source/main_3d.cpp:829-831).
Batches of one wavelength, in order (C22). -/
noncomputable def runLte3 {W : Type} (r : Run) (cv : W → ℝ) (f : NcFile Coord3 W) (o0 : StartOrder) (o : Nat → LaOrder) : Outcome (Arr2 ℝ) := do
  let st ← start3 r cv f o0
  let nw := st.g.nw.toNat
  let sol := fun la J => wave3 r st (o la) la J
  if r.onCpu then
    let q ← batchesCpu sol (fun la => min 1 (nw - la)) (List.range nw) ⟨1, Given3.jCols r.s st.g, fun _ _ => 0⟩
      ⟨nw, Given3.jCols r.s st.g, fun _ _ => 0⟩
    .ok q.2
  else batchesDev sol (List.range nw) ⟨nw, Given3.jCols r.s st.g, fun _ _ => 0⟩

end DexRT.Lte3
