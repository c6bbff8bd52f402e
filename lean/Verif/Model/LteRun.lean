import Verif.Model.GivenFs
import Verif.Model.Emis
import Verif.Model.PopsField
/-!
Model of a whole `Lte` run in 2D, with precomputed line data (`LineCoeffCalc::CoreAndVoigt`, the default): reading the
atmosphere and setting up (`init_atmos_atoms`, source/main.cpp:65-140), LTE populations (source/main.cpp:895), the neutral hydrogen density and the loop over
wavelength batches (source/main.cpp:1091-1113), and `dynamic_formal_sol_rc` (source/DynamicFormalSolution.cpp:407-513) with
`fill_mip0_atomic` (source/Mipmaps.cpp:34-133), the precomputed line data (source/CoreAndVoigtEmisOpac.cpp:50-150) and the
march that reads them (source/RayMarching.hpp:370-405, 495-552). Composed from the models of the parts.
Simplifications: exact real arithmetic; one rank; all probes computed (`sparse_calculation = false`, the default); no file
of initial populations; the march is a total function of the arrays as in the `GivenFs` run. Not included: levels of detail above 0 for this
mode (the criteria of source/Mipmaps.cpp:241-332 are then computed elsewhere), so `packLevels` is only right for runs whose
`mip_levels` are all 0 (the default); the theorems assume that.
-/
namespace DexRT.LteRun
open DexRT DexRT.Fs DexRT.AtmosFile DexRT.Dir DexRT.Given DexRT.Emis Classical

/-- What an `Lte` run depends on besides the atmosphere. -/
structure Lte where
  s : Settings
  k : Consts
  /-- `state.phi`, the Voigt function -/
  phi : ℝ → ℝ → ℝ
  /-- `state.adata` -/
  ad : AData
  /-- `state.have_h` -/
  haveH : Bool
  sahaConst : ℝ
  ionE : ℝ
  /-- `CORE_AND_VOIGT_MAX_LINES` -/
  maxLines : Nat
  /-- `threshold_temperature` -/
  cutoff : ℝ
  /-- the boundary condition (`sample_boundary`): wavelength, position, direction -/
  bc : ℤ → (Fin 3 → ℝ) → (Fin 3 → ℝ) → ℝ

/-- The arithmetic of the velocity test of the loader (source/Atmosphere.cpp), on real numbers; `lowest` is below every square. -/
noncomputable def realOps : FloatOps ℝ :=
  { add := (· + ·), mul := (· * ·), sqrt := Real.sqrt, gt := fun a b => decide (b < a), zero := 0, ten := 10, lowest := -1 }

/-- `state.adata` as `compute_lte_pops` sees it, source/Populations.cpp:8-65. -/
def fieldAtoms (ad : AData) : List PopsField.FieldAtom := ad.atoms.map fun a => ⟨a.abundance, a.top, a.lv⟩

/-- The orders of the kernels before the batches, and what the arrays held. -/
structure StartOrder where
  load : Sched Coord2
  junk : Atmos Int ℝ
  pops : List (Nat × Nat)
  nh0 : List Nat
  oldPops : Nat → ℝ
  oldNh0 : Nat → ℝ

/-- The state at the start of the batches. -/
structure Started where
  g : Given
  atmos : Atmos Int ℝ
  pops : PopsField.Pops
  nh0 : Nat → ℝ

/-- The fields of the atmosphere that the populations need. -/
def popAtmos (a : Atmos Int ℝ) : PopsField.Atmos :=
  { temperature := fun ks => a.temperature (ks : Nat), ne := fun ks => a.ne (ks : Nat), nhTot := fun ks => a.nhTot (ks : Nat) }

/-- source/main.cpp:65-140, 895, 1091-1092: everything before the batches. The number of rows of `pops` is
`adata.energy.extent(0)`. -/
noncomputable def start2 {W : Type} (r : Lte) (cv : W → ℝ) (f : NcFile Coord2 W) (o : StartOrder) : Outcome Started := do
  let m ← maxLevel r.s.levels r.s.num
  let (bm, a) ← load2 r.s.B realOps cv (fun x => decide (x = 0)) f r.cutoff o.load o.junk
  let lk ← MLLookup.init2 r.s.E bm.dims
  let off ← mipOffsets r.s.E r.s.B 2 bm.numActive m.toNat
  let atoms := fieldAtoms r.ad
  let p0 : PopsField.Pops := ⟨(atoms.map fun a => a.n + 1).sum, (numActiveCells ((r.s.B : Int) * (r.s.B : Int)) bm).toNat, o.oldPops⟩
  let p ← PopsField.computeLtePops r.k.kB r.k.dbc r.k.fmin atoms (popAtmos a) o.pops p0
  let h ← PopsField.computeNh0 r.sahaConst r.ionE r.haveH (popAtmos a) p o.nh0 o.oldNh0
  .ok { g := { nx := bm.bboxMax.x, nz := bm.bboxMax.z, nw := r.ad.wavelength.length, eta := fun _ _ => 0, chi := fun _ _ => 0,
               scale := a.voxelScale, bm := bm, lk := lk, off := off, maxMip := m.toNat },
        atmos := a, pops := p, nh0 := h }

/-- The orders in one batch: those of the formal solution (`b.copy w`: the cells of the kernel that fills emissivity and
opacity of wavelength `w`), of the kernels that copy the velocities and fill slot `krl`; what memory held; junk. -/
structure LteOrder where
  b : BatchOrder
  vel : List (Nat × Int)
  cav : Nat → List (Nat × Int)
  /-- `lte_scratch`, source/DynamicFormalSolution.cpp:409-412, by cell -/
  scratch : Nat → Emis.Pops
  oldBase : Nat → Int → EO
  oldVel : Int → ℝ × ℝ × ℝ
  oldCav : Nat → Int → Core

/-- A kernel over the cells of the map that writes one element per cell: source/Mipmaps.cpp:47-110, 112-126,
source/CoreAndVoigtEmisOpac.cpp:111-150 (`ks = loop_idx`, `loop_coord`). Simplification: arrays of the same shape that one
iteration writes together are one array of tuples. -/
def cellCol {V : Type} (s : Settings) (g : Given) (val : Nat → Outcome V) (sched : List (Nat × Int)) (old : Int → V) :
    Outcome (Int → V) :=
  writeLoop (fun p => do
    let ks := (geo2 s.B).loopIdx p.1 p.2
    let _ ← loopCoord2 s.B g.bm p.1 p.2
    if ¬ (0 ≤ ks ∧ ks < numActiveCells ((s.B : Int) * (s.B : Int)) g.bm) then .ub
    else do
      let v ← val ks.toNat
      .ok (ks, v)) sched old

/-- Every transition is between levels that its atom has (otherwise `pops` is read outside its rows of the atom,
source/EmisOpac.hpp:307-316). -/
def LevelsExist (ad : AData) : Prop :=
  (∀ l ∈ ad.lines, ∃ a, ad.atoms[l.atom]? = some a ∧ l.i < a.top + 1 ∧ l.j < a.top + 1) ∧
    ∀ c ∈ ad.conts, ∃ a, ad.atoms[c.atom]? = some a ∧ c.i < a.top + 1 ∧ c.j < a.top + 1

/-- `pops(level_start(ia) + l, ks)`. -/
def popsAt (ad : AData) (p : PopsField.Pops) (ks : Nat) : Emis.Pops := fun ia l =>
  p.mem (((((fieldAtoms ad).take ia).map fun a => a.n + 1).sum + l) * p.cols + ks)

/-- `AtmosPointParams` of a cell, source/Mipmaps.cpp:54-66, source/CoreAndVoigtEmisOpac.cpp:119-125: without velocity. -/
def pointAt (st : Started) (ks : Nat) : Point :=
  { temperature := st.atmos.temperature ks, ne := st.atmos.ne ks, vturb := st.atmos.vturb ks, nhtot := st.atmos.nhTot ks,
    vel := 0, nh0 := st.nh0 ks }

/-- source/Mipmaps.cpp:69-107 for one cell: the value of wavelength `w` of the batch of `wv` that starts at `la`. -/
noncomputable def baseVal (r : Lte) (st : Started) (o : LteOrder) (la wv w ks : Nat) : Outcome EO := do
  let res ← fillMip0 r.k r.phi r.ad (popsAt r.ad st.pops ks) (pointAt st ks) .Continua (fun _ => false) la (la + wv) (o.scratch ks)
  if LevelsExist r.ad then readAt res.1 w else .ub

/-- source/CoreAndVoigtEmisOpac.cpp:134-147 for one cell and slot `krl`. -/
noncomputable def coreVal (r : Lte) (st : Started) (mapping : List Int) (krl ks : Nat) : Outcome Core := do
  let kr ← readAt mapping krl
  let c ← coreAndVoigt r.k r.ad (popsAt r.ad st.pops ks) (pointAt st ks) kr.toNat
  if LevelsExist r.ad then .ok c else .ub

/-- Whether slot `krl` is filled: the loop ends at the first unused slot, source/CoreAndVoigtEmisOpac.cpp:134-137. -/
def filled (mapping : List Int) (krl : Nat) : Bool := (mapping.take (krl + 1)).all (fun m => decide (0 ≤ m))

/-- source/RayMarching.hpp:528-549: one slot of the active set; `lambda0s(krl)` is that of the line of the slot. -/
noncomputable def slotTerm (r : Lte) (mapping : List Int) (cav : Nat → Core) (lambda vel : ℝ) (krl : Nat) : Outcome EO := do
  let kr ← readAt mapping krl
  let l ← readAt r.ad.lines kr.toNat
  .ok (cavEmis r.k r.phi (cav krl) l.lambda0 lambda vel)

/-- Emissivity and opacity of a cell in the march, source/RayMarching.hpp:381-405, 511-552 (`1e-15` is added in `raymarch`),
from what it reads: the base value, the velocity and the slots. -/
noncomputable def sampleOf (r : Lte) (mapping : List Int) (l' : ℤ) (mu : Fin 3 → ℝ) (base : EO) (v : ℝ × ℝ × ℝ) (cav : Nat → Core) : Outcome EO := do
  let set ← localSet r.maxLines mapping (scan Line.isActive r.ad.lines l'.toNat)
  let lambda ← readAt r.ad.wavelength l'.toNat
  accum (slotTerm r mapping cav lambda (v.1 * mu 0 + v.2.1 * mu 1 + v.2.2 * mu 2)) set base

/-- The arrays of a batch. -/
structure Arrays where
  base : Nat → Int → EO
  vel : Int → ℝ × ℝ × ℝ
  mapping : List Int
  cav : Nat → Int → Core
  lk : MLLookup Coord2

/-- The same, with the arrays read at level `l` of cell `c`. -/
noncomputable def sampleMem (r : Lte) (g : Given) (o : LteOrder) (la : Nat) (A : Arrays) (l' : ℤ) (mu : Fin 3 → ℝ) (l : ℤ) (c : Fin 2 → ℤ) : EO :=
  let rd {V : Type} (junk : V) (m : Int → V) : V := readCell r.s g (mrOf r.s g A.lk) junk m l c
  match sampleOf r A.mapping l' mu (rd ⟨o.b.junk, o.b.junk⟩ (A.base (l' - la).toNat)) (rd (o.b.junk, o.b.junk, o.b.junk) A.vel)
    (fun krl => rd ⟨o.b.junk, o.b.junk, o.b.junk, o.b.junk⟩ (A.cav krl)) with
  | .ok e => e
  | _ => ⟨o.b.junk, o.b.junk⟩

/-- What the march of the batch that starts at `la` reads. -/
noncomputable def memWorld (r : Lte) (st : Started) (o : LteOrder) (la : Nat) (A : Arrays) : World .two :=
  { lvl := readLevel r.s (mrOf r.s st.g A.lk) o.b.junkLevel
    block := r.s.B
    max := ![st.g.nx, st.g.nz]
    mip := fun n => min (r.s.levels.getD n 0) st.g.maxMip
    extraSafe := r.s.extraSafe
    toInfty := r.s.toInfty
    scale := st.g.scale
    offset := ![st.atmos.offsetX, st.atmos.offsetY, st.atmos.offsetZ]
    eta := fun l' mu l c => (sampleMem r st.g o la A l' mu l c).eta
    chi := fun l' mu l c => (sampleMem r st.g o la A l' mu l c).chi
    bc := r.bc }

/-- source/Mipmaps.cpp:34-133 `fill_mip0_atomic` and `compute_mips`, source/DynamicFormalSolution.cpp:424-425. -/
noncomputable def arrays (r : Lte) (st : Started) (o : LteOrder) (la : Nat) : Outcome Arrays := do
  let s := r.s
  let g := st.g
  let wv := waves s g.nw.toNat la
  let base ← forAll (fun w => cellCol s g (baseVal r st o la wv w) (o.b.copy w) (o.oldBase w)) (o.oldBase 0) (List.range wv)
  let vel ← cellCol s g (fun ks => .ok (st.atmos.vx ks, st.atmos.vy ks, st.atmos.vz ks)) o.vel o.oldVel
  let mapping ← fillMapping2 r.maxLines ((List.range wv).map fun i => scan Line.isActive r.ad.lines (la + i))
  let cav ← forAll (fun krl => if filled mapping krl then cellCol s g (coreVal r st mapping krl) (o.cav krl) (o.oldCav krl)
    else .ok (o.oldCav krl)) (o.oldCav 0) (List.range r.maxLines)
  let lk ← packLevels s g o.b wv (fun w a => (base w a).eta) (fun w a => (base w a).chi)
  .ok ⟨base, vel, mapping, cav, lk⟩

/-- `dynamic_formal_sol_rc`, source/DynamicFormalSolution.cpp:407-513, with `lambda_iterate = true` (source/main.cpp:1109), for the batch starting at `la`. -/
noncomputable def batch2 (r : Lte) (st : Started) (o : LteOrder) (la : Nat) (J : Arr2 ℝ) : Outcome (Arr2 ℝ) := do
  let A ← arrays r st o la
  let Nx := st.g.nx.toNat
  let Nz := st.g.nz.toNat
  let e0 := envOf r.s Nx Nz (fun _ _ _ => ⟨0, 0, 0⟩)
  let e := envOf r.s Nx Nz (marchOf (memWorld r st o la A) e0 { len := r.s.len, muy := r.s.muy, laStart := la })
  let q ← formalSol2 e (mergeOf r.s st.g.bm Nx Nz) la true o.b.rc o.b.j (List.range (subsetTasks r.s.cfg)) o.b.mem J
  .ok q.2

/-- A whole run: the J that `save_results` has. `old` is what the host copy of J held. -/
noncomputable def runLte2 {W : Type} (r : Lte) (cv : W → ℝ) (f : NcFile Coord2 W) (o0 : StartOrder) (o : Nat → LteOrder)
    (old : Nat → Nat → ℝ) : Outcome (Arr2 ℝ) := do
  let st ← start2 r cv f o0
  let nw := st.g.nw.toNat
  let sol := fun la J => batch2 r st (o la) la J
  if r.s.onCpu then
    let q ← batchesCpu sol (waves r.s nw) (batchStarts r.s nw) ⟨r.s.W, jCols r.s st.g, fun _ _ => 0⟩ ⟨nw, jCols r.s st.g, old⟩
    .ok q.2
  else batchesDev sol (batchStarts r.s nw) ⟨nw, jCols r.s st.g, fun _ _ => 0⟩

end DexRT.LteRun
