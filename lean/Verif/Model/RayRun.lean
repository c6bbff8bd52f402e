import Verif.Model.Ray
import Verif.Model.LteRun
/-!
Model of a whole run of `dexrt_ray` in 2D, source/dexrt_ray.cpp: the configuration (94-189), reading the atmosphere and the
output of the model run (191-306, 877-886), and per view the ray set (308-492), emissivity and opacity per wavelength and
the tracing of the rays (508-752), and what is written (755-833, 898-947). Composed from the models of the parts.
Simplifications: exact real arithmetic; `load_bc` is a given table per wavelength (C59); depth-resolved outputs
(`output_cfn`, `output_eta_chi`) are left out here (C67); the program's own options, attributes of the output and progress
bars are left out. As in the other runs, a lookup in the march that fails gives `junk`, which the theorems quantify over.
-/
namespace DexRT.RayRun
open DexRT DexRT.AtmosFile DexRT.Emis DexRT.Ray Classical

/-- What the tool depends on besides the files: compile-time settings, atomic data, constants, boundary tables. -/
structure Tool where
  /-- `BLOCK_SIZE` -/
  B : Nat
  /-- `ENTRY_SIZE` -/
  E : Nat
  k : Consts
  /-- `state.phi`, the Voigt function -/
  phi : ℝ → ℝ → ℝ
  /-- `state.adata` -/
  ad : AData
  /-- `adata.Z(0) == 1` -/
  haveH : Bool
  sahaConst : ℝ
  ionE : ℝ
  /-- `threshold_temperature` of the model run -/
  cutoff : ℝ
  /-- the boundary table of each wavelength -/
  bc : Nat → Boundary.PwBc

/-- A number of the configuration: its value, and its sign bit if it is zero. -/
structure Num where
  v : ℝ
  neg : Bool

/-- The keys of the configuration file that matter, source/dexrt_ray.cpp:94-160; a single number is a list of one. `none`:
the key is absent. `givenFs`, `promweaver`: mode and boundary of the model run. -/
structure RayCfg where
  mux : Option (List Num)
  muz : Option (List Num)
  wavelength : Option (List ℝ)
  rotate : Bool
  givenFs : Bool
  promweaver : Bool

/-- source/dexrt_ray.cpp:130-159. -/
def views (c : RayCfg) : Outcome (List (Num × Num)) := do
  let mz ← need c.muz
  let mx ← need c.mux
  if mz.length ≠ mx.length ∨ mz.length = 0 then .throws else .ok (mx.zip mz)

/-- A variable of a NetCDF file: extents and values. -/
structure Var where
  dims : List Nat
  val : List Nat → ℝ

/-- The output file of the model run: the attribute `output_format` and the variables. -/
structure OutFile where
  format : Option String
  var : String → Option Var

/-- `nc.read(arr, name)`: throws if there is no such variable or its rank is not that of the array. -/
def readVar (f : OutFile) (name : String) (rank : Nat) : Outcome Var := do
  let v ← need (f.var name)
  if v.dims.length = rank then .ok v else .throws

/-- Element of an array; outside is UB. -/
noncomputable def Var.get (v : Var) (i : List Nat) : Outcome ℝ :=
  if i.length = v.dims.length ∧ ∀ n, i.getD n 0 < v.dims.getD n 0 ∨ v.dims.length ≤ n then .ok (v.val i) else .ub

/-- source/dexrt_ray.cpp:176-189 `load_wavelength_if_missing`. -/
def wavelengths (c : RayCfg) (f : OutFile) : Outcome (List ℝ) :=
  if (c.wavelength.getD []).length = 0 then do
    let v ← readVar f "wavelength" 1
    .ok ((List.range (v.dims.getD 0 0)).map fun la : Nat => v.val [la])
  else .ok (c.wavelength.getD [])

/-- source/dexrt_ray.cpp:191-211 `dex_data_is_sparse`. -/
def isSparse (f : OutFile) : Bool := decide (f.format = some "sparse")

/-- A kernel over the cells of the map that writes one element per cell: source/dexrt_ray.cpp:247-258, 283-292, 519-566.
Arrays of the same shape that one iteration writes together are one array of tuples. -/
def cells2 {V : Type} (B : Nat) (bm : BlockMap Coord2) (val : Coord2 → Nat → Outcome V) (sched : List (Nat × Int)) (old : Int → V) :
    Outcome (Int → V) :=
  writeLoop (fun p => do
    let ks := (geo2 B).loopIdx p.1 p.2
    let c ← loopCoord2 B bm p.1 p.2
    if ¬ (0 ≤ ks ∧ ks < numActiveCells ((B : Int) * (B : Int)) bm) then .ub
    else do
      let v ← val c ks.toNat
      .ok (ks, v)) sched old

/-- source/dexrt_ray.cpp:213-230 `configure_mr_block_map`. -/
def configure (E : Nat) (bm : BlockMap Coord2) (lk : MLLookup Coord2) (sched : List Nat) : Outcome (MLLookup Coord2) := do
  let n := bm.dims.x * bm.dims.z
  let arr ← writeLoop (fun i => do
      let m ← readAt bm.activeTiles i
      let key := lk.flat2 (decodeMorton2 m)
      if 0 ≤ key ∧ key < n then .ok (key, 1) else .ub) sched (fun _ => (0 : Int))
  .ok (lk.pack E ((List.range n.toNat).map fun j : Nat => arr (j : Int)))

/-- The orders of the kernels before the views, and what the arrays held. -/
structure StartOrder where
  load : Sched Coord2
  junk : Atmos Int ℝ
  tiles : List Nat
  ne : List (Nat × Int)
  nhTot : List (Nat × Int)
  pops : List (Nat × Int)
  oldPops : Int → Nat → ℝ

/-- `ne` or `nh_tot` of the atmosphere from the output, if it is there: source/dexrt_ray.cpp:263-306 for one of the two. -/
noncomputable def updateField (B : Nat) (bm : BlockMap Coord2) (f : OutFile) (name : String) (sched : List (Nat × Int)) (old : Int → ℝ) :
    Outcome (Int → ℝ) :=
  match f.var name with
  | none => .ok old
  | some _ =>
    if isSparse f then do
      let v ← readVar f name 1
      if numActiveCells ((B : Int) * (B : Int)) bm ≤ ((v.dims.getD 0 0 : Nat) : Int) then .ok (fun ks => v.val [ks.toNat]) else .ub
    else do
      let v ← readVar f name 2
      cells2 B bm (fun c _ => v.get [c.z.toNat, c.x.toNat]) sched old

/-- source/dexrt_ray.cpp:232-261 `load_dex_output`: rows and columns of `pops`, and its columns. -/
noncomputable def loadPops (B : Nat) (bm : BlockMap Coord2) (f : OutFile) (sched : List (Nat × Int)) (old : Int → Nat → ℝ) :
    Outcome (Nat × Nat × (Int → Nat → ℝ)) :=
  if isSparse f then do
    let v ← readVar f "pops" 2
    .ok (v.dims.getD 0 0, v.dims.getD 1 0, fun ks i => v.val [i, ks.toNat])
  else do
    let v ← readVar f "pops" 3
    let levels := v.dims.getD 0 0
    let col ← cells2 B bm (fun c _ =>
      if ∀ i < levels, ∃ x, v.get [i, c.z.toNat, c.x.toNat] = .ok x then .ok (fun i => v.val [i, c.z.toNat, c.x.toNat]) else .ub) sched old
    .ok (levels, (numActiveCells ((B : Int) * (B : Int)) bm).toNat, col)

/-- What is loaded before the views. -/
structure Loaded where
  bm : BlockMap Coord2
  mr : MRMap Coord2
  atmos : Atmos Int ℝ
  rows : Nat
  cols : Nat
  /-- `pops(i, ks)` as `pops ks i` -/
  pops : Int → Nat → ℝ

/-- source/dexrt_ray.cpp:877-886, with `init_and_sparsify_atmos` (source/BlockMap.hpp:447-458) for level 0. -/
noncomputable def load {W : Type} (t : Tool) (cv : W → ℝ) (f : NcFile Coord2 W) (out : OutFile) (o : StartOrder) : Outcome Loaded := do
  let (bm, a) ← load2 t.B LteRun.realOps cv (fun x => decide (x = 0)) f t.cutoff o.load o.junk
  let lk ← MLLookup.init2 t.E bm.dims
  let off ← mipOffsets t.E t.B 2 bm.numActive 0
  let lk ← configure t.E bm lk o.tiles
  let ne ← updateField t.B bm out "ne" o.ne a.ne
  let nh ← updateField t.B bm out "nh_tot" o.nhTot a.nhTot
  let p ← loadPops t.B bm out o.pops o.oldPops
  .ok { bm := bm, mr := { bm := bm, off := off, maxStore := 2 ^ t.E - 1, get := fun c => lk.get t.E (lk.flat2 c) },
        atmos := { a with ne := ne, nhTot := nh }, rows := p.1, cols := p.2.1, pops := p.2.2 }

/-- First row of the atom with this index in `pops`: `level_start`. -/
def levelStart (ad : AData) (ia : Nat) : Nat := ((ad.atoms.take ia).map fun x => x.top + 1).sum

/-- Number of levels of all atoms. -/
def totalLevels (ad : AData) : Nat := (ad.atoms.map fun x => x.top + 1).sum

/-- `pops(level_start + l, ks)`. -/
def popsAt (t : Tool) (d : Loaded) (ks : Int) : Emis.Pops := fun ia l => d.pops ks (levelStart t.ad ia + l)

/-- `mu` of the ray set of a view. -/
noncomputable def muOf (v : Num × Num) : Boundary.V3 := viewMu v.1.v v.2.v

/-- `AtmosPointParams` of a cell, source/dexrt_ray.cpp:527-546. -/
noncomputable def pointOf (d : Loaded) (mu : Boundary.V3) (nh0 : ℝ) (ks : Int) : Point :=
  { temperature := d.atmos.temperature ks, ne := d.atmos.ne ks, vturb := d.atmos.vturb ks, nhtot := d.atmos.nhTot ks,
    vel := vProj mu ⟨d.atmos.vx ks, d.atmos.vy ks, d.atmos.vz ks⟩, nh0 := nh0 }

/-- source/dexrt_ray.cpp:522-563 for one cell: emissivity and opacity. `scratch` is what `n_star` held. -/
noncomputable def cellVal (t : Tool) (d : Loaded) (mu : Boundary.V3) (lambda : ℝ) (scratch : Emis.Pops) (ks : Nat) : Outcome EO :=
  if d.rows < totalLevels t.ad ∨ d.cols ≤ ks ∨ ¬ LteRun.LevelsExist t.ad ∨ (t.haveH = true ∧ d.rows = 0) then .ub
  else do
    let k : Int := (ks : Nat)
    let nh0 ← (if t.haveH then .ok (d.pops k 0) else do
      let h ← Lte.hPart t.sahaConst t.ionE (d.atmos.temperature k) (d.atmos.ne k) (d.atmos.nhTot k)
      .ok h.1)
    let r ← emisOpacSpec t.k t.phi t.ad lambda (popsAt t d k) scratch (pointOf d mu nh0 k)
    .ok r.1

/-- The start of ray `i` of a view, source/dexrt_ray.cpp:309-460. -/
noncomputable def startOf (rotate : Bool) (nx nz : Nat) (v : Num × Num) (i : Nat) : V2 :=
  if rotate then startRot nx nz v.1.v v.2.v v.1.neg i else startFixed nz i

/-- Number of rays of a view, source/dexrt_ray.cpp:430, 455. -/
noncomputable def raysOf (rotate : Bool) (nx nz : Nat) (v : Num × Num) : Nat :=
  if rotate then numRaysRot nx nz v.1.v v.2.v v.1.neg else nx

/-- The segment of ray `i`, source/dexrt_ray.cpp:674-685; the signs of zero components of the direction (`mu = -mux`,
divided by a positive number). -/
noncomputable def segOf (rotate : Bool) (nx nz : Nat) (v : Num × Num) (i : Nat) : RaySeg 2 :=
  raySeg nx nz (startOf rotate nx nz v i) (flatMu (muOf v)) ![!v.1.neg, !v.2.neg]

/-- `get_sample_level`; coordinates are `i32`. -/
noncomputable def levelAt (B : Nat) (mr : MRMap Coord2) (junk : ℤ) (c : Fin 2 → ℤ) : ℤ :=
  if fitsI32 (c 0) ∧ fitsI32 (c 1) then
    match (mgeo2 B).sampleLevel mr (mgeo2 B).fresh { x := c 0, z := c 1 } with
    | .ok (v, _) => v
    | _ => junk
  else -1

/-- The grid as the traversal sees it: `init(ray_seg, 0, nullptr)`. -/
noncomputable def envOf (t : Tool) (d : Loaded) (junk : ℤ) : DdaEnv .two :=
  { lvl := levelAt t.B d.mr junk, block := t.B, max := ![d.bm.bboxMax.x, d.bm.bboxMax.z], maxMip := 0 }

/-- The states in which the body of the loop runs, source/dexrt_ray.cpp:708-743 (`none`: no marcher). A loop that never
ends and does nothing visible is UB. -/
noncomputable def traverse (e : DdaEnv .two) (seg : RaySeg 2) : Outcome (Option (List (Dda .two))) :=
  match ddaStart e seg with
  | none => .ok none
  | some (r, s) => if h : ∃ fuel l, visitsEnd e r fuel s = some l then .ok (some (loopStates (Classical.choose (Classical.choose_spec h)))) else .ub

/-- `eta(ks)`, `chi(ks)`, source/dexrt_ray.cpp:711-717. -/
noncomputable def readEO (t : Tool) (d : Loaded) (junk : EO) (m : Int → EO) (c : Fin 2 → ℤ) : EO :=
  match (mgeo2 t.B).idx d.mr (mgeo2 t.B).fresh 0 { x := c 0, z := c 1 } with
  | .ok (a, _) => if 0 ≤ a ∧ a < numActiveCells ((t.B : Int) * (t.B : Int)) d.bm then m a else junk
  | _ => junk

/-- What the loop makes of a state: `can_sample` (source/BlockMap.hpp:1288-1290) and the cell. -/
noncomputable def cellOf (eo : (Fin 2 → ℤ) → EO) (s : Dda .two) : Cell :=
  { sample := decide (0 ≤ s.mip), eta := (eo s.coord).eta, chi := (eo s.coord).chi, dt := s.dt, t := s.t }

/-- One ray of the kernel "Trace Rays", source/dexrt_ray.cpp:673-748: intensity and optical depth. A view with
`mux = muz = 0` has direction 0/0; this is not modelled further. -/
noncomputable def rayOne (t : Tool) (d : Loaded) (rotate : Bool) (v : Num × Num) (junk : EO × ℤ) (m : Int → EO) (wave i : Nat) : Outcome (ℝ × ℝ) :=
  if v.1.v = 0 ∧ v.2.v = 0 then .ub
  else do
    let nx := d.bm.bboxMax.x.toNat
    let nz := d.bm.bboxMax.z.toNat
    let l ← traverse (envOf t d junk.2) (segOf rotate nx nz v i)
    let bI ← boundaryI2 (t.bc wave) d.atmos.voxelScale d.atmos.offsetX d.atmos.offsetZ (startOf rotate nx nz v i) (flatMu (muOf v))
    .ok (traceRay (distanceFactor d.atmos.voxelScale (muOf v)) bI (l.map fun l => l.map (cellOf (readEO t d junk.1 m))))

/-- `arr(row, col) = x`; outside is UB. -/
def setArr (a : Arr2 (ℝ × ℝ)) (row col : Nat) (x : ℝ × ℝ) : Outcome (Arr2 (ℝ × ℝ)) :=
  if row < a.rows ∧ col < a.cols then .ok { a with get := fun r c => if r = row ∧ c = col then x else a.get r c } else .ub

/-- The orders of the kernels of one view, what fresh arrays hold, and junk. -/
structure ViewOrder where
  cells : Nat → List (Nat × Int)
  rays : Nat → List Nat
  scratch : Nat → Nat → Emis.Pops
  fresh : Nat → Nat → ℝ × ℝ
  junk : EO × ℤ

/-- What is kept between views: emissivity and opacity, and `ray_I`, `ray_tau` if allocated. -/
structure Kept where
  eo : Int → EO
  arr : Option (Arr2 (ℝ × ℝ))

/-- One pass of the loop over wavelengths, source/dexrt_ray.cpp:518-750. -/
noncomputable def waveStep (t : Tool) (d : Loaded) (rotate : Bool) (wl : List ℝ) (v : Num × Num) (o : ViewOrder) (s : (Int → EO) × Arr2 (ℝ × ℝ)) (wave : Nat) :
    Outcome ((Int → EO) × Arr2 (ℝ × ℝ)) := do
  let lambda ← readAt wl wave
  let m ← cells2 t.B d.bm (fun _ ks => cellVal t d (muOf v) lambda (o.scratch wave ks) ks) (o.cells wave) s.1
  let a ← (o.rays wave).foldlM (fun a i => do
    let x ← rayOne t d rotate v o.junk m wave i
    setArr a wave i x) s.2
  .ok (m, a)

/-- What is written for one view, source/dexrt_ray.cpp:808-833: the starts of the rays, `I` and `tau` (wavelength, ray). -/
structure Plane where
  starts : List V2
  data : Arr2 (ℝ × ℝ)

/-- `ray_I`, `ray_tau` for a view: those of the view before if they have the right size, source/dexrt_ray.cpp:912-927. -/
def allocate (rows cols : Nat) (fresh : Nat → Nat → ℝ × ℝ) : Option (Arr2 (ℝ × ℝ)) → Arr2 (ℝ × ℝ)
  | some a => if a.rows = rows ∧ a.cols = cols then a else ⟨rows, cols, fresh⟩
  | none => ⟨rows, cols, fresh⟩

/-- One view, source/dexrt_ray.cpp:900-935. -/
noncomputable def viewStep (t : Tool) (d : Loaded) (rotate : Bool) (wl : List ℝ) (v : Num × Num) (o : ViewOrder) (s : Kept) : Outcome (Plane × Kept) := do
  let n := raysOf rotate d.bm.bboxMax.x.toNat d.bm.bboxMax.z.toNat v
  let q ← (List.range wl.length).foldlM (waveStep t d rotate wl v o) (s.eo, allocate wl.length n o.fresh s.arr)
  .ok (⟨(List.range n).map fun i : Nat => startOf rotate d.bm.bboxMax.x.toNat d.bm.bboxMax.z.toNat v i, q.2⟩, ⟨q.1, some q.2⟩)

/-- The loop over views, source/dexrt_ray.cpp:898-935; `i` is the index of the first. -/
noncomputable def viewLoop (t : Tool) (d : Loaded) (rotate : Bool) (wl : List ℝ) (o : Nat → ViewOrder) : Nat → List (Num × Num) → Kept → Outcome (List Plane)
  | _, [], _ => .ok []
  | i, v :: vs, s => do
    let q ← viewStep t d rotate wl v (o i) s
    let ps ← viewLoop t d rotate wl o (i + 1) vs q.2
    .ok (q.1 :: ps)

/-- The output file: `wavelength`, `mu` (source/dexrt_ray.cpp:755-771), and the planes. -/
structure RayOut where
  wavelength : List ℝ
  mu : List Boundary.V3
  planes : List Plane

/-- source/dexrt_ray.cpp:836-947 `main`. -/
noncomputable def runRay2 {W : Type} (t : Tool) (c : RayCfg) (cv : W → ℝ) (f : NcFile Coord2 W) (out : OutFile) (o0 : StartOrder) (oldEO : Int → EO)
    (o : Nat → ViewOrder) : Outcome RayOut := do
  let vs ← views c
  let wl ← wavelengths c out
  if c.givenFs then .throws
  else if !c.promweaver then .throws
  else do
    let d ← load t cv f out o0
    let ps ← viewLoop t d c.rotate wl o 0 vs ⟨oldEO, none⟩
    .ok { wavelength := wl, mu := vs.map fun v => reportedMu v.1.v v.2.v, planes := ps }

end DexRT.RayRun
