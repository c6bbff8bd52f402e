import Verif.Model.RayRun
import Verif.Model.LteRun3
/-!
Model of a whole run of `dexrt_ray_3d`, source/dexrt_ray_3d.cpp: the configuration (70-177), reading the atmosphere and the
output of the model run (179-192, 221-246, 535-544), the lookup (248-265), and per view the ray set (267-304), emissivity and
opacity per wavelength and the tracing of the rays (306-433), and what is written (435-492, 546-584). Composed from the
models of the parts.
Simplifications: exact real arithmetic; `load_bc` is a given table per wavelength (C59); lists of three numbers are triples
(the parser throws for other lengths); `supersample` is not negative; attributes of the output are left out (`pixel_scale` is
C65). `dex_block_map` and `dex_data_is_sparse` (194-219) are never called. As in the other runs, a lookup in the march that fails
gives `junk`, which the theorems quantify over.
-/
namespace DexRT.RayRun3
open DexRT DexRT.AtmosFile DexRT.Emis DexRT.Ray DexRT.RayRun Classical

/-- A view direction of the configuration, with the signs of zeros. -/
structure Dir3 where
  x : Num
  y : Num
  z : Num

/-- Its three values. -/
def Dir3.vec (d : Dir3) : Boundary.V3 := ⟨d.x.v, d.y.v, d.z.v⟩

/-- The keys of the configuration file that matter, source/dexrt_ray_3d.cpp:70-177; a single vector is a list of one. `none`: the
key is absent. `givenFs`, `promweaver`: mode and boundary of the model run. -/
structure RayCfg3 where
  view : Option (List Dir3)
  up : Option (List Boundary.V3)
  right : Option (List Boundary.V3)
  corner : Option (List Boundary.V3)
  imageSize : Option (List ℝ)
  /-- 1 if the key is absent -/
  supersample : Nat
  wavelength : Option (List ℝ)
  givenFs : Bool
  promweaver : Bool

/-- What `parse_ray_config` returns. -/
structure Parsed where
  view : List Dir3
  up : List Boundary.V3
  right : List Boundary.V3
  corner : List Boundary.V3
  size : ℝ × ℝ

/-- source/dexrt_ray_3d.cpp:96-170: the required keys, and the checks of the lists (an empty list of vectors is an error). -/
def parse (c : RayCfg3) : Outcome Parsed := do
  let view ← need c.view
  let up ← need c.up
  let right ← need c.right
  let corner ← need c.corner
  let size ← need c.imageSize
  if view.length = 0 ∨ up.length = 0 ∨ right.length = 0 ∨ corner.length = 0 then .throws
  else if !checkViews view.length up.length right.length then .throws
  else match size with
    | [sx, sy] => .ok ⟨view, up, right, corner, (sx, sy)⟩
    | _ => .throws

/-- source/dexrt_ray_3d.cpp:179-192 `load_wavelength_if_missing`. -/
def wavelengths3 (c : RayCfg3) (f : OutFile) : Outcome (List ℝ) :=
  if (c.wavelength.getD []).length = 0 then do
    let v ← readVar f "wavelength" 1
    .ok ((List.range (v.dims.getD 0 0)).map fun la : Nat => v.val [la])
  else .ok (c.wavelength.getD [])

/-- A kernel over the cells of the map that writes one element per cell: source/dexrt_ray_3d.cpp:317-363. Arrays of the same shape
that one iteration writes together are one array of tuples. Every cell of the map has a coordinate (C03). -/
def cells3 {V : Type} (B : Nat) (bm : BlockMap Coord3) (val : Nat → Outcome V) (sched : List (Nat × Int)) (old : Int → V) :
    Outcome (Int → V) :=
  writeLoop (fun p => do
    let ks := (geo3 B).loopIdx p.1 p.2
    let _ ← loopCoord3 B bm p.1 p.2
    if ¬ (0 ≤ ks ∧ ks < numActiveCells ((B : Int) * (B : Int) * (B : Int)) bm) then .ub
    else do
      let v ← val ks.toNat
      .ok (ks, v)) sched old

/-- source/dexrt_ray_3d.cpp:248-265 `configure_mr_block_map`. -/
def configure3 (E : Nat) (bm : BlockMap Coord3) (lk : MLLookup Coord3) (sched : List Nat) : Outcome (MLLookup Coord3) := do
  let n := bm.dims.x * bm.dims.y * bm.dims.z
  let arr ← writeLoop (fun i => do
      let m ← readAt bm.activeTiles i
      let key := lk.flat3 (decodeMorton3 m)
      if 0 ≤ key ∧ key < n then .ok (key, 1) else .ub) sched (fun _ => (0 : Int))
  .ok (lk.pack E ((List.range n.toNat).map fun j : Nat => arr (j : Int)))

/-- The orders of the kernels before the views, and what the arrays held. -/
structure StartOrder where
  load : Sched Coord3
  junk : Atmos Int ℝ
  tiles : List Nat

/-- `ne` or `nh_tot` of the atmosphere from the output, if it is there: source/dexrt_ray_3d.cpp:233-246 for one of the two. The
output is taken to be sparse whatever it says. -/
noncomputable def updateField3 (B : Nat) (bm : BlockMap Coord3) (f : OutFile) (name : String) (old : Int → ℝ) : Outcome (Int → ℝ) :=
  match f.var name with
  | none => .ok old
  | some _ => do
    let v ← readVar f name 1
    if numActiveCells ((B : Int) * (B : Int) * (B : Int)) bm ≤ ((v.dims.getD 0 0 : Nat) : Int) then .ok (fun ks => v.val [ks.toNat]) else .ub

/-- source/dexrt_ray_3d.cpp:221-231 `load_dex_output`: rows and columns of `pops`, and its columns. -/
noncomputable def loadPops3 (f : OutFile) : Outcome (Nat × Nat × (Int → Nat → ℝ)) := do
  let v ← readVar f "pops" 2
  .ok (v.dims.getD 0 0, v.dims.getD 1 0, fun ks i => v.val [i, ks.toNat])

/-- What is loaded before the views. -/
structure Loaded where
  bm : BlockMap Coord3
  mr : MRMap Coord3
  atmos : Atmos Int ℝ
  rows : Nat
  cols : Nat
  /-- `pops(i, ks)` as `pops ks i` -/
  pops : Int → Nat → ℝ

/-- source/dexrt_ray_3d.cpp:535-544, with `init_and_sparsify_atmos` (source/BlockMap.hpp:447-458) for level 0. -/
noncomputable def load {W : Type} (t : Tool) (cv : W → ℝ) (f : NcFile Coord3 W) (out : OutFile) (o : StartOrder) : Outcome Loaded := do
  let (bm, a) ← load3 t.B LteRun.realOps cv (fun x => decide (x = 0)) f t.cutoff o.load o.junk
  let lk ← MLLookup.init3 t.E bm.dims
  let off ← mipOffsets t.E t.B 3 bm.numActive 0
  let lk ← configure3 t.E bm lk o.tiles
  let ne ← updateField3 t.B bm out "ne" a.ne
  let nh ← updateField3 t.B bm out "nh_tot" a.nhTot
  let p ← loadPops3 out
  .ok { bm := bm, mr := { bm := bm, off := off, maxStore := 2 ^ t.E - 1, get := fun c => lk.get t.E (lk.flat3 c) },
        atmos := { a with ne := ne, nhTot := nh }, rows := p.1, cols := p.2.1, pops := p.2.2 }

/-- `pops(level_start + l, ks)`. -/
def popsAt (t : Tool) (d : Loaded) (ks : Int) : Emis.Pops := fun ia l => d.pops ks (levelStart t.ad ia + l)

/-- `AtmosPointParams` of a cell, source/dexrt_ray_3d.cpp:323-348; `mu` is the normalised view: the light travels along `-mu`. -/
noncomputable def pointOf (d : Loaded) (mu : Boundary.V3) (nh0 : ℝ) (ks : Int) : Point :=
  { temperature := d.atmos.temperature ks, ne := d.atmos.ne ks, vturb := d.atmos.vturb ks, nhtot := d.atmos.nhTot ks,
    vel := d.atmos.vx ks * -mu.x + d.atmos.vy ks * -mu.y + d.atmos.vz ks * -mu.z, nh0 := nh0 }

/-- source/dexrt_ray_3d.cpp:320-361 for one cell: emissivity and opacity. `scratch` is what `n_star` held. -/
noncomputable def cellVal (t : Tool) (d : Loaded) (mu : Boundary.V3) (lambda : ℝ) (scratch : Emis.Pops) (ks : Nat) : Outcome EO :=
  if d.rows < totalLevels t.ad ∨ d.cols ≤ ks ∨ ¬ LteRun.LevelsExist t.ad ∨ (t.haveH = true ∧ d.rows = 0) then .ub
  else do
    let k : Int := (ks : Nat)
    let nh0 ← (if t.haveH then .ok (d.pops k 0) else do
      let h ← Lte.hPart t.sahaConst t.ionE (d.atmos.temperature k) (d.atmos.ne k) (d.atmos.nhTot k)
      .ok h.1)
    let r ← emisOpacSpec t.k t.phi t.ad lambda (popsAt t d k) scratch (pointOf d mu nh0 k)
    .ok r.1

/-- `num_x`, `num_y`, source/dexrt_ray_3d.cpp:271-273: a conversion to `int`, truncating; out of range or negative is UB. -/
noncomputable def imageDim (size : ℝ) (ss : Nat) : Outcome Nat :=
  if 0 ≤ size * ss ∧ size * ss < 2147483648 then .ok ⌊size * ss⌋₊ else .ub

/-- The vectors of a view. -/
structure View where
  dir : Dir3
  up : Boundary.V3
  right : Boundary.V3
  corner : Boundary.V3

/-- source/dexrt_ray_3d.cpp:274-277: the vectors of view `i`; reading outside a list is UB (`image_corner` is not checked: C65). -/
def readView3 (p : Parsed) (i : Nat) : Outcome View := do
  let c ← readAt p.corner i
  let u ← readAt p.up i
  let r ← readAt p.right i
  let v ← readAt p.view i
  .ok ⟨v, u, r, c⟩

/-- The segment of the pixel `(y, x)`, source/dexrt_ray_3d.cpp:278-288, 369-375; division by a positive number keeps the signs of zeros. -/
noncomputable def segOf (ss : Nat) (v : View) (y x : Nat) : RaySeg 3 :=
  raySeg3 (Ray.start3 ss v.corner v.up v.right y x) (viewRay3 v.dir.vec) ![v.dir.x.neg, v.dir.y.neg, v.dir.z.neg]

/-- `get_sample_level`; coordinates are `i32`. -/
noncomputable def levelAt (B : Nat) (mr : MRMap Coord3) (junk : ℤ) (c : Fin 3 → ℤ) : ℤ :=
  if fitsI32 (c 0) ∧ fitsI32 (c 1) ∧ fitsI32 (c 2) then
    match (mgeo3 B).sampleLevel mr (mgeo3 B).fresh { x := c 0, y := c 1, z := c 2 } with
    | .ok (v, _) => v
    | _ => junk
  else -1

/-- The grid as the traversal sees it: `init(ray_seg, 0, nullptr)`. -/
noncomputable def envOf (t : Tool) (d : Loaded) (junk : ℤ) : DdaEnv .three :=
  { lvl := levelAt t.B d.mr junk, block := t.B, max := ![d.bm.bboxMax.x, d.bm.bboxMax.y, d.bm.bboxMax.z], maxMip := 0 }

/-- The states in which the body of the loop runs, source/dexrt_ray_3d.cpp:404-423 (`none`: no marcher). A loop that never
ends and does nothing visible is UB. -/
noncomputable def traverse (e : DdaEnv .three) (seg : RaySeg 3) : Outcome (Option (List (Dda .three))) :=
  match ddaStart e seg with
  | none => .ok none
  | some (r, s) => if h : ∃ fuel l, visitsEnd e r fuel s = some l then .ok (some (loopStates (Classical.choose (Classical.choose_spec h)))) else .ub

/-- `eta(ks)`, `chi(ks)`, source/dexrt_ray_3d.cpp:406-412. -/
noncomputable def readEO (t : Tool) (d : Loaded) (junk : EO) (m : Int → EO) (c : Fin 3 → ℤ) : EO :=
  match (mgeo3 t.B).idx d.mr (mgeo3 t.B).fresh 0 { x := c 0, y := c 1, z := c 2 } with
  | .ok (a, _) => if 0 ≤ a ∧ a < numActiveCells ((t.B : Int) * (t.B : Int) * (t.B : Int)) d.bm then m a else junk
  | _ => junk

/-- What the loop makes of a state: `can_sample` (source/BlockMap.hpp:1288-1290) and the cell. -/
noncomputable def cellOf (eo : (Fin 3 → ℤ) → EO) (s : Dda .three) : Cell :=
  { sample := decide (0 ≤ s.mip), eta := (eo s.coord).eta, chi := (eo s.coord).chi, dt := s.dt, t := s.t }

/-- One ray of the kernel "Trace Rays", source/dexrt_ray_3d.cpp:365-430: intensity and optical depth. A view of three zeros has
direction 0/0; this is not modelled further. -/
noncomputable def rayOne (t : Tool) (d : Loaded) (ss : Nat) (v : View) (junk : EO × ℤ) (m : Int → EO) (wave y x : Nat) : Outcome (ℝ × ℝ) :=
  if v.dir.x.v = 0 ∧ v.dir.y.v = 0 ∧ v.dir.z.v = 0 then .ub
  else do
    let l ← traverse (envOf t d junk.2) (segOf ss v y x)
    let bI ← boundaryI3 (t.bc wave) d.atmos.voxelScale ⟨d.atmos.offsetX, d.atmos.offsetY, d.atmos.offsetZ⟩
      (Ray.start3 ss v.corner v.up v.right y x) (viewRay3 v.dir.vec)
    .ok (traceRay d.atmos.voxelScale bI (l.map fun l => l.map (cellOf (readEO t d junk.1 m))))

/-- `ray_I` and `ray_tau` together: (wavelength, y, x). -/
structure Image where
  waves : Nat
  ny : Nat
  nx : Nat
  get : Nat → Nat → Nat → ℝ × ℝ

/-- `arr(la, yi, xi) = v`; outside is UB. -/
def Image.set (a : Image) (la y x : Nat) (v : ℝ × ℝ) : Outcome Image :=
  if la < a.waves ∧ y < a.ny ∧ x < a.nx then .ok { a with get := fun l y' x' => if l = la ∧ y' = y ∧ x' = x then v else a.get l y' x' } else .ub

/-- The orders of the kernels of one view, what fresh arrays hold, and junk. -/
structure ViewOrder where
  cells : Nat → List (Nat × Int)
  rays : Nat → List (Nat × Nat)
  scratch : Nat → Nat → Emis.Pops
  /-- `eta`, `chi` are allocated for each view: source/dexrt_ray_3d.cpp:312-314 -/
  oldEO : Int → EO
  fresh : Nat → Nat → Nat → ℝ × ℝ
  junk : EO × ℤ

/-- One pass of the loop over wavelengths, source/dexrt_ray_3d.cpp:316-432. -/
noncomputable def waveStep (t : Tool) (d : Loaded) (ss : Nat) (wl : List ℝ) (v : View) (o : ViewOrder) (s : (Int → EO) × Image) (wave : Nat) :
    Outcome ((Int → EO) × Image) := do
  let lambda ← readAt wl wave
  let m ← cells3 t.B d.bm (fun ks => cellVal t d (viewRay3 v.dir.vec) lambda (o.scratch wave ks) ks) (o.cells wave) s.1
  let a ← (o.rays wave).foldlM (fun (a : Image) (p : Nat × Nat) => do
    let x ← rayOne t d ss v o.junk m wave p.1 p.2
    a.set wave p.1 p.2 x) s.2
  .ok (m, a)

/-- `ray_I`, `ray_tau` for a view: those of the view before if they have the right size, source/dexrt_ray_3d.cpp:558-576. -/
def allocate (waves ny nx : Nat) (fresh : Nat → Nat → Nat → ℝ × ℝ) : Option Image → Image
  | some a => if a.waves = waves ∧ a.ny = ny ∧ a.nx = nx then a else ⟨waves, ny, nx, fresh⟩
  | none => ⟨waves, ny, nx, fresh⟩

/-- One view, source/dexrt_ray_3d.cpp:549-583: what is written. -/
noncomputable def viewStep (t : Tool) (d : Loaded) (p : Parsed) (ss : Nat) (wl : List ℝ) (i : Nat) (o : ViewOrder) (s : Option Image) : Outcome Image := do
  let numX ← imageDim p.size.1 ss
  let numY ← imageDim p.size.2 ss
  let v ← readView3 p i
  let q ← (List.range wl.length).foldlM (waveStep t d ss wl v o) (o.oldEO, allocate wl.length numY numX o.fresh s)
  .ok q.2

/-- The loop over views, source/dexrt_ray_3d.cpp:548-584. -/
noncomputable def viewLoop (t : Tool) (d : Loaded) (p : Parsed) (ss : Nat) (wl : List ℝ) (o : Nat → ViewOrder) : List Nat → Option Image → Outcome (List Image)
  | [], _ => .ok []
  | i :: is, s => do
    let q ← viewStep t d p ss wl i (o i) s
    let ps ← viewLoop t d p ss wl o is (some q)
    .ok (q :: ps)

/-- The output file: `wavelength` (source/dexrt_ray_3d.cpp:439-442), and `I_i`, `tau_i` for each view (484-492). -/
structure RayOut3 where
  wavelength : List ℝ
  planes : List Image

/-- source/dexrt_ray_3d.cpp:495-590 `main`. -/
noncomputable def runRay3 {W : Type} (t : Tool) (c : RayCfg3) (cv : W → ℝ) (f : NcFile Coord3 W) (out : OutFile) (o0 : StartOrder)
    (o : Nat → ViewOrder) : Outcome RayOut3 := do
  let p ← parse c
  let wl ← wavelengths3 c out
  if c.givenFs then .throws
  else if !c.promweaver then .throws
  else do
    let d ← load t cv f out o0
    let ps ← viewLoop t d p c.supersample wl o (List.range p.view.length) none
    .ok { wavelength := wl, planes := ps }

end DexRT.RayRun3
