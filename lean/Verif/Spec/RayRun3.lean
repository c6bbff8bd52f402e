import Verif.Model.RayRun3
import Verif.Spec.RayRun
import Verif.Spec.LteRun3
/-!
Vocabulary for C92: what a 3D model run left behind, the gas it describes, and what an observer sees of it in each pixel.
-/
namespace DexRT.RayRun3
open DexRT DexRT.AtmosFile DexRT.Emis DexRT.Ray DexRT.RayRun DexRT.Lte3 Classical

/-- The result of a model run: level populations (by row of the file), and densities if it changed them. -/
structure Result where
  levels : Nat
  pops : Coord3 → Nat → ℝ
  ne : Option (Coord3 → ℝ)
  nhTot : Option (Coord3 → ℝ)

/-- The tile is one that the model run and the tool keep: all if the threshold is 0, else those with a cell at or below it. -/
def ActiveTile (t : Tool) (k : Nat) (a : Cond) (tile : Coord3) : Prop :=
  t.cutoff = 0 ∨ HasColdCell3 (2 ^ k) (fun z y x => a.temperature ⟨x, y, z⟩) t.cutoff tile

/-- The cell is in a tile of the grid that is kept. -/
def Kept3 (t : Tool) (k nx ny nz : Nat) (a : Cond) (c : Coord3) : Prop :=
  Given3.InGrid k nx ny nz c ∧ ActiveTile t k a ⟨c.x / (2 ^ k : Nat), c.y / (2 ^ k : Nat), c.z / (2 ^ k : Nat)⟩

/-- A model run of this file stores the cell at number `n` of its arrays. -/
def Stored {W : Type} (t : Tool) (cv : W → ℝ) (f : NcFile Coord3 W) (k : Nat) (c : Coord3) (n : Int) : Prop :=
  ∃ sc junk bm a, GoodSched (2 ^ k * 2 ^ k * 2 ^ k) inDims3 sc ∧
    load3 (2 ^ k) LteRun.realOps cv (fun x => decide (x = 0)) f t.cutoff sc junk = .ok (bm, a) ∧ Addr3 (2 ^ k) bm c n

/-- The variable holds this field, cell by cell in the order of the arrays of the run, after the index `pre`. -/
def HoldsField {W : Type} (t : Tool) (cv : W → ℝ) (f : NcFile Coord3 W) (k nx ny nz : Nat) (a : Cond) (v : Var) (pre : List Nat) (q : Coord3 → ℝ) : Prop :=
  ∀ c i, Kept3 t k nx ny nz a c → Stored t cv f k c i → v.val (pre ++ [i.toNat]) = q c

/-- The file has this density for `n` cells, or neither has it. -/
def HasDensity {W : Type} (t : Tool) (cv : W → ℝ) (f : NcFile Coord3 W) (k nx ny nz : Nat) (a : Cond) (out : OutFile) (n : Nat) (name : String)
    (q : Option (Coord3 → ℝ)) : Prop :=
  match q with
  | none => out.var name = none
  | some q => ∃ v, out.var name = some v ∧ v.dims = [n] ∧ HoldsField t cv f k nx ny nz a v [] q

/-- The output, in sparse form, holds this result for the `n` cells that are kept. -/
structure OutputIs {W : Type} (t : Tool) (cv : W → ℝ) (f : NcFile Coord3 W) (k nx ny nz : Nat) (a : Cond) (out : OutFile) (n : Nat) (res : Result) : Prop where
  room : ∀ c i, Kept3 t k nx ny nz a c → Stored t cv f k c i → i.toNat < n
  pops : ∃ v, out.var "pops" = some v ∧ v.dims = [res.levels, n] ∧ ∀ l < res.levels, HoldsField t cv f k nx ny nz a v [l] (fun c => res.pops c l)
  ne : HasDensity t cv f k nx ny nz a out n "ne" res.ne
  nhTot : HasDensity t cv f k nx ny nz a out n "nh_tot" res.nhTot

/-- The conditions, with the densities of the result where it has them. -/
def updated (a : Cond) (res : Result) : Cond := { a with ne := res.ne.getD a.ne, nhTot := res.nhTot.getD a.nhTot }

/-- The populations of a cell by atom and level: the levels of the atoms follow each other in the rows. -/
def popsOf (t : Tool) (res : Result) (c : Coord3) : Emis.Pops := fun ia l =>
  res.pops c (((t.ad.atoms.take ia).map fun x => x.top + 1).sum + l)

/-- The LTE populations of a cell (C27). -/
noncomputable def starOf (t : Tool) (a : Cond) (c : Coord3) : Emis.Pops := fun ia l =>
  (EmisSpec.lte t.k t.ad (point a (fun _ => 0) 0 c) ia l).getD 0

/-- `h` is the neutral hydrogen density of the cells: with a hydrogen model, the population of its ground state (the first
row); without, the solution of the Saha equation (C50). -/
def NeutralH (t : Tool) (k nx ny nz : Nat) (a0 : Cond) (res : Result) (h : Coord3 → ℝ) : Prop :=
  ∀ c, Kept3 t k nx ny nz a0 c →
    if t.haveH then h c = res.pops c 0
    else 0 ≤ h c ∧ h c ≤ (updated a0 res).nhTot c ∧
      ∃ u, interp (some (Real.logb 10 (a0.temperature c))) (Lte.scaled Lte.logTData) (Lte.scaled Lte.partFnData) = .ok u ∧
        ((updated a0 res).nhTot c - h c) * (updated a0 res).ne c * u =
          h c * 2 * (t.sahaConst * a0.temperature c) ^ (3 / 2 : ℝ) * Real.exp (-t.ionE / a0.temperature c)

/-- What a cell emits and absorbs at any wavelength along a direction: the lines and continua active at the last wavelength
of the grid not above it, cross-sections interpolated (C54); nothing below the grid. `vel` is the velocity along the
light's path: the observer looks along `mu`, the light travels along `-mu`. -/
noncomputable def gasAt (t : Tool) (a : Cond) (res : Result) (h : Coord3 → ℝ) (mu : Boundary.V3) (lambda : ℝ) (c : Coord3) : EO :=
  let n := (t.ad.wavelength.filter fun w => decide (w ≤ lambda)).length
  if n = 0 then ⟨0, 0⟩
  else
    let p := point a h (-(a.vx c * mu.x + a.vy c * mu.y + a.vz c * mu.z)) c
    (EmisSpec.lines t.k t.phi t.ad (n - 1) (popsOf t res c) p lambda).add
      (EmisSpec.conts t.k t.ad (n - 1) (sigmaBetween t.ad (n - 1) lambda) (popsOf t res c) (starOf t a c) p lambda)

/-- The grid, for the traversal: data in the kept tiles. -/
noncomputable def rayEnv (t : Tool) (k nx ny nz : Nat) (a : Cond) : DdaEnv .three :=
  { lvl := fun c => if Kept3 t k nx ny nz a ⟨c 0, c 1, c 2⟩ then 0 else -1
    maxMip := 0
    block := ((2 ^ k : Nat) : Int)
    max := ![((nx * 2 ^ k : Nat) : Int), ((ny * 2 ^ k : Nat) : Int), ((nz * 2 ^ k : Nat) : Int)] }

/-- The slab that a visited cell is: source function and optical thickness. -/
noncomputable def slabOf (scale : ℝ) (gas : Coord3 → EO) (s : Dda .three) : Slab :=
  ⟨(gas ⟨s.coord 0, s.coord 1, s.coord 2⟩).eta / ((gas ⟨s.coord 0, s.coord 1, s.coord 2⟩).chi + 1e-20),
    ((gas ⟨s.coord 0, s.coord 1, s.coord 2⟩).chi + 1e-20) * s.dt * scale⟩

/-- `x` (intensity, optical depth) is what is seen along the segment through the gas in front of a background `bI`: of the
stack of the cells with data that the traversal visits, or of the background alone if the segment misses the grid. -/
def RaySees (e : DdaEnv .three) (seg : RaySeg 3) (scale : ℝ) (gas : Coord3 → EO) (bI : ℝ) (x : ℝ × ℝ) : Prop :=
  match ddaStart e seg with
  | none => x = (bI, 0)
  | some (r, s) => ∃ N l, visitsEnd e r N s = some l ∧
      x = (emergent ((l.filter fun v => decide (0 ≤ v.mip)).map (slabOf scale gas)) bI,
        thickness ((l.filter fun v => decide (0 ≤ v.mip)).map (slabOf scale gas)))

/-- Grids and settings the tool can handle: whole tiles that fit the machine's integers. -/
structure RayFits (t : Tool) (k nx ny nz : Nat) : Prop where
  block : t.B = 2 ^ k
  entry : 0 < t.E ∧ t.E ≤ 8
  size : GoodSize3 (2 ^ k) nx ny nz
  axes : FitsI32Axis k nx ∧ FitsI32Axis k ny ∧ FitsI32Axis k nz
  pos : 0 < nx ∧ 0 < ny ∧ 0 < nz

/-- The views that the configuration asks for, and the size of their images in pixels. -/
structure AsksViews (c : RayCfg3) (vs : List View) (numY numX : Nat) : Prop where
  some' : vs ≠ []
  view : c.view = some (vs.map View.dir)
  up : c.up = some (vs.map View.up)
  right : c.right = some (vs.map View.right)
  corner : ∃ rest, c.corner = some (vs.map View.corner ++ rest)
  size : ∃ sx sy : ℝ, c.imageSize = some [sx, sy] ∧ (numX : ℝ) ≤ sx * c.supersample ∧ sx * c.supersample < numX + 1 ∧
    (numY : ℝ) ≤ sy * c.supersample ∧ sy * c.supersample < numY + 1
  fits : numX < 2147483648 ∧ numY < 2147483648

/-- The configuration asks for these wavelengths: its own, or if it has none those of the output. -/
def AsksWavelengths (c : RayCfg3) (out : OutFile) (wl : List ℝ) : Prop :=
  (c.wavelength = some wl ∧ wl ≠ []) ∨ ((c.wavelength = none ∨ c.wavelength = some []) ∧
    ∃ v, out.var "wavelength" = some v ∧ v.dims = [wl.length] ∧ ∀ i (h : i < wl.length), v.val [i] = wl[i])

/-- The direction is not zero, and no component is a negative zero (C38). -/
def PlainDir (d : Dir3) : Prop := d.vec ≠ ⟨0, 0, 0⟩ ∧ d.x.neg = false ∧ d.y.neg = false ∧ d.z.neg = false

/-- The unit vector along which the observer looks. -/
noncomputable def lineOfSight (d : Dir3) : Boundary.V3 :=
  ⟨d.x.v / Real.sqrt (d.x.v ^ 2 + d.y.v ^ 2 + d.z.v ^ 2), d.y.v / Real.sqrt (d.x.v ^ 2 + d.y.v ^ 2 + d.z.v ^ 2),
    d.z.v / Real.sqrt (d.x.v ^ 2 + d.y.v ^ 2 + d.z.v ^ 2)⟩

/-- The centre of pixel `(y, x)`, in voxels: `supersample` pixels per voxel of the image plane. -/
noncomputable def pixel (ss : Nat) (v : View) (y x : Nat) (i : Boundary.V3 → ℝ) : ℝ :=
  i v.corner + i v.up * ((y + 1 / 2) / ss) + i v.right * ((x + 1 / 2) / ss)

/-- The ray of a pixel: from its centre along the line of sight, 8192 voxels long (C66). -/
noncomputable def pixelRay (ss : Nat) (v : View) (y x : Nat) : RaySeg 3 :=
  { o := ![pixel ss v y x (·.x), pixel ss v y x (·.y), pixel ss v y x (·.z)],
    d := ![(lineOfSight v.dir).x, (lineOfSight v.dir).y, (lineOfSight v.dir).z], negZero := ![false, false, false], t0 := 0, t1 := 8192 }

/-- The background of a pixel: for a downward view the boundary condition (C59, C60), at the place of the pixel and for light
coming towards the observer; else darkness. -/
def Background (t : Tool) (a : Cond) (ss : Nat) (v : View) (w y x : Nat) (bI : ℝ) : Prop :=
  if (lineOfSight v.dir).z < 0 then
    Boundary.samplePw true true (t.bc w)
      ⟨pixel ss v y x (·.x) * a.scale + a.offset 0, pixel ss v y x (·.y) * a.scale + a.offset 1, pixel ss v y x (·.z) * a.scale + a.offset 2⟩
      ⟨-(lineOfSight v.dir).x, -(lineOfSight v.dir).y, -(lineOfSight v.dir).z⟩ = .ok bI
  else bI = 0

/-- Every kernel before the views runs each iteration once, in some order. -/
structure StartOrders {W : Type} (t : Tool) (cv : W → ℝ) (f : NcFile Coord3 W) (k : Nat) (o : StartOrder) : Prop where
  load : GoodSched (2 ^ k * 2 ^ k * 2 ^ k) inDims3 o.load
  rest : ∀ bm a, load3 (2 ^ k) LteRun.realOps cv (fun x => decide (x = 0)) f t.cutoff o.load o.junk = .ok (bm, a) →
    o.tiles.Perm (List.range bm.activeTiles.length)

/-- Every kernel of a view runs each iteration once, in some order. -/
structure ViewOrders {W : Type} (t : Tool) (cv : W → ℝ) (f : NcFile Coord3 W) (k : Nat) (o0 : StartOrder) (numY numX : Nat) (o : ViewOrder) : Prop where
  cells : ∀ bm a w, load3 (2 ^ k) LteRun.realOps cv (fun x => decide (x = 0)) f t.cutoff o0.load o0.junk = .ok (bm, a) →
    (o.cells w).Perm (loopIters (2 ^ k * 2 ^ k * 2 ^ k) bm)
  rays : ∀ w, (o.rays w).Perm ((List.range numY) ×ˢ (List.range numX))

/-- The image written for a view holds what is seen in its pixels. -/
structure ImageIs (t : Tool) (k nx ny nz : Nat) (a : Cond) (res : Result) (h : Coord3 → ℝ) (ss numY numX : Nat) (wl : List ℝ) (v : View) (p : Image) : Prop where
  waves : p.waves = wl.length
  height : p.ny = numY
  width : p.nx = numX
  value : ∀ w (hw : w < wl.length) y x, y < numY → x < numX → ∃ bI, Background t a ss v w y x bI ∧
    RaySees (rayEnv t k nx ny nz a) (pixelRay ss v y x) a.scale (gasAt t (updated a res) res h (lineOfSight v.dir) wl[w]) bI (p.get w y x)

/-- The Saha equation can be solved in the cells that are kept. -/
def WarmKept (t : Tool) (k nx ny nz : Nat) (a : Cond) (res : Result) : Prop :=
  ∀ c, Kept3 t k nx ny nz a c → 0 < a.temperature c ∧ 0 < (updated a res).ne c ∧ 0 ≤ (updated a res).nhTot c

/-- No ray of the view enters the grid in an empty tile that it leaves within 1e-6 (C39: the traversal goes wrong there). -/
def GoodStarts (t : Tool) (k nx ny nz : Nat) (a : Cond) (ss : Nat) (v : View) : Prop :=
  ∀ y x r s, ddaStart (rayEnv t k nx ny nz a) (pixelRay ss v y x) = some (r, s) → GoodStart (rayEnv t k nx ny nz a) r

end DexRT.RayRun3
