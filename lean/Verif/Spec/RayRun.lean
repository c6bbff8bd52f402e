import Verif.Model.RayRun
import Verif.Spec.LteRun
import Verif.Spec.Ray
import Verif.Spec.Transfer
import Verif.Spec.Grid
import Verif.Spec.Sparse
import Verif.Props.Emis
import Verif.Props.Dda
/-!
Vocabulary for C87: what a model run left behind, the gas it describes, and what an observer sees of it along a ray.
-/
namespace DexRT.RayRun
open DexRT DexRT.AtmosFile DexRT.Emis DexRT.Ray DexRT.LteRun Classical

/-- The result of a model run: level populations (by row of the file), and densities if it changed them. -/
structure Result where
  levels : Nat
  pops : Coord2 → Nat → ℝ
  ne : Option (Coord2 → ℝ)
  nhTot : Option (Coord2 → ℝ)

/-- The tile is one that the model run and the tool keep: all if the threshold is 0, else those with a cell at or below it. -/
def ActiveTile (t : Tool) (k : Nat) (a : Cond) (tile : Coord2) : Prop :=
  t.cutoff = 0 ∨ HasColdCell2 (2 ^ k) (fun z x => a.temperature ⟨x, z⟩) t.cutoff tile

/-- The cell is in a tile of the grid that is kept. -/
def Kept2 (t : Tool) (k nx nz : Nat) (a : Cond) (c : Coord2) : Prop :=
  Given.InGrid k nx nz c ∧ ActiveTile t k a ⟨c.x / (2 ^ k : Nat), c.z / (2 ^ k : Nat)⟩

/-- A model run of this file stores the cell at number `n` of its arrays. -/
def Stored {W : Type} (t : Tool) (cv : W → ℝ) (f : NcFile Coord2 W) (k : Nat) (c : Coord2) (n : Int) : Prop :=
  ∃ sc junk bm a, GoodSched (2 ^ k * 2 ^ k) inDims2 sc ∧
    load2 (2 ^ k) realOps cv (fun x => decide (x = 0)) f t.cutoff sc junk = .ok (bm, a) ∧ Addr2 (2 ^ k) bm c n

/-- How an output stores a field: extents, and where a cell is. -/
structure Layout where
  dims : List Nat
  pos : Coord2 → List Nat → Prop

/-- A dense output: `(z, x)`. -/
def denseLayout (k nx nz : Nat) : Layout :=
  { dims := [nz * 2 ^ k, nx * 2 ^ k], pos := fun c p => Given.InGrid k nx nz c ∧ p = [c.z.toNat, c.x.toNat] }

/-- A sparse output: the `n` cells that are kept, in the order of the arrays of the run. -/
def sparseLayout {W : Type} (t : Tool) (cv : W → ℝ) (f : NcFile Coord2 W) (k nx nz : Nat) (a : Cond) (n : Nat) : Layout :=
  { dims := [n], pos := fun c p => Kept2 t k nx nz a c ∧ ∃ i, Stored t cv f k c i ∧ p = [i.toNat] }

/-- The file has this density in this layout, or neither has it. -/
def HasDensity (out : OutFile) (lay : Layout) (name : String) (q : Option (Coord2 → ℝ)) : Prop :=
  match q with
  | none => out.var name = none
  | some q => ∃ v, out.var name = some v ∧ v.dims = lay.dims ∧ ∀ c p, lay.pos c p → v.val p = q c

/-- The output holds this result. -/
def OutputIs {W : Type} (t : Tool) (cv : W → ℝ) (f : NcFile Coord2 W) (k nx nz : Nat) (a : Cond) (out : OutFile) (res : Result) : Prop :=
  ∃ lay, ((out.format ≠ some "sparse" ∧ lay = denseLayout k nx nz) ∨
      (out.format = some "sparse" ∧ ∃ n, lay = sparseLayout t cv f k nx nz a n ∧
        ∀ c i, Kept2 t k nx nz a c → Stored t cv f k c i → i.toNat < n)) ∧
    (∃ v, out.var "pops" = some v ∧ v.dims = res.levels :: lay.dims ∧
      ∀ c p, lay.pos c p → ∀ i < res.levels, v.val (i :: p) = res.pops c i) ∧
    HasDensity out lay "ne" res.ne ∧ HasDensity out lay "nh_tot" res.nhTot

/-- The conditions, with the densities of the result where it has them. -/
def updated (a : Cond) (res : Result) : Cond := { a with ne := res.ne.getD a.ne, nhTot := res.nhTot.getD a.nhTot }

/-- The populations of a cell by atom and level: the levels of the atoms follow each other in the rows. -/
def popsOf (t : Tool) (res : Result) (c : Coord2) : Emis.Pops := fun ia l =>
  res.pops c (((t.ad.atoms.take ia).map fun x => x.top + 1).sum + l)

/-- The LTE populations of a cell (C27). -/
noncomputable def starOf (t : Tool) (a : Cond) (c : Coord2) : Emis.Pops := fun ia l =>
  (EmisSpec.lte t.k t.ad (point a (fun _ => 0) 0 c) ia l).getD 0

/-- `h` is the neutral hydrogen density of the cells: with a hydrogen model, the population of its ground state (the first
row); without, the solution of the Saha equation (C50). -/
def NeutralH (t : Tool) (k nx nz : Nat) (a0 : Cond) (res : Result) (h : Coord2 → ℝ) : Prop :=
  ∀ c, Kept2 t k nx nz a0 c →
    if t.haveH then h c = res.pops c 0
    else 0 ≤ h c ∧ h c ≤ (updated a0 res).nhTot c ∧
      ∃ u, interp (some (Real.logb 10 (a0.temperature c))) (Lte.scaled Lte.logTData) (Lte.scaled Lte.partFnData) = .ok u ∧
        ((updated a0 res).nhTot c - h c) * (updated a0 res).ne c * u =
          h c * 2 * (t.sahaConst * a0.temperature c) ^ (3 / 2 : ℝ) * Real.exp (-t.ionE / a0.temperature c)

/-- What a cell emits and absorbs at any wavelength along a direction: the lines and continua active at the last wavelength
of the grid not above it, cross-sections interpolated (C54); nothing below the grid. `vel` is the velocity along the
light's path: the observer looks along `mu`, the light travels along `-mu`. -/
noncomputable def gasAt (t : Tool) (a : Cond) (res : Result) (h : Coord2 → ℝ) (mu : Boundary.V3) (lambda : ℝ) (c : Coord2) : EO :=
  let n := (t.ad.wavelength.filter fun w => decide (w ≤ lambda)).length
  if n = 0 then ⟨0, 0⟩
  else
    let p := point a h (-(a.vx c * mu.x + a.vy c * mu.y + a.vz c * mu.z)) c
    (EmisSpec.lines t.k t.phi t.ad (n - 1) (popsOf t res c) p lambda).add
      (EmisSpec.conts t.k t.ad (n - 1) (sigmaBetween t.ad (n - 1) lambda) (popsOf t res c) (starOf t a c) p lambda)

/-- The grid, for the traversal: data in the kept tiles. -/
noncomputable def rayEnv (t : Tool) (k nx nz : Nat) (a : Cond) : DdaEnv .two :=
  { lvl := fun c => if Kept2 t k nx nz a ⟨c 0, c 1⟩ then 0 else -1
    maxMip := 0
    block := ((2 ^ k : Nat) : Int)
    max := ![((nx * 2 ^ k : Nat) : Int), ((nz * 2 ^ k : Nat) : Int)] }

/-- The slab that a visited cell is: source function and optical thickness. -/
noncomputable def slabOf (scale : ℝ) (gas : Coord2 → EO) (s : Dda .two) : Slab :=
  ⟨(gas ⟨s.coord 0, s.coord 1⟩).eta / ((gas ⟨s.coord 0, s.coord 1⟩).chi + 1e-20), ((gas ⟨s.coord 0, s.coord 1⟩).chi + 1e-20) * s.dt * scale⟩

/-- `x` (intensity, optical depth) is what is seen along the segment through the gas in front of a background `bI`: of the
stack of the cells with data that the traversal visits, or of the background alone if the segment misses the grid. -/
def RaySees (e : DdaEnv .two) (seg : RaySeg 2) (scale : ℝ) (gas : Coord2 → EO) (bI : ℝ) (x : ℝ × ℝ) : Prop :=
  match ddaStart e seg with
  | none => x = (bI, 0)
  | some (r, s) => ∃ N l, visitsEnd e r N s = some l ∧
      x = (emergent ((l.filter fun v => decide (0 ≤ v.mip)).map (slabOf scale gas)) bI,
        thickness ((l.filter fun v => decide (0 ≤ v.mip)).map (slabOf scale gas)))

/-- Grids and settings the tool can handle: whole tiles, an even number each way, that fit the machine's integers. -/
structure RayFits (t : Tool) (k nx nz : Nat) : Prop where
  block : t.B = 2 ^ k
  entry : 0 < t.E ∧ t.E ≤ 8
  even : Even nx ∧ Even nz
  size : GoodSize2 (2 ^ k) nx nz
  axes : FitsI32Axis k nx ∧ FitsI32Axis k nz

/-- Atomic data and boundary tables that make sense. -/
structure RayReady (t : Tool) : Prop where
  wellFormed : EmisSpec.WellFormed t.ad
  sorted : t.ad.wavelength.Pairwise (· < ·)
  levels : LevelsExist t.ad
  hydrogen : t.haveH = true → t.ad.atoms ≠ []
  saha : 0 ≤ t.sahaConst
  tables : ∀ w, 2 ≤ (t.bc w).I.length ∧ (t.bc w).muMin < (t.bc w).muMax ∧ 0 ≤ (t.bc w).muMin

/-- The configuration asks for these views. -/
def AsksViews (c : RayCfg) (vs : List (Num × Num)) : Prop :=
  ∃ mx mz, c.mux = some mx ∧ c.muz = some mz ∧ mx.length = mz.length ∧ mz ≠ [] ∧ vs = mx.zip mz

/-- The configuration asks for these wavelengths: its own, or if it has none those of the output. -/
def AsksWavelengths (c : RayCfg) (out : OutFile) (wl : List ℝ) : Prop :=
  (c.wavelength = some wl ∧ wl ≠ []) ∨ ((c.wavelength = none ∨ c.wavelength = some []) ∧
    ∃ v, out.var "wavelength" = some v ∧ v.dims = [wl.length] ∧ ∀ i (h : i < wl.length), v.val [i] = wl[i])

/-- Every kernel before the views runs each iteration once, in some order. -/
structure StartOrders {W : Type} (t : Tool) (cv : W → ℝ) (f : NcFile Coord2 W) (k : Nat) (o : StartOrder) : Prop where
  load : GoodSched (2 ^ k * 2 ^ k) inDims2 o.load
  rest : ∀ bm a, load2 (2 ^ k) realOps cv (fun x => decide (x = 0)) f t.cutoff o.load o.junk = .ok (bm, a) →
    o.tiles.Perm (List.range bm.activeTiles.length) ∧ o.ne.Perm (loopIters (2 ^ k * 2 ^ k) bm) ∧
    o.nhTot.Perm (loopIters (2 ^ k * 2 ^ k) bm) ∧ o.pops.Perm (loopIters (2 ^ k * 2 ^ k) bm)

/-- Every kernel of a view runs each iteration once, in some order. -/
structure ViewOrders {W : Type} (t : Tool) (cv : W → ℝ) (f : NcFile Coord2 W) (k : Nat) (o0 : StartOrder) (rays : Nat) (o : ViewOrder) : Prop where
  cells : ∀ bm a w, load2 (2 ^ k) realOps cv (fun x => decide (x = 0)) f t.cutoff o0.load o0.junk = .ok (bm, a) →
    (o.cells w).Perm (loopIters (2 ^ k * 2 ^ k) bm)
  rays : ∀ w, (o.rays w).Perm (List.range rays)

/-- The plane written for a view holds what is seen along its rays. -/
structure PlaneIs (t : Tool) (k nx nz : Nat) (a : Cond) (res : Result) (h : Coord2 → ℝ) (rotate : Bool) (wl : List ℝ) (v : Num × Num) (p : Plane) : Prop where
  starts : p.starts = (List.range (raysOf rotate (nx * 2 ^ k) (nz * 2 ^ k) v)).map fun i => startOf rotate (nx * 2 ^ k) (nz * 2 ^ k) v i
  rows : p.data.rows = wl.length
  cols : p.data.cols = raysOf rotate (nx * 2 ^ k) (nz * 2 ^ k) v
  value : ∀ w (hw : w < wl.length) i, i < raysOf rotate (nx * 2 ^ k) (nz * 2 ^ k) v → ∃ bI,
    boundaryI2 (t.bc w) a.scale (a.offset 0) (a.offset 2) (startOf rotate (nx * 2 ^ k) (nz * 2 ^ k) v i) (flatMu (muOf v)) = .ok bI ∧
    RaySees (rayEnv t k nx nz a) (segOf rotate (nx * 2 ^ k) (nz * 2 ^ k) v i) (distanceFactor a.scale (muOf v))
      (gasAt t (updated a res) res h (muOf v) wl[w]) bI (p.data.get w i)

/-- The Saha equation can be solved in the cells that are kept. -/
def WarmKept (t : Tool) (k nx nz : Nat) (a : Cond) (res : Result) : Prop :=
  ∀ c, Kept2 t k nx nz a c → 0 < a.temperature c ∧ 0 < (updated a res).ne c ∧ 0 ≤ (updated a res).nhTot c

/-- No ray of the view enters the grid in an empty tile that it leaves within 1e-6 (C39: the traversal goes wrong there). -/
def GoodStarts (t : Tool) (k nx nz : Nat) (a : Cond) (rotate : Bool) (v : Num × Num) : Prop :=
  ∀ i r s, ddaStart (rayEnv t k nx nz a) (segOf rotate (nx * 2 ^ k) (nz * 2 ^ k) v i) = some (r, s) → GoodStart (rayEnv t k nx nz a) r

end DexRT.RayRun
