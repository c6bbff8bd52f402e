import Verif.Model.LteRun3
import Verif.Spec.GivenFs3
import Verif.Spec.AtmosFile
import Verif.Spec.Emis
import Verif.Spec.PopsField
/-!
Vocabulary for C91: the 3D atmosphere a file describes, the light its gas emits and absorbs in LTE, and the conditions on
atomic data and schedules of a 3D `Lte` run.
-/
namespace DexRT.Lte3
open DexRT DexRT.Fs DexRT.AtmosFile DexRT.Dir DexRT.Given3 DexRT.Emis

/-- The conditions in every cell: temperature, electron and hydrogen density, microturbulence, velocity. -/
structure Cond where
  temperature : Coord3 → ℝ
  ne : Coord3 → ℝ
  nhTot : Coord3 → ℝ
  vturb : Coord3 → ℝ
  vx : Coord3 → ℝ
  vy : Coord3 → ℝ
  vz : Coord3 → ℝ
  /-- size of a voxel -/
  scale : ℝ
  /-- position of the corner of the grid -/
  offset : Fin 3 → ℝ

/-- The file has a field with these values. -/
def HasField {W : Type} (f : NcFile Coord3 W) (cv : W → ℝ) (name : String) (x : Coord3 → ℝ) : Prop :=
  ∃ v, f.grid name = some v ∧ ∀ c, x c = cv (v c)

/-- The file has a number with this value, or none and the value is 0. -/
def HasOffset {W : Type} (f : NcFile Coord3 W) (cv : W → ℝ) (name : String) (x : ℝ) : Prop :=
  (f.scalar name = none ∧ x = 0) ∨ ∃ v, f.scalar name = some v ∧ x = cv v

/-- The file is a dense atmosphere of `nx` by `ny` by `nz` tiles of side `B` with these conditions. -/
structure Describes {W : Type} (f : NcFile Coord3 W) (cv : W → ℝ) (B nx ny nz : Nat) (a : Cond) : Prop where
  dense : DenseFile3 B nx ny nz f
  temperature : HasField f cv "temperature" a.temperature
  ne : HasField f cv "ne" a.ne
  nhTot : HasField f cv "nh_tot" a.nhTot
  vturb : HasField f cv "vturb" a.vturb
  vx : HasField f cv "vx" a.vx
  vy : HasField f cv "vy" a.vy
  vz : HasField f cv "vz" a.vz
  scale : ∃ v, f.scalar "voxel_scale" = some v ∧ a.scale = cv v
  offset : HasOffset f cv "offset_x" (a.offset 0) ∧ HasOffset f cv "offset_y" (a.offset 1) ∧ HasOffset f cv "offset_z" (a.offset 2)

/-- The gas of a cell, moving with speed `vel` along the ray, with neutral hydrogen density `h`. -/
def point (a : Cond) (h : Coord3 → ℝ) (vel : ℝ) (c : Coord3) : Point :=
  { temperature := a.temperature c, ne := a.ne c, vturb := a.vturb c, nhtot := a.nhTot c, vel := vel, nh0 := h c }

/-- The LTE populations of a cell (C27). -/
noncomputable def ltePop (r : Run) (a : Cond) (c : Coord3) : Emis.Pops := fun ia l =>
  (EmisSpec.lte r.k r.ad (point a (fun _ => 0) 0 c) ia l).getD 0

/-- `h` is the neutral hydrogen density of the cells with populations `pf`: with a hydrogen model, the ground state population;
without, the solution of the Saha equation (C50). -/
def NeutralOf (r : Run) (k nx ny nz : Nat) (a : Cond) (pf : Coord3 → Emis.Pops) (h : Coord3 → ℝ) : Prop := ∀ c, InGrid k nx ny nz c →
  if r.haveH then h c = pf c 0 0
  else 0 ≤ h c ∧ h c ≤ a.nhTot c ∧
    ∃ u, interp (some (Real.logb 10 (a.temperature c))) (Lte.scaled Lte.logTData) (Lte.scaled Lte.partFnData) = .ok u ∧
      (a.nhTot c - h c) * a.ne c * u = h c * 2 * (r.sahaConst * a.temperature c) ^ (3 / 2 : ℝ) * Real.exp (-r.ionE / a.temperature c)

/-- Neutral hydrogen in LTE. -/
abbrev NeutralH (r : Run) (k nx ny nz : Nat) (a : Cond) (h : Coord3 → ℝ) : Prop := NeutralOf r k nx ny nz a (ltePop r a) h

/-- What a cell with populations `pf` emits and absorbs at wavelength number `la` along direction `mu`: all lines and continua,
with the velocity of the gas along the ray (C54). -/
noncomputable def gasOf (r : Run) (a : Cond) (h : Coord3 → ℝ) (pf : Coord3 → Emis.Pops) (la : Nat) (mu : Fin 3 → ℝ) (c : Coord3) : EO :=
  EmisSpec.total r.k r.phi r.ad la (pf c) (ltePop r a c)
    (point a h (a.vx c * mu 0 + a.vy c * mu 1 + a.vz c * mu 2) c) (r.ad.wavelength.getD la 0) .All

/-- The atmosphere with populations `pf`, for the march. -/
noncomputable def gasWorld (r : Run) (k nx ny nz : Nat) (a : Cond) (h : Coord3 → ℝ) (pf : Coord3 → Emis.Pops) : World .three :=
  { lvl := fun c => if 0 ≤ c 0 ∧ c 0 < ((nx * 2 ^ k : Nat) : Int) ∧ 0 ≤ c 1 ∧ c 1 < ((ny * 2 ^ k : Nat) : Int) ∧
      0 ≤ c 2 ∧ c 2 < ((nz * 2 ^ k : Nat) : Int) then 0 else -1
    block := ((2 ^ k : Nat) : Int)
    max := ![((nx * 2 ^ k : Nat) : Int), ((ny * 2 ^ k : Nat) : Int), ((nz * 2 ^ k : Nat) : Int)]
    mip := fun _ => 0
    extraSafe := r.extraSafe
    toInfty := r.toInfty
    scale := a.scale
    offset := a.offset
    eta := fun la mu _ c => (gasOf r a h pf la.toNat mu ⟨c 0, c 1, c 2⟩).eta
    chi := fun la mu _ c => (gasOf r a h pf la.toNat mu ⟨c 0, c 1, c 2⟩).chi
    bc := r.bc }

/-- The atmosphere in LTE. -/
noncomputable abbrev lteWorld (r : Run) (k nx ny nz : Nat) (a : Cond) (h : Coord3 → ℝ) : World .three :=
  gasWorld r k nx ny nz a h (ltePop r a)

/-- The lines active at wavelength number `la`. -/
def activeLines (r : Run) (la : Nat) : Finset Nat := (Finset.range r.ad.lines.length).filter fun kr =>
  ∃ l, r.ad.lines[kr]? = some l ∧ l.blue ≤ la ∧ la < l.red

/-- The settings and atomic data that a 3D `Lte` run can handle, apart from the number of line slots: well-formed data, levels
that exist, at least one cascade above the first (C74), and a hydrogen model, if there is one, with a level. -/
structure Sound (r : Run) : Prop where
  wellFormed : EmisSpec.WellFormed r.ad
  lambda0 : ∀ l ∈ r.ad.lines, l.lambda0 ≠ 0
  levels : LteRun.LevelsExist r.ad
  cascades : 0 < r.s.num
  cutoff : r.cutoff = 0
  hydrogen : r.haveH = true → r.ad.atoms ≠ []
  saha : 0 ≤ r.sahaConst

/-- The same, and no wavelength with more lines than slots (C52). -/
structure Ready (r : Run) : Prop extends Sound r where
  slots : ∀ la, la < r.ad.wavelength.length → (activeLines r la).card ≤ r.maxLines

/-- Temperatures and densities that the Saha equation can be solved for. -/
def Warm (k nx ny nz : Nat) (a : Cond) : Prop := ∀ c, InGrid k nx ny nz c → 0 < a.temperature c ∧ 0 < a.ne c ∧ 0 ≤ a.nhTot c

/-- Every kernel before the wavelengths runs each iteration once, in some order. -/
structure StartOrders (r : Run) (k nx ny nz : Nat) (o : StartOrder) : Prop where
  load : GoodSched (2 ^ k * 2 ^ k * 2 ^ k) inDims3 o.load
  pops : o.pops.Perm (PopsField.threads (LteRun.fieldAtoms r.ad) (nx * ny * nz * (2 ^ k * 2 ^ k * 2 ^ k)))
  nh0 : o.nh0.Perm (List.range (nx * ny * nz * (2 ^ k * 2 ^ k * 2 ^ k)))

/-- Every kernel of a wavelength runs each iteration once, in some order. -/
structure LaOrders (r : Run) (k nx ny nz : Nat) (o : LaOrder) : Prop where
  base : Orders r.s k nx ny nz o.b
  vel : o.vel.Perm ((List.range (nx * ny * nz)).flatMap fun t => (List.range (2 ^ k * 2 ^ k * 2 ^ k)).map fun b => (t, Int.ofNat b))
  cav : ∀ krl, (o.cav krl).Perm
    ((List.range (nx * ny * nz)).flatMap fun t => (List.range (2 ^ k * 2 ^ k * 2 ^ k)).map fun b => (t, Int.ofNat b))

/-- `J` (wavelength, `(z * Ny + y) * Nx + x`) is the angular mean of the radiance of the gas in LTE: the rays of all cascades
marched through the atmosphere, and the radiance of the cascades made of them (C74). -/
structure LteSolves (r : Run) (k nx ny nz : Nat) (a : Cond) (J : Arr2 ℝ) : Prop where
  rows : J.rows = r.ad.wavelength.length
  cols : J.cols = nx * 2 ^ k * (ny * 2 ^ k) * (nz * 2 ^ k)
  value : ∃ h, NeutralH r k nx ny nz a h ∧ ∀ la, la < r.ad.wavelength.length → ∃ march : Bool → Nat → ProbeIdx3 → Seg ℝ,
    Marches3 (lteWorld r k nx ny nz a h) (envOf r.s (nx * 2 ^ k) (ny * 2 ^ k) (nz * 2 ^ k) march) r.s.len la ∧
    ∀ x y z, x < nx * 2 ^ k → y < ny * 2 ^ k → z < nz * 2 ^ k →
      J.get la ((z * (ny * 2 ^ k) + y) * (nx * 2 ^ k) + x) = meanIntensity3 r.s.cfg.c0az r.s.cfg.c0polar
        (radiance3 march (nx * 2 ^ k) (ny * 2 ^ k) (nz * 2 ^ k) (upperTexels3 r.s.cfg.branch).1 (upperTexels3 r.s.cfg.branch).2
          r.s.num r.s.num) x y z

/-- In the cells of the grid, wavelength number `la` is emitted and absorbed thermally: temperature and densities are positive
and so are the constants; cross-sections are not negative; the profile is not negative; each line active at `la` has
Einstein coefficients that satisfy the Einstein relations and, in each cell, populations in Boltzmann's ratio (C27). -/
structure Thermal (r : Run) (k nx ny nz : Nat) (a : Cond) (la : Nat) : Prop where
  consts : 0 < r.k.c ∧ 0 < r.k.hc ∧ 0 < r.k.fourPi ∧ 0 < r.k.sqrtPi ∧ 0 < r.k.twohc2 ∧ 0 < r.k.hck ∧ 0 < r.k.kB ∧ 0 < r.k.dbc ∧ 0 < r.k.fmin
  wave : 0 < r.ad.wavelength.getD la 0
  cells : ∀ c, InGrid k nx ny nz c → 0 < a.temperature c ∧ 0 < a.ne c ∧ 0 < a.nhTot c
  atoms : ∀ x ∈ r.ad.atoms, 0 < x.abundance ∧ ∀ i, 0 < (x.lv i).g
  sigma : ∀ c ∈ r.ad.conts, ∀ s ∈ c.sigma, 0 ≤ s
  phi : ∀ x y, 0 ≤ r.phi x y
  lines : ∀ l ∈ r.ad.lines, l.blue ≤ la → la < l.red → 0 < l.lambda0 ∧ 0 ≤ l.bji ∧ ∃ gi gj : ℝ, 0 < gi ∧ 0 < gj ∧ gi * l.bij = gj * l.bji ∧
    l.aji = 10 ^ 18 * r.k.twohc2 / l.lambda0 ^ 5 * l.bji ∧ ∀ c, InGrid k nx ny nz c →
      ltePop r a c l.atom l.j = ltePop r a c l.atom l.i * (gj / gi) * Real.exp (-r.k.hck / (l.lambda0 * a.temperature c))

/-- The same run with another place for J, another number of line slots and another `initial_lambda_iterations`. -/
def Run.rearranged (r : Run) (onCpu : Bool) (slots : Nat) (lam : Bool) : Run := { r with onCpu := onCpu, maxLines := slots, lam := lam }

end DexRT.Lte3
