import Verif.Model.LteRun
import Verif.Spec.GivenFs
import Verif.Spec.AtmosFile
import Verif.Spec.Emis
import Verif.Spec.PopsField
/-!
Vocabulary for C86: the atmosphere a file describes, the light its gas emits and absorbs in LTE, and the conditions on
atomic data and schedules of an `Lte` run.
-/
namespace DexRT.LteRun
open DexRT DexRT.Fs DexRT.AtmosFile DexRT.Dir DexRT.Given DexRT.Emis

/-- The conditions in every cell: temperature, electron and hydrogen density, microturbulence, velocity. -/
structure Cond where
  temperature : Coord2 → ℝ
  ne : Coord2 → ℝ
  nhTot : Coord2 → ℝ
  vturb : Coord2 → ℝ
  vx : Coord2 → ℝ
  vy : Coord2 → ℝ
  vz : Coord2 → ℝ
  /-- size of a voxel -/
  scale : ℝ
  /-- position of the corner of the grid -/
  offset : Fin 3 → ℝ

/-- The file has a field with these values. -/
def HasField {W : Type} (f : NcFile Coord2 W) (cv : W → ℝ) (name : String) (x : Coord2 → ℝ) : Prop :=
  ∃ v, f.grid name = some v ∧ ∀ c, x c = cv (v c)

/-- The file has a number with this value, or none and the value is 0. -/
def HasOffset {W : Type} (f : NcFile Coord2 W) (cv : W → ℝ) (name : String) (x : ℝ) : Prop :=
  (f.scalar name = none ∧ x = 0) ∨ ∃ v, f.scalar name = some v ∧ x = cv v

/-- The file is a dense atmosphere of `nx` by `nz` tiles of side `B` with these conditions. -/
structure Describes {W : Type} (f : NcFile Coord2 W) (cv : W → ℝ) (B nx nz : Nat) (a : Cond) : Prop where
  dense : DenseFile2 B nx nz f
  temperature : HasField f cv "temperature" a.temperature
  ne : HasField f cv "ne" a.ne
  nhTot : HasField f cv "nh_tot" a.nhTot
  vturb : HasField f cv "vturb" a.vturb
  vx : HasField f cv "vx" a.vx
  vy : HasField f cv "vy" a.vy
  vz : HasField f cv "vz" a.vz
  scale : ∃ v, f.scalar "voxel_scale" = some v ∧ a.scale = cv v
  offset : HasOffset f cv "offset_x" (a.offset 0) ∧ HasOffset f cv "offset_y" (a.offset 1) ∧ HasOffset f cv "offset_z" (a.offset 2)

/-- The gas of a cell, moving with speed `vel` along the ray, with neutral hydrogen density `h`. -/
def point (a : Cond) (h : Coord2 → ℝ) (vel : ℝ) (c : Coord2) : Point :=
  { temperature := a.temperature c, ne := a.ne c, vturb := a.vturb c, nhtot := a.nhTot c, vel := vel, nh0 := h c }

/-- The LTE populations of a cell (C27). -/
noncomputable def ltePop (r : Lte) (a : Cond) (c : Coord2) : Emis.Pops := fun ia l =>
  (EmisSpec.lte r.k r.ad (point a (fun _ => 0) 0 c) ia l).getD 0

/-- `h` is the neutral hydrogen density of the cells with populations `pf`: with a hydrogen model, the ground state population;
without, the solution of the Saha equation (C50). -/
def NeutralOf (r : Lte) (k nx nz : Nat) (a : Cond) (pf : Coord2 → Emis.Pops) (h : Coord2 → ℝ) : Prop := ∀ c, Given.InGrid k nx nz c →
  if r.haveH then h c = pf c 0 0
  else 0 ≤ h c ∧ h c ≤ a.nhTot c ∧
    ∃ u, interp (some (Real.logb 10 (a.temperature c))) (Lte.scaled Lte.logTData) (Lte.scaled Lte.partFnData) = .ok u ∧
      (a.nhTot c - h c) * a.ne c * u = h c * 2 * (r.sahaConst * a.temperature c) ^ (3 / 2 : ℝ) * Real.exp (-r.ionE / a.temperature c)

/-- Neutral hydrogen in LTE. -/
abbrev NeutralH (r : Lte) (k nx nz : Nat) (a : Cond) (h : Coord2 → ℝ) : Prop := NeutralOf r k nx nz a (ltePop r a) h

/-- What a cell with populations `pf` emits and absorbs at wavelength number `la` along direction `mu`: all lines and continua,
with the velocity of the gas along the ray (C54). -/
noncomputable def gasOf (r : Lte) (a : Cond) (h : Coord2 → ℝ) (pf : Coord2 → Emis.Pops) (la : Nat) (mu : Fin 3 → ℝ) (c : Coord2) : EO :=
  EmisSpec.total r.k r.phi r.ad la (pf c) (ltePop r a c)
    (point a h (a.vx c * mu 0 + a.vy c * mu 1 + a.vz c * mu 2) c) (r.ad.wavelength.getD la 0) .All

/-- The same in LTE. -/
noncomputable abbrev gas (r : Lte) (a : Cond) (h : Coord2 → ℝ) (la : Nat) (mu : Fin 3 → ℝ) (c : Coord2) : EO :=
  gasOf r a h (ltePop r a) la mu c

/-- The atmosphere with populations `pf`, for the march. -/
noncomputable def gasWorld (r : Lte) (k nx nz : Nat) (a : Cond) (h : Coord2 → ℝ) (pf : Coord2 → Emis.Pops) : World .two :=
  { lvl := fun c => if 0 ≤ c 0 ∧ c 0 < ((nx * 2 ^ k : Nat) : Int) ∧ 0 ≤ c 1 ∧ c 1 < ((nz * 2 ^ k : Nat) : Int) then 0 else -1
    block := ((2 ^ k : Nat) : Int)
    max := ![((nx * 2 ^ k : Nat) : Int), ((nz * 2 ^ k : Nat) : Int)]
    mip := fun n => r.s.levels.getD n 0
    extraSafe := r.s.extraSafe
    toInfty := r.s.toInfty
    scale := a.scale
    offset := a.offset
    eta := fun la mu _ c => (gasOf r a h pf la.toNat mu ⟨c 0, c 1⟩).eta
    chi := fun la mu _ c => (gasOf r a h pf la.toNat mu ⟨c 0, c 1⟩).chi
    bc := r.bc }

/-- The atmosphere in LTE. -/
noncomputable abbrev lteWorld (r : Lte) (k nx nz : Nat) (a : Cond) (h : Coord2 → ℝ) : World .two := gasWorld r k nx nz a h (ltePop r a)

/-- The lines active anywhere in the batch that starts at `la`. -/
def batchLines (r : Lte) (la : Nat) : Finset Nat := (Finset.range r.ad.lines.length).filter fun kr =>
  ∃ l, r.ad.lines[kr]? = some l ∧ ∃ w < min r.s.W (r.ad.wavelength.length - la), l.blue ≤ la + w ∧ la + w < l.red

/-- The settings and atomic data that an `Lte` run can handle: well-formed data, levels that exist, no levels of detail, at
least one cascade above the first (C74), no batch with more lines than slots (C52), in every batch either a continuum at its
first wavelength or none at all (C57), and a hydrogen model, if there is one, with a level. -/
structure Ready (r : Lte) : Prop where
  wellFormed : EmisSpec.WellFormed r.ad
  lambda0 : ∀ l ∈ r.ad.lines, l.lambda0 ≠ 0
  levels : LevelsExist r.ad
  noMips : topLevel r.s = 0
  cascades : 0 < r.s.num
  cutoff : r.cutoff = 0
  slots : ∀ la, r.s.W ∣ la → la < r.ad.wavelength.length → (batchLines r la).card ≤ r.maxLines
  continua : ∀ la, r.s.W ∣ la → la < r.ad.wavelength.length → (∃ c ∈ r.ad.conts, c.blue ≤ la ∧ la < c.red) ∨
    ∀ c ∈ r.ad.conts, ∀ w < min r.s.W (r.ad.wavelength.length - la), ¬ (c.blue ≤ la + w ∧ la + w < c.red)
  hydrogen : r.haveH = true → r.ad.atoms ≠ []
  saha : 0 ≤ r.sahaConst

/-- Temperatures and densities that the Saha equation can be solved for. -/
def Warm (k nx nz : Nat) (a : Cond) : Prop := ∀ c, Given.InGrid k nx nz c → 0 < a.temperature c ∧ 0 < a.ne c ∧ 0 ≤ a.nhTot c

/-- Every kernel before the batches runs each iteration once, in some order. -/
structure StartOrders (r : Lte) (k nx nz : Nat) (o : StartOrder) : Prop where
  load : GoodSched (2 ^ k * 2 ^ k) inDims2 o.load
  pops : o.pops.Perm (PopsField.threads (fieldAtoms r.ad) (nx * nz * (2 ^ k * 2 ^ k)))
  nh0 : o.nh0.Perm (List.range (nx * nz * (2 ^ k * 2 ^ k)))

/-- Every kernel of a batch runs each iteration once, in some order. -/
structure LteOrders (r : Lte) (k nx nz wv : Nat) (o : LteOrder) : Prop where
  base : Orders r.s k nx nz wv o.b
  vel : o.vel.Perm ((List.range (nx * nz)).flatMap fun t => (List.range (2 ^ k * 2 ^ k)).map fun b => (t, Int.ofNat b))
  cav : ∀ krl, (o.cav krl).Perm ((List.range (nx * nz)).flatMap fun t => (List.range (2 ^ k * 2 ^ k)).map fun b => (t, Int.ofNat b))

/-- `J` (wavelength, `z * Nx + x`) is the angular mean of the radiance of the gas in LTE: the rays of all cascades
marched through the atmosphere, and the radiance of the cascades made of them (C74). -/
structure LteSolves (r : Lte) (k nx nz : Nat) (a : Cond) (J : Arr2 ℝ) : Prop where
  rows : J.rows = r.ad.wavelength.length
  cols : J.cols = nx * 2 ^ k * (nz * 2 ^ k)
  value : ∃ h, NeutralH r k nx nz a h ∧ ∀ la, la < r.ad.wavelength.length → ∃ march : Bool → Nat → ProbeIdx2 → Seg ℝ,
    Marches2 (lteWorld r k nx nz a h) (envOf r.s (nx * 2 ^ k) (nz * 2 ^ k) march) (raysFrom r.s (la / r.s.W * r.s.W))
      (min r.s.W (r.ad.wavelength.length - la / r.s.W * r.s.W)) ∧
    ∀ x z, x < nx * 2 ^ k → z < nz * 2 ^ k → J.get la (z * (nx * 2 ^ k) + x) = meanIntensity2 r.s.cfg.p0rays r.s.incl r.s.wmuy
      (radiance2 march (nx * 2 ^ k) (nz * 2 ^ k) (upperTexelsPerRay r.s.cfg) r.s.num r.s.num) x z (la % r.s.W)

/-- In the cells of the grid, wavelength number `la` is emitted and absorbed thermally: temperature and densities are positive
and so are the constants; cross-sections are not negative; the profile is not negative; each line active at `la` has
Einstein coefficients that satisfy the Einstein relations and, in each cell, populations in Boltzmann's ratio (C27). -/
structure Thermal (r : Lte) (k nx nz : Nat) (a : Cond) (la : Nat) : Prop where
  consts : 0 < r.k.c ∧ 0 < r.k.hc ∧ 0 < r.k.fourPi ∧ 0 < r.k.sqrtPi ∧ 0 < r.k.twohc2 ∧ 0 < r.k.hck ∧ 0 < r.k.kB ∧ 0 < r.k.dbc ∧ 0 < r.k.fmin
  wave : 0 < r.ad.wavelength.getD la 0
  cells : ∀ c, Given.InGrid k nx nz c → 0 < a.temperature c ∧ 0 < a.ne c ∧ 0 < a.nhTot c
  atoms : ∀ x ∈ r.ad.atoms, 0 < x.abundance ∧ ∀ i, 0 < (x.lv i).g
  sigma : ∀ c ∈ r.ad.conts, ∀ s ∈ c.sigma, 0 ≤ s
  phi : ∀ x y, 0 ≤ r.phi x y
  lines : ∀ l ∈ r.ad.lines, l.blue ≤ la → la < l.red → 0 < l.lambda0 ∧ 0 ≤ l.bji ∧ ∃ gi gj : ℝ, 0 < gi ∧ 0 < gj ∧ gi * l.bij = gj * l.bji ∧
    l.aji = 10 ^ 18 * r.k.twohc2 / l.lambda0 ^ 5 * l.bji ∧ ∀ c, Given.InGrid k nx nz c →
      ltePop r a c l.atom l.j = ltePop r a c l.atom l.i * (gj / gi) * Real.exp (-r.k.hck / (l.lambda0 * a.temperature c))

/-- The same run with another number of wavelengths per batch, another place for J, another number of line slots. -/
def Lte.rearranged (r : Lte) (W : Nat) (onCpu : Bool) (slots : Nat) : Lte :=
  { r with s := { r.s with W := W, onCpu := onCpu }, maxLines := slots }

end DexRT.LteRun
