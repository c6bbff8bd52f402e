import Verif.Model.NlteRun
import Verif.Spec.LteRun
import Verif.Spec.RadGamma
import Verif.Props.StatEq
/-!
Vocabulary for C89: what one iteration of a `NonLte` run does to the populations of an atmosphere, in terms of the light in
the atmosphere and the rates of the atoms, without arrays, tiles, batches, kernels or schedules.
-/
namespace DexRT.Nlte
open DexRT DexRT.Fs DexRT.Dir DexRT.Given DexRT.Emis DexRT.LteRun DexRT.RadGamma Finset

/-- Everything the rates need to know about the gas of cell `c`: conditions, neutral hydrogen, populations `pf`, LTE
populations. -/
noncomputable def gasCell (r : LteRun.Lte) (a : Cond) (h : Coord2 → ℝ) (pf : Coord2 → Emis.Pops) (c : Coord2) : RadGamma.Cell :=
  { ks := 0, u := c.x.toNat, v := c.z.toNat, w := 0, temperature := a.temperature c, ne := a.ne c, vturb := a.vturb c,
    nhtot := a.nhTot c, nh0 := h c, vx := a.vx c, vy := a.vy c, vz := a.vz c, n := pf c, nStar := ltePop r a c }

/-- The rays marched through the atmosphere: for each batch of wavelengths (its first wavelength), with and without boundary
condition, by cascade and ray. -/
abbrev Marched := Nat → Bool → Nat → ProbeIdx2 → Seg ℝ

/-- Ray `(dir, incl)` of the probe at cell `c`, wavelength number `la`. -/
def rayAt (s : Settings) (c : Coord2) (la : Nat) (x : Nat × Nat) : ProbeIdx2 := ⟨c.x.toNat, c.z.toNat, x.1, x.2, la % s.W⟩

/-- The intensity that arrives at cell `c` at wavelength number `la` along ray `x` (C74). -/
noncomputable def arriving (s : Settings) (Nx Nz : Nat) (march : Marched) (c : Coord2) (la : Nat) (x : Nat × Nat) : ℝ :=
  radiance2 (march (la / s.W * s.W)) Nx Nz (upperTexelsPerRay s.cfg) s.num s.num (rayAt s c la x)

/-- The approximate operator of the cell for that ray; zero in a Lambda iteration. -/
noncomputable def operator (s : Settings) (lam : Bool) (march : Marched) (c : Coord2) (la : Nat) (x : Nat × Nat) : ℝ :=
  if lam then 0 else (march (la / s.W * s.W) false 0 (rayAt s c la x)).psi

/-- The atomic data as the rates use them: constants, profile, levels, quadrature weights of the wavelengths, and which lines and
continua belong to which atom. -/
noncomputable def rateData (q : Setup) : Env :=
  { k := q.r.k, eps := q.eps, phi := q.r.phi, ad := q.r.ad, bin := q.bin, lineRange := q.lineRange, contRange := q.contRange,
    numLevel := q.r.ad.atoms.map fun x => x.top + 1 }

/-- Direction in which light travels along ray `(dir, incl)`: `p0rays` directions in the plane, each with the inclinations `muy`. -/
noncomputable def travels (s : Settings) (x : Nat × Nat) : Fin 3 → ℝ := travel2 s.cfg.p0rays x.1 (s.muy x.2)

/-- Its weight in the angular mean. -/
noncomputable def rayWeight (s : Settings) (x : Nat × Nat) : ℝ := 1 / s.cfg.p0rays * s.wmuy[x.2]?.getD 0

/-- The rays through cell `c` with what arrives along them. -/
noncomputable def cellRays (q : Setup) (k nx nz : Nat) (a : Cond) (h : Coord2 → ℝ) (pf : Coord2 → Emis.Pops) (march : Marched) (lam : Bool)
    (c : Coord2) : RaySet (Nat × Nat) :=
  { rays := range q.r.s.cfg.p0rays ×ˢ range q.r.s.incl
    vel := fun x => along (gasCell q.r a h pf c) (travels q.r.s x)
    weight := rayWeight q.r.s
    I := arriving q.r.s (nx * 2 ^ k) (nz * 2 ^ k) march c
    psi := operator q.r.s lam march c }

/-- The integral of the profile of line `l` over its wavelengths and the rays of the cell. -/
noncomputable def profileSum (q : Setup) (c : RadGamma.Cell) (l : Line) : ℝ :=
  ∑ la ∈ Ico l.blue l.red, ∑ x ∈ range q.r.s.cfg.p0rays ×ˢ range q.r.s.incl, (q.bin[la]?).getD 0 * rayWeight q.r.s x *
    lineProfile (rateData q) c l ((q.r.ad.wavelength[la]?).getD 0) (along c (travels q.r.s x))

/-- The factor that makes the profile of line `kr` integrate to one over its wavelengths and the rays of the cell; one if the
integral is zero. -/
noncomputable def lineFactor (q : Setup) (c : RadGamma.Cell) (kr : Nat) : ℝ :=
  match q.r.ad.lines[kr]? with
  | none => 0
  | some l => if profileSum q c l = 0 then 1 else 1 / profileSum q c l

/-- The collisions of an atom with `n` levels. -/
def atomColls (n : Nat) (l : List RawColl) : List (DexRT.Lte.Coll n) :=
  l.filterMap fun c => if h : c.i < n ∧ c.j < n then some ⟨c.type, ⟨c.i, h.1⟩, ⟨c.j, h.2⟩, c.temps, c.rates⟩ else none

/-- `C` are the collisional rates of atom `ia` (with data `x`) in cell `c` (C28). -/
def Collisional (q : Setup) (a : Cond) (h : Coord2 → ℝ) (c : Coord2) (ia : Nat) (x : Atom) (C : Fin (x.top + 1) → Fin (x.top + 1) → ℝ) : Prop :=
  DexRT.Lte.computeCollisions q.ck x.lv { temperature := a.temperature c, ne := a.ne c, nhTot := a.nhTot c, nh0 := h c }
    (fun l => ltePop q.r a c ia l) (atomColls (x.top + 1) (q.colls ia)) (fun _ _ => 0) = .ok C

/-- The rate from level `j` to level `i` of atom `ia` in cell `c`: collisions `C` and radiation. -/
noncomputable def rate (q : Setup) (k nx nz : Nat) (a : Cond) (h : Coord2 → ℝ) (pf : Coord2 → Emis.Pops) (march : Marched) (lam : Bool)
    (c : Coord2) (ia n : Nat) (C : Fin n → Fin n → ℝ) : Fin n → Fin n → ℝ := fun i j =>
  C i j + radiativeRate (rateData q) (gasCell q.r a h pf c) (lineFactor q (gasCell q.r a h pf c))
    (range q.r.ad.wavelength.length) (cellRays q k nx nz a h pf march lam c) ia i j

/-- `h` is the neutral hydrogen and `march` the rays marched through the gas with populations `pf`. -/
structure Light (q : Setup) (k nx nz : Nat) (a : Cond) (pf : Coord2 → Emis.Pops) (h : Coord2 → ℝ) (march : Marched) : Prop where
  neutral : NeutralOf q.r k nx nz a pf h
  rays : ∀ la, la < q.r.ad.wavelength.length → q.r.s.W ∣ la →
    Marches2 (gasWorld q.r k nx nz a h pf) (envOf q.r.s (nx * 2 ^ k) (nz * 2 ^ k) (march la)) (raysFrom q.r.s la)
      (min q.r.s.W (q.r.ad.wavelength.length - la))

/-- `J` (wavelength, `z * Nx + x`) is the angular mean of what arrives. -/
structure MeanOf (q : Setup) (k nx nz : Nat) (march : Marched) (J : Arr2 ℝ) : Prop where
  rows : J.rows = q.r.ad.wavelength.length
  cols : J.cols = nx * 2 ^ k * (nz * 2 ^ k)
  value : ∀ la, la < q.r.ad.wavelength.length → ∀ x z, x < nx * 2 ^ k → z < nz * 2 ^ k → J.get la (z * (nx * 2 ^ k) + x) =
    meanIntensity2 q.r.s.cfg.p0rays q.r.s.incl q.r.s.wmuy
      (radiance2 (march (la / q.r.s.W * q.r.s.W)) (nx * 2 ^ k) (nz * 2 ^ k) (upperTexelsPerRay q.r.s.cfg) q.r.s.num q.r.s.num) x z (la % q.r.s.W)

/-- One iteration, from populations `pf` to populations `pf'`: there is light, that of the gas with populations `pf`; `J` is its
mean; and in every cell the new populations of every atom balance the rates that the light and the collisions give, and
add up to the abundance of the element. `lam`: without approximate operator. -/
def Iterates (q : Setup) (k nx nz : Nat) (a : Cond) (lam : Bool) (pf pf' : Coord2 → Emis.Pops) (J : Arr2 ℝ) : Prop :=
  ∃ h march, Light q k nx nz a pf h march ∧ MeanOf q k nx nz march J ∧
    ∀ c, Given.InGrid k nx nz c → ∀ ia x, q.r.ad.atoms[ia]? = some x → ∃ C, Collisional q a h c ia x C ∧
      Balanced (rate q k nx nz a h pf march lam c ia (x.top + 1) C) (fun l => pf' c ia l) ∧
      ∑ l : Fin (x.top + 1), pf' c ia l = a.nhTot c * x.abundance

/-- For the gas with populations `pf` the rates of every atom in every cell can be balanced: no rate is negative and every level
can reach every other (C25). -/
def Solvable (q : Setup) (k nx nz : Nat) (a : Cond) (lam : Bool) (pf : Coord2 → Emis.Pops) : Prop :=
  ∀ h march, Light q k nx nz a pf h march → ∀ c, Given.InGrid k nx nz c → ∀ ia x, q.r.ad.atoms[ia]? = some x → ∀ C, Collisional q a h c ia x C →
    RatesNonneg (rate q k nx nz a h pf march lam c ia (x.top + 1) C) ∧ ∀ e, Reaches (rate q k nx nz a h pf march lam c ia (x.top + 1) C) e

/-- `d` is the largest relative change of a population from `pf` to `pf'`, of those that are not below the fraction
`frac` of their element. -/
structure LargestChange (q : Setup) (k nx nz : Nat) (a : Cond) (pf pf' : Coord2 → Emis.Pops) (d : ℝ) : Prop where
  bound : ∀ c, Given.InGrid k nx nz c → ∀ ia x, q.r.ad.atoms[ia]? = some x → ∀ l, l < x.top + 1 →
    q.ignoreFrac * (a.nhTot c * x.abundance) ≤ pf c ia l → |1 - pf c ia l / pf' c ia l| ≤ d
  attained : d = 0 ∨ ∃ c ia x l, Given.InGrid k nx nz c ∧ q.r.ad.atoms[ia]? = some x ∧ l < x.top + 1 ∧
    q.ignoreFrac * (a.nhTot c * x.abundance) ≤ pf c ia l ∧ d = |1 - pf c ia l / pf' c ia l|
  nonneg : 0 ≤ d

/-- The array of populations in the final state holds `pf`: population of level `l` of atom `ia` in cell `c`. -/
def StoresPops (r : LteRun.Lte) (k nx nz : Nat) (pf : Coord2 → Emis.Pops) (st : Started) : Prop :=
  ∀ c, Given.InGrid k nx nz c → ∃ adr, Addr2 (2 ^ k) st.g.bm c adr ∧ ∀ ia x, r.ad.atoms[ia]? = some x → ∀ l, l < x.top + 1 →
    popsAt r.ad st.pops adr.toNat ia l = pf c ia l

/-- `n` iterations of a run: `ps i` are the populations before iteration `i`, `Js i` the mean intensity it finds and `ds i` the
largest change it makes. The first `initial` iterations do without the approximate operator; after one more, an iteration is only
made if the one before changed something by more than the tolerance. -/
structure Trace (q : Setup) (k nx nz : Nat) (a : Cond) (n : Nat) (ps : Nat → Coord2 → Emis.Pops) (Js : Nat → Arr2 ℝ) (ds : Nat → ℝ) : Prop where
  start : ps 0 = ltePop q.r a
  step : ∀ i, i < n → Iterates q k nx nz a (decide (i < q.initial)) (ps i) (ps (i + 1)) (Js i) ∧ LargestChange q k nx nz a (ps i) (ps (i + 1)) (ds i)
  goesOn : ∀ i, i + 1 < n → q.initial ≤ i → q.tol < ds i
  few : n ≤ q.maxIter

/-- The settings and atomic data that a `NonLte` run can handle: those an `Lte` run can handle, transitions sorted by atom
(C33), lines within the wavelength grid, constants and wavelengths that are not zero, and collisions between existing
levels with usable tables. -/
structure NlteReady (q : Setup) : Prop where
  ready : Ready q.r
  consistent : (rateData q).Consistent
  physical : (rateData q).Physical
  red : ∀ l ∈ q.r.ad.lines, l.red ≤ q.r.ad.wavelength.length
  colls : ∀ ia x, q.r.ad.atoms[ia]? = some x → ∀ c ∈ q.colls ia, c.i < x.top + 1 ∧ c.j < x.top + 1 ∧
    c.temps.length = c.rates.length ∧ c.temps.Pairwise (· < ·) ∧ 0 < c.temps.length

/-- Every kernel of an iteration runs each of its iterations once, in some order; `psi_star` is allocated; the equation that
is replaced by conservation exists. -/
structure IterOrders (q : Setup) (k nx nz : Nat) (o : IterOrder) : Prop where
  nh0 : o.nh0.Perm (List.range (nx * nz * (2 ^ k * 2 ^ k)))
  lte : o.lte.Perm (PopsField.threads (fieldAtoms q.r.ad) (nx * nz * (2 ^ k * 2 ^ k)))
  coll : o.coll.Perm (PopsField.threads (fieldAtoms q.r.ad) (nx * nz * (2 ^ k * 2 ^ k)))
  batch : ∀ la, la < q.r.ad.wavelength.length → q.r.s.W ∣ la →
    LteOrders q.r k nx nz (min q.r.s.W (q.r.ad.wavelength.length - la)) (o.batch la) ∧ (o.batch la).b.mem.psi.isSome
  elim : ∀ ia x, q.r.ad.atoms[ia]? = some x → ∀ ks, o.elim ia ks < x.top + 1
  stat : o.stat.Perm (PopsField.threads (fieldAtoms q.r.ad) (nx * nz * (2 ^ k * 2 ^ k)))

end DexRT.Nlte
