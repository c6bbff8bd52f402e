import Verif.Model.Emis
import Mathlib.Algebra.BigOperators.Group.List.Basic
/-!
Specification of emissivity and opacity: the textbook formulas, without reference to how the program arranges them. Data
types only are taken from the model.
-/
namespace DexRT
namespace EmisSpec
open Emis

/-- Total damping rate of a line: natural width and `scaling · T^a · n_e^b · n_H^c` for each broadening process. -/
noncomputable def damping (l : Line) (p : Point) : ℝ :=
  l.gNatural + (l.broad.map fun b =>
    b.scaling * (p.temperature ^ b.temperatureExp * p.ne ^ b.electronExp * p.nh0 ^ b.hydrogenExp)).sum

/-- Doppler width in wavelength. -/
noncomputable def dopplerWidth (k : Consts) (l : Line) (mass : ℝ) (p : Point) : ℝ :=
  l.lambda0 / k.c * Real.sqrt (2 * k.kBu * p.temperature / mass + p.vturb ^ 2)

/-- Normalised absorption profile at wavelength `w` seen by a ray along which the gas moves with `p.vel`. -/
noncomputable def profile (k : Consts) (phi : ℝ → ℝ → ℝ) (l : Line) (mass : ℝ) (p : Point) (w : ℝ) : ℝ :=
  let D := dopplerWidth k l mass p
  phi (damping l p * w ^ 2 / (10 ^ 9 * k.fourPi * k.c * D)) ((w - l.lambda0 * (1 - p.vel / k.c)) / D) / (k.sqrtPi * D)

/-- Emissivity of a line: `(hc / 4πλ) n_j A_ji φ`. -/
noncomputable def lineEmissivity (k : Consts) (phi : ℝ → ℝ → ℝ) (l : Line) (mass : ℝ) (n : Pops) (p : Point) (w : ℝ) : ℝ :=
  k.hc / (k.fourPi * w) * n l.atom l.j * l.aji * profile k phi l mass p w

/-- Opacity of a line: `(hc / 4πλ) (n_i B_ij − n_j B_ji) φ`. -/
noncomputable def lineOpacity (k : Consts) (phi : ℝ → ℝ → ℝ) (l : Line) (mass : ℝ) (n : Pops) (p : Point) (w : ℝ) : ℝ :=
  k.hc / (k.fourPi * w) * (n l.atom l.i * l.bij - n l.atom l.j * l.bji) * profile k phi l mass p w

/-- Emissivity of a continuum with cross-section `s`: `n_j (n_i*/n_j*) e^{-hc/λkT} (2hc²/λ⁵) σ`. -/
noncomputable def contEmissivity (k : Consts) (c : Cont) (s : ℝ) (n nStar : Pops) (p : Point) (w : ℝ) : ℝ :=
  n c.atom c.j * (nStar c.atom c.i / nStar c.atom c.j) * Real.exp (-k.hck / (w * p.temperature)) *
    (10 ^ 18 * k.twohc2 / w ^ 5) * s

/-- Opacity of a continuum with cross-section `s`: `(n_i − n_j (n_i*/n_j*) e^{-hc/λkT}) σ`. -/
noncomputable def contOpacity (k : Consts) (c : Cont) (s : ℝ) (n nStar : Pops) (p : Point) (w : ℝ) : ℝ :=
  (n c.atom c.i - n c.atom c.j * (nStar c.atom c.i / nStar c.atom c.j) * Real.exp (-k.hck / (w * p.temperature))) * s

/-- Planck function. -/
noncomputable def planck (k : Consts) (w temperature : ℝ) : ℝ :=
  10 ^ 18 * k.twohc2 / w ^ 5 / (Real.exp (k.hck / (w * temperature)) - 1)

/-- Mass of the atom of a line. -/
def massOf (ad : AData) (l : Line) : ℝ := ((ad.atoms[l.atom]?).map (·.mass)).getD 0

/-- Sum over the lines active at wavelength number `la`. -/
noncomputable def lines (k : Consts) (phi : ℝ → ℝ → ℝ) (ad : AData) (la : Nat) (n : Pops) (p : Point) (w : ℝ) : EO :=
  let act := ad.lines.filter fun l => l.blue ≤ la ∧ la < l.red
  ⟨(act.map fun l => lineEmissivity k phi l (massOf ad l) n p w).sum,
    (act.map fun l => lineOpacity k phi l (massOf ad l) n p w).sum⟩

/-- Sum over the continua active at wavelength number `la`, with cross-section `sig`. -/
noncomputable def conts (k : Consts) (ad : AData) (la : Nat) (sig : Cont → ℝ) (n nStar : Pops) (p : Point) (w : ℝ) : EO :=
  let act := ad.conts.filter fun c => c.blue ≤ la ∧ la < c.red
  ⟨(act.map fun c => contEmissivity k c (sig c) n nStar p w).sum, (act.map fun c => contOpacity k c (sig c) n nStar p w).sum⟩

/-- Cross-section of a continuum at wavelength number `la`. -/
def sigma (la : Nat) (c : Cont) : ℝ := (c.sigma[la - c.blue]?).getD 0

/-- Atomic data as assembled: lines refer to existing atoms, continua have one cross-section per wavelength of their
range, which is part of the grid. -/
structure WellFormed (ad : AData) : Prop where
  atoms : ∀ l ∈ ad.lines, l.atom < ad.atoms.length
  sigma : ∀ c ∈ ad.conts, c.sigma.length = c.red - c.blue
  grid : ∀ c ∈ ad.conts, c.red ≤ ad.wavelength.length

/-- What each mode stands for: lines unless `StaticOnly`, continua unless `DynamicOnly`. -/
noncomputable def total (k : Consts) (phi : ℝ → ℝ → ℝ) (ad : AData) (la : Nat) (n nStar : Pops) (p : Point) (w : ℝ)
    (mode : Mode) : EO :=
  let L := lines k phi ad la n p w
  let C := conts k ad la (sigma la) n nStar p w
  match mode with
  | .All => ⟨L.eta + C.eta, L.chi + C.chi⟩
  | .DynamicOnly => L
  | .StaticOnly => C

/-- Whether lines belong to the base data of a cell: always for the interpolation scheme, never for precomputed line data,
and for the classic scheme where the gas is (nearly) at rest. -/
def linesInBase : BaseMip → (moving : Bool) → Bool
  | .LinesAtRest, _ => true
  | .Continua, _ => false
  | .VelocityDependent, moving => !moving

/-- Base data of a cell: continua, and lines if they belong there. -/
noncomputable def base (k : Consts) (phi : ℝ → ℝ → ℝ) (ad : AData) (la : Nat) (n nStar : Pops) (p : Point) (w : ℝ)
    (contents : BaseMip) (moving : Bool) : EO :=
  let L := if linesInBase contents moving then lines k phi ad la n p w else ⟨0, 0⟩
  let C := conts k ad la (sigma la) n nStar p w
  ⟨L.eta + C.eta, L.chi + C.chi⟩

/-- LTE populations of an atom's level in the cell. -/
noncomputable def lte (k : Consts) (ad : AData) (p : Point) (ia l : Nat) : Option ℝ :=
  (ad.atoms[ia]?).bind fun a =>
    if h : l < a.top + 1 then some (Lte.ltePops k.kB k.dbc k.fmin a.lv p.temperature p.ne (a.abundance * p.nhtot) ⟨l, h⟩)
    else none

/-- `nStar` holds the LTE populations of the cell. -/
def HoldsLte (k : Consts) (ad : AData) (p : Point) (nStar : Pops) : Prop :=
  ∀ ia l x, lte k ad p ia l = some x → nStar ia l = x

end EmisSpec
end DexRT
