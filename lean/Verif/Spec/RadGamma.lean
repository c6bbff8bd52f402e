import Verif.Model.RadGamma
import Mathlib.Algebra.BigOperators.Fin
/-!
Vocabulary for C80: the radiative rates of a model atom in a cell, as sums over wavelengths and rays.
-/
namespace DexRT.RadGamma
open DexRT Emis Rates Finset

/-- The atomic data fit together: every transition belongs to the atom whose range it lies in, joins levels of that
atom, and cross-sections cover the wavelengths of the continuum. (`to_atomic_data` builds such data: C33.) -/
structure Env.Consistent (e : Env) : Prop where
  bins : e.bin.length = e.ad.wavelength.length
  natoms : e.numLevel.length = e.ad.atoms.length
  nline : e.lineRange.length = e.numLevel.length
  ncont : e.contRange.length = e.numLevel.length
  lineIn : ∀ (ia : Nat) (r : Nat × Nat), e.lineRange[ia]? = some r → r.1 + r.2 ≤ e.ad.lines.length ∧
    ∀ (kr : Nat) (l : Line), e.ad.lines[kr]? = some l → (r.1 ≤ kr ∧ kr < r.1 + r.2 ↔ l.atom = ia)
  contIn : ∀ (ia : Nat) (r : Nat × Nat), e.contRange[ia]? = some r → r.1 + r.2 ≤ e.ad.conts.length ∧
    ∀ (kr : Nat) (t : Cont), e.ad.conts[kr]? = some t → (r.1 ≤ kr ∧ kr < r.1 + r.2 ↔ t.atom = ia)
  lineLev : ∀ l ∈ e.ad.lines, ∀ nl, e.numLevel[l.atom]? = some nl → l.i < nl ∧ l.j < nl
  contLev : ∀ t ∈ e.ad.conts, ∀ nl, e.numLevel[t.atom]? = some nl → t.i < nl ∧ t.j < nl
  sigma : ∀ t ∈ e.ad.conts, t.sigma.length = t.red - t.blue

/-- Mass of atom `ia`. -/
noncomputable def Env.mass (e : Env) (ia : Nat) : ℝ := ((e.ad.atoms[ia]?).map (·.mass)).getD 0

/-- Normalised profile of line `l` in cell `c` at wavelength `lambda` for a ray with projected velocity `vel`. -/
noncomputable def lineProfile (e : Env) (c : Cell) (l : Line) (lambda vel : ℝ) : ℝ :=
  let dop := dopplerWidth e.k l.lambda0 (e.mass l.atom) c.temperature c.vturb
  let gamma := gammaFromBroadening l c.temperature c.ne c.nh0
  e.phi (gamma * lambda ^ 2 / (10 ^ 9 * e.k.fourPi * e.k.c * dop)) ((lambda - l.lambda0 * (1 - vel / e.k.c)) / dop) /
    (e.k.sqrtPi * dop)

/-- Emissivity of the line: `(hc / 4 pi lambda) n_j A phi`. -/
noncomputable def lineEta (e : Env) (c : Cell) (l : Line) (lambda vel : ℝ) : ℝ :=
  e.k.hc / (e.k.fourPi * lambda) * (c.n l.atom l.j * l.aji) * lineProfile e c l lambda vel

/-- Opacity of the line: `(hc / 4 pi lambda) (n_i B_ij - n_j B_ji) phi`. -/
noncomputable def lineChi (e : Env) (c : Cell) (l : Line) (lambda vel : ℝ) : ℝ :=
  e.k.hc / (e.k.fourPi * lambda) * (c.n l.atom l.i * l.bij - c.n l.atom l.j * l.bji) * lineProfile e c l lambda vel

/-- Contribution of one ray at one wavelength to the rate from the upper to the lower level of a line (per unit of
quadrature weight), preconditioned with the approximate operator `psi`. -/
noncomputable def lineDown (e : Env) (c : Cell) (l : Line) (lambda vel I psi : ℝ) : ℝ :=
  lineProfile e c l lambda vel *
    (l.aji * (1 - (lineChi e c l lambda vel + e.eps) * psi) + l.bji * (I - psi * lineEta e c l lambda vel))

/-- The same from the lower to the upper level. -/
noncomputable def lineUp (e : Env) (c : Cell) (l : Line) (lambda vel I psi : ℝ) : ℝ :=
  lineProfile e c l lambda vel * (l.bij * (I - psi * lineEta e c l lambda vel))

/-- Cross-section of the continuum at wavelength index `la`. -/
noncomputable def contSigma (t : Cont) (la : Nat) : ℝ := (t.sigma[la - t.blue]?).getD 0

/-- `n*_i / n*_j exp(-hc / lambda k T)`, with the LTE populations the program has at hand. -/
noncomputable def contRatio (e : Env) (c : Cell) (t : Cont) (lambda : ℝ) : ℝ :=
  c.nStar t.atom t.i / c.nStar t.atom t.j * Real.exp (-(e.k.hck / (lambda * c.temperature)))

/-- `2 h c^2 / lambda^5` (wavelength in nm). -/
noncomputable def twoHc2 (e : Env) (lambda : ℝ) : ℝ := e.k.twohc2 / (lambda ^ 5 * (1 / 10 ^ 18))

/-- Emissivity of the continuum. -/
noncomputable def contEta (e : Env) (c : Cell) (t : Cont) (la : Nat) (lambda : ℝ) : ℝ :=
  c.n t.atom t.j * contSigma t la * contRatio e c t lambda * twoHc2 e lambda

/-- Opacity of the continuum, corrected for stimulated recombination. -/
noncomputable def contChi (e : Env) (c : Cell) (t : Cont) (la : Nat) (lambda : ℝ) : ℝ :=
  contSigma t la * (c.n t.atom t.i - c.n t.atom t.j * contRatio e c t lambda)

/-- Recombination rate per unit of quadrature weight, preconditioned. -/
noncomputable def contDown (e : Env) (c : Cell) (t : Cont) (la : Nat) (lambda I psi : ℝ) : ℝ :=
  e.k.fourPi * lambda / e.k.hc * contSigma t la * contRatio e c t lambda *
    (twoHc2 e lambda * (1 - (contChi e c t la lambda + e.eps) * psi) + (I - psi * contEta e c t la lambda))

/-- Photoionisation rate per unit of quadrature weight, preconditioned. -/
noncomputable def contUp (e : Env) (c : Cell) (t : Cont) (la : Nat) (lambda I psi : ℝ) : ℝ :=
  e.k.fourPi * lambda / e.k.hc * contSigma t la * (I - psi * contEta e c t la lambda)

/-- A set of rays: index, projected velocity in the cell, weight; and what arrives along them at each wavelength. -/
structure RaySet (ι : Type) where
  rays : Finset ι
  vel : ι → ℝ
  weight : ι → ℝ
  I : Nat → ι → ℝ
  psi : Nat → ι → ℝ

/-- What a pair of rates (`down`: from `j` to `i`, `up`: from `i` to `j`) contributes to the rate from level `b` to level `a`. -/
def pairRate (i j a b : Nat) (down up : ℝ) : ℝ := (if i = a ∧ j = b then down else 0) + (if j = a ∧ i = b then up else 0)

/-- Contribution of one ray at wavelength index `la` to the rate from level `b` to level `a` of atom `ia`: all lines and
continua of that atom whose range `[blue, red)` contains the wavelength. -/
noncomputable def rayRate (e : Env) (c : Cell) (wphi : Nat → ℝ) (ia a b la : Nat) (lambda vel I psi : ℝ) : ℝ :=
  (∑ kr : Fin e.ad.lines.length,
    let l := e.ad.lines[kr]
    if l.atom = ia ∧ l.blue ≤ la ∧ la < l.red then
      wphi kr * pairRate l.i l.j a b (lineDown e c l lambda vel I psi) (lineUp e c l lambda vel I psi) else 0) +
  ∑ kr : Fin e.ad.conts.length,
    let t := e.ad.conts[kr]
    if t.atom = ia ∧ t.blue ≤ la ∧ la < t.red then
      pairRate t.i t.j a b (contDown e c t la lambda I psi) (contUp e c t la lambda I psi) else 0

/-- The radiative rate from level `b` to level `a` of atom `ia` in cell `c`: quadrature over the wavelengths `las` and the
rays. -/
noncomputable def radiativeRate {ι : Type} (e : Env) (c : Cell) (wphi : Nat → ℝ) (las : Finset Nat) (r : RaySet ι) (ia a b : Nat) : ℝ :=
  ∑ la ∈ las, ∑ x ∈ r.rays,
    (e.bin[la]?).getD 0 * r.weight x * rayRate e c wphi ia a b la ((e.ad.wavelength[la]?).getD 0) (r.vel x) (r.I la x) (r.psi la x)

end DexRT.RadGamma

namespace DexRT.RadGamma
open DexRT Emis Rates Finset

/-- Direction of travel of light along ray `dir` of `nd` with inclination `muy` in 2D: towards the cell. -/
noncomputable def travel2 (nd dir : Nat) (muy : ℝ) : Fin 3 → ℝ :=
  let th := 2 * Real.pi / nd * (dir + 1 / 2)
  ![-Real.cos th * Real.sqrt (1 - muy ^ 2), -muy, -Real.sin th * Real.sqrt (1 - muy ^ 2)]

/-- Component of a cell's velocity along a direction. -/
def along (c : Cell) (d : Fin 3 → ℝ) : ℝ := c.vx * d 0 + c.vy * d 1 + c.vz * d 2

/-- The rays through a cell in 2D: all directions and inclinations, each with its own direction of travel and weight;
`I`, `psi` are what arrives along them. -/
noncomputable def raySet2 (g : Quad2) (c : Cell) (I psi : Nat → Nat × Nat → ℝ) : RaySet (Nat × Nat) :=
  { rays := range g.rays.dirs ×ˢ range g.rays.incl
    vel := fun x => along c (travel2 g.rays.dirs x.1 (g.muy[x.2]?.getD 0))
    weight := fun x => 1 / g.rays.dirs * g.wmuy[x.2]?.getD 0
    I := I
    psi := psi }

/-- During the passes of the batch `[laStart, laEnd)` the array holds, for every cell, wavelength of the batch, direction of
the pass and inclination, the value `f`. -/
def Stored2 (g : Quad2) (cells : List Cell) (laStart laEnd : Nat) (f : Cell → Nat → Nat × Nat → ℝ) (arr : Nat → List ℝ) : Prop :=
  ∀ t < subsetTasks g.cfg, ∀ c ∈ cells, ∀ wave < laEnd - laStart, ∀ dir incl, incl < g.rays.incl →
    (nthRaysSubset g.cfg g.rays t).1 ≤ dir → dir < (nthRaysSubset g.cfg g.rays t).1 + (nthRaysSubset g.cfg g.rays t).2 →
    (arr t)[probeLinearIndex g.cfg (raysToStorage g.cfg g.rays) ⟨c.u, c.v, dir, incl, wave⟩]? = some (f c (laStart + wave) (dir, incl))

/-- The rays through a cell in 3D (default HEALPix directions: one polar index). -/
noncomputable def raySet3 (g : Quad3) (c : Cell) (I psi : Nat → Nat × Nat → ℝ) : RaySet (Nat × Nat) :=
  { rays := range g.rays.polar ×ˢ range g.rays.az
    vel := fun x => along c (Dir.rayDir3 g.rays.az x.2)
    weight := fun _ => 1 / (g.rays.az * g.rays.polar)
    I := I
    psi := psi }

/-- 3D version of `Stored2`: `(polar, az)`. -/
def Stored3 (g : Quad3) (cells : List Cell) (la : Nat) (f : Cell → Nat → Nat × Nat → ℝ) (arr : Nat → List ℝ) : Prop :=
  ∀ t < subsetTasks3 g.cfg, ∀ c ∈ cells, ∀ polar az,
    (nthRaysSubset3 g.cfg g.rays t).startPolar ≤ polar →
    polar < (nthRaysSubset3 g.cfg g.rays t).startPolar + (nthRaysSubset3 g.cfg g.rays t).numPolar →
    (nthRaysSubset3 g.cfg g.rays t).startAz ≤ az →
    az < (nthRaysSubset3 g.cfg g.rays t).startAz + (nthRaysSubset3 g.cfg g.rays t).numAz →
    (arr t)[probeLinearIndex3 g.cfg (raysToStorage3 g.cfg g.rays) ⟨c.u, c.v, c.w, polar, az⟩]? = some (f c la (polar, az))

end DexRT.RadGamma

namespace DexRT.RadGamma
open DexRT Emis Rates Finset

/-- Constants and wavelengths are not zero. -/
structure Env.Physical (e : Env) : Prop where
  hc : e.k.hc ≠ 0
  fp : e.k.fourPi ≠ 0
  waves : ∀ l ∈ e.ad.wavelength, l ≠ 0

/-- Shape of a batch and what the arrays hold during it. -/
structure Batch2 (e : Env) (g : Quad2) (cells : List Cell) (I psi : Cell → Nat → Nat × Nat → ℝ)
    (b : (Nat × Nat) × (Nat → List ℝ) × (Nat → List ℝ)) : Prop where
  fits : b.1.2 - b.1.1 ≤ g.rays.wave
  waves : ∀ wave < b.1.2 - b.1.1, b.1.1 + wave < e.ad.wavelength.length
  i : Stored2 g cells b.1.1 b.1.2 I b.2.1
  ps : Stored2 g cells b.1.1 b.1.2 psi b.2.2

/-- Shape of a solution at one wavelength and what the arrays hold during it. -/
structure Wave3 (e : Env) (g : Quad3) (cells : List Cell) (I psi : Cell → Nat → Nat × Nat → ℝ)
    (b : Nat × (Nat → List ℝ) × (Nat → List ℝ)) : Prop where
  la : b.1 < e.ad.wavelength.length
  i : Stored3 g cells b.1 I b.2.1
  ps : Stored3 g cells b.1 psi b.2.2

/-- Photons of wavelength `lambda` per unit energy, over all directions: `4 pi lambda / hc`. -/
noncomputable def photons (e : Env) (lambda : ℝ) : ℝ := e.k.fourPi * lambda / e.k.hc

/-- Net emission of a transition with emissivity `eta` and opacity `chi` into a ray of intensity `I`. The program adds
`eps` (`1e-20`) to the opacity it uses for preconditioning, which takes the fraction `eps psi` away from the emission. -/
def netEmission (e : Env) (eta chi I psi : ℝ) : ℝ := eta * (1 - e.eps * psi) - chi * I

/-- `+1` for the lower level of a transition, `-1` for the upper one. -/
def gain (i j a : Nat) : ℝ := (if i = a then 1 else 0) - (if j = a then 1 else 0)

/-- Net rate at which level `a` of atom `ia` gains atoms by radiation, counting photons: every photon emitted in a
transition of the atom moves one atom from its upper to its lower level, every photon absorbed moves one back. -/
noncomputable def photonGain {ι : Type} (e : Env) (c : Cell) (wphi : Nat → ℝ) (las : Finset Nat) (r : RaySet ι) (ia a : Nat) : ℝ :=
  ∑ la ∈ las, ∑ x ∈ r.rays, (e.bin[la]?).getD 0 * r.weight x * photons e ((e.ad.wavelength[la]?).getD 0) * (
    (∑ kr : Fin e.ad.lines.length,
      let l := e.ad.lines[kr]
      if l.atom = ia ∧ l.blue ≤ la ∧ la < l.red then
        wphi kr * (gain l.i l.j a * netEmission e (lineEta e c l ((e.ad.wavelength[la]?).getD 0) (r.vel x))
          (lineChi e c l ((e.ad.wavelength[la]?).getD 0) (r.vel x)) (r.I la x) (r.psi la x)) else 0) +
    ∑ kr : Fin e.ad.conts.length,
      let t := e.ad.conts[kr]
      if t.atom = ia ∧ t.blue ≤ la ∧ la < t.red then
        gain t.i t.j a * netEmission e (contEta e c t la ((e.ad.wavelength[la]?).getD 0))
          (contChi e c t la ((e.ad.wavelength[la]?).getD 0)) (r.I la x) (r.psi la x) else 0)

/-- The profile of line `kr` integrates to one with the factor `wphi`, over the wavelengths of the line and the rays. -/
def Normalised {ι : Type} (e : Env) (c : Cell) (wphi : Nat → ℝ) (r : RaySet ι) (kr : Fin e.ad.lines.length) : Prop :=
  wphi kr * (∑ la ∈ Ico e.ad.lines[kr].blue e.ad.lines[kr].red, ∑ x ∈ r.rays,
    (e.bin[la]?).getD 0 * r.weight x * lineProfile e c e.ad.lines[kr] ((e.ad.wavelength[la]?).getD 0) (r.vel x)) = 1

end DexRT.RadGamma

namespace DexRT.RadGamma
open DexRT Emis Rates Finset

/-- Signs of the data: constants, temperatures, coefficients, cross-sections, populations and quadrature weights. -/
structure Signs {ι : Type} (e : Env) (c : Cell) (wphi : Nat → ℝ) (r : RaySet ι) : Prop where
  k : 0 ≤ e.k.hc ∧ 0 ≤ e.k.fourPi ∧ 0 ≤ e.k.sqrtPi ∧ 0 ≤ e.k.c ∧ 0 ≤ e.k.twohc2
  phi : ∀ x y, 0 ≤ e.phi x y
  wave : ∀ l ∈ e.ad.wavelength, 0 ≤ l
  bin : ∀ b ∈ e.bin, 0 ≤ b
  line : ∀ l ∈ e.ad.lines, 0 ≤ l.aji ∧ 0 ≤ l.bji ∧ 0 ≤ l.bij ∧ 0 ≤ l.lambda0
  sigma : ∀ t ∈ e.ad.conts, ∀ s ∈ t.sigma, 0 ≤ s
  nStar : ∀ ia i, 0 ≤ c.nStar ia i
  wphi : ∀ kr, 0 ≤ wphi kr
  weight : ∀ x ∈ r.rays, 0 ≤ r.weight x

/-- The approximate operator takes no more than is there: of the intensity, the part the transition itself emitted
(`psi eta`), and of the emission, the part it absorbed again (`(chi + eps) psi`). -/
def Preconditioned {ι : Type} (e : Env) (c : Cell) (r : RaySet ι) (ia : Nat) : Prop :=
  ∀ la < e.ad.wavelength.length, ∀ x ∈ r.rays, ∀ lambda, e.ad.wavelength[la]? = some lambda →
    (∀ l ∈ e.ad.lines, l.atom = ia → l.blue ≤ la → la < l.red →
      r.psi la x * lineEta e c l lambda (r.vel x) ≤ r.I la x ∧ (lineChi e c l lambda (r.vel x) + e.eps) * r.psi la x ≤ 1) ∧
    (∀ t ∈ e.ad.conts, t.atom = ia → t.blue ≤ la → la < t.red →
      r.psi la x * contEta e c t la lambda ≤ r.I la x ∧ (contChi e c t la lambda + e.eps) * r.psi la x ≤ 1)

end DexRT.RadGamma
