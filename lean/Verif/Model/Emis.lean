import Verif.Model.Lte
/-!
Model of emissivity and opacity: source/EmisOpac.hpp, the precomputed line data of source/CoreAndVoigtEmisOpac.{hpp,cpp},
the filling of mip level 0 (source/Mipmaps.cpp:34-110) and the profile normalisation (source/ProfileNormalisation.cpp).
Exact real arithmetic; the Voigt function `phi` is any function.
Simplification: populations are indexed by atom and level within the atom (the program adds `level_start(atom)`; that this
offset is injective is C33), and by the cell only implicitly (one cell).
-/
namespace DexRT
namespace Emis

/-- Constants of source/Constants.hpp, and `debroglie_const`, `numeric_limits::min()` for `lte_pops`. -/
structure Consts where
  c : ℝ
  hc : ℝ
  fourPi : ℝ
  sqrtPi : ℝ
  twohc2 : ℝ
  hck : ℝ
  kBu : ℝ
  kB : ℝ
  dbc : ℝ
  fmin : ℝ

/-- `EmisOpac`, source/EmisOpac.hpp:10-13. -/
@[ext] structure EO where
  eta : ℝ
  chi : ℝ

/-- `UV`, source/EmisOpac.hpp:24-28. -/
structure UV where
  uji : ℝ
  vji : ℝ
  vij : ℝ

/-- `EmisOpacMode`, source/EmisOpac.hpp:15-22. -/
inductive Mode
  | StaticOnly | DynamicOnly | All
  deriving DecidableEq

/-- `ScaledExponentsBroadening`, source/Types.hpp. -/
structure Broad where
  scaling : ℝ
  temperatureExp : ℝ
  electronExp : ℝ
  hydrogenExp : ℝ

/-- `CompLine`, source/Types.hpp:647-680; the broadeners of `[broad_start, broad_end)` are kept in the line. -/
structure Line where
  blue : Nat
  red : Nat
  atom : Nat
  i : Nat
  j : Nat
  gNatural : ℝ
  aji : ℝ
  bji : ℝ
  bij : ℝ
  lambda0 : ℝ
  broad : List Broad

/-- `CompCont`, source/Types.hpp:682-704; the cross-sections of `[sigma_start, sigma_end)` are kept in the continuum
(`get_sigma`, source/EmisOpac.hpp:95-106). -/
structure Cont where
  blue : Nat
  red : Nat
  atom : Nat
  i : Nat
  j : Nat
  sigma : List ℝ

/-- What is read of an atom. -/
structure Atom where
  mass : ℝ
  abundance : ℝ
  top : Nat
  lv : Fin (top + 1) → Lte.Level

/-- `AtomicData`, source/Types.hpp. -/
structure AData where
  wavelength : List ℝ
  lines : List Line
  conts : List Cont
  atoms : List Atom

/-- `AtmosPointParams`, source/EmisOpac.hpp:43-51. -/
structure Point where
  temperature : ℝ
  ne : ℝ
  vturb : ℝ
  nhtot : ℝ
  vel : ℝ
  nh0 : ℝ

/-- Populations of a cell: atom, level. -/
abbrev Pops := Nat → Nat → ℝ

/-- `is_active`, source/Types.hpp:677-679, 701-703. -/
def Line.isActive (l : Line) (la : Nat) : Bool := decide (la ≥ l.blue) && decide (la < l.red)
/-- `is_active`, source/Types.hpp:701-703. -/
def Cont.isActive (l : Cont) (la : Nat) : Bool := decide (la ≥ l.blue) && decide (la < l.red)

/-- `doppler_width`, source/EmisOpac.hpp:126-130. -/
noncomputable def dopplerWidth (k : Consts) (lambda0 mass temperature vturb : ℝ) : ℝ :=
  lambda0 * Real.sqrt (2 * k.kBu * temperature / mass + vturb ^ 2) / k.c

/-- `damping_from_gamma`, source/EmisOpac.hpp:138-142. -/
noncomputable def dampingFromGamma (k : Consts) (gamma lambda dop : ℝ) : ℝ :=
  1 / (k.fourPi * k.c) * gamma * (1 / 1000000000) * lambda ^ 2 / dop

/-- `compute_term`, source/EmisOpac.hpp:162-170. -/
noncomputable def broadTerm (param exponent : ℝ) : ℝ :=
  if exponent = 0 then 1 else if exponent = 1 then param else param ^ exponent

/-- `gamma_from_broadening`, source/EmisOpac.hpp:152-182. -/
noncomputable def gammaFromBroadening (l : Line) (temperature ne nh0 : ℝ) : ℝ :=
  l.broad.foldl (fun g b => g + broadTerm temperature b.temperatureExp * broadTerm ne b.electronExp *
    broadTerm nh0 b.hydrogenExp * b.scaling) l.gNatural

/-- `compute_uv` of a line, source/EmisOpac.hpp:185-211. -/
noncomputable def uvLine (k : Consts) (phi : ℝ → ℝ → ℝ) (l : Line) (dop gamma vel lambda : ℝ) (divide : Bool) : UV :=
  let hnu4pi := if divide then 1 / lambda else 1 / lambda * (k.hc / k.fourPi)
  let a := dampingFromGamma k gamma lambda dop
  let v := ((lambda - l.lambda0) + (vel * l.lambda0) / k.c) / dop
  let p := phi a v / (k.sqrtPi * dop)
  ⟨hnu4pi * l.aji * p, hnu4pi * l.bji * p, hnu4pi * l.bij * p⟩

/-- `V_ji` and `U_ji` of a continuum from `V_ij`, source/EmisOpac.hpp:226-229, 495-497. -/
noncomputable def uvContOf (k : Consts) (vij thermalRatio lambda : ℝ) : UV :=
  let vji := thermalRatio * vij
  ⟨k.twohc2 / (lambda ^ 3 * lambda ^ 2 * (1 / 1000000000000000000)) * vji, vji, vij⟩

/-- `sigma(la - blue_idx)`, source/EmisOpac.hpp:222, 491, 492. -/
def sigmaAt (cont : Cont) (la : Nat) : Outcome ℝ := if la < cont.blue then .ub else readAt cont.sigma (la - cont.blue)

/-- `compute_uv` of a continuum, source/EmisOpac.hpp:213-231. -/
noncomputable def uvCont (k : Consts) (cont : Cont) (thermalRatio : ℝ) (la : Nat) (lambda : ℝ) (divide : Bool) :
    Outcome UV := do
  let s ← sigmaAt cont la
  .ok (uvContOf k (if divide then s * (k.fourPi / k.hc) else s) thermalRatio lambda)

/-- `compute_uv_line`, source/EmisOpac.hpp:233-256, at a wavelength given by its value. -/
noncomputable def uvLineAt (k : Consts) (phi : ℝ → ℝ → ℝ) (ad : AData) (p : Point) (l : Line) (lambda : ℝ)
    (divide : Bool) : Outcome UV := do
  let atom ← readAt ad.atoms l.atom
  let dop := dopplerWidth k l.lambda0 atom.mass p.temperature p.vturb
  let gamma := gammaFromBroadening l p.temperature p.ne p.nh0
  .ok (uvLine k phi l dop gamma p.vel lambda divide)

/-- `thermal_ratio`, source/EmisOpac.hpp:274, 487. -/
noncomputable def thermalRatio (k : Consts) (nStar : Pops) (cont : Cont) (lambda temperature : ℝ) : ℝ :=
  nStar cont.atom cont.i / nStar cont.atom cont.j * Real.exp (-k.hck / (lambda * temperature))

/-- Contribution to `eta` and `chi`, source/EmisOpac.hpp:312-316. -/
def contribution (uv : UV) (ni nj : ℝ) : EO := ⟨nj * uv.uji, ni * uv.vij - nj * uv.vji⟩

/-- `result.eta += ..; result.chi += ..`. -/
def EO.add (a b : EO) : EO := ⟨a.eta + b.eta, a.chi + b.chi⟩

/-- One pass of the line loop, source/EmisOpac.hpp:307-316, 323-333. -/
noncomputable def lineTerm (k : Consts) (phi : ℝ → ℝ → ℝ) (ad : AData) (n : Pops) (p : Point) (lambda : ℝ) (kr : Nat) :
    Outcome EO := do
  let l ← readAt ad.lines kr
  let uv ← uvLineAt k phi ad p l lambda false
  .ok (contribution uv (n l.atom l.i) (n l.atom l.j))

/-- One pass of the continuum loop, source/EmisOpac.hpp:374-385, 393-402. -/
noncomputable def contTerm (k : Consts) (ad : AData) (n nStar : Pops) (p : Point) (la : Nat) (lambda : ℝ) (kr : Nat) :
    Outcome EO := do
  let cont ← readAt ad.conts kr
  let uv ← uvCont k cont (thermalRatio k nStar cont lambda p.temperature) la lambda false
  .ok (contribution uv (n cont.atom cont.i) (n cont.atom cont.j))

/-- A loop that adds contributions to the result. -/
def accum (f : Nat → Outcome EO) : List Nat → EO → Outcome EO
  | [], r => .ok r
  | kr :: rest, r =>
    match f kr with
    | .ok t => accum f rest (r.add t)
    | .throws => .throws
    | .ub => .ub

/-- The indices the scanning loops act on, source/EmisOpac.hpp:318-322, 386-391. -/
def scan {α : Type} (isActive : α → Nat → Bool) (ts : List α) (la : Nat) : List Nat :=
  (List.range ts.length).filter fun kr => match ts[kr]? with | some t => isActive t la | none => false

/-- `lte_pops` of all atoms into the scratch array, source/EmisOpac.hpp:350-369. -/
noncomputable def freshLte (k : Consts) (ad : AData) (p : Point) (scratch : Pops) : Pops := fun ia l =>
  match ad.atoms[ia]? with
  | some a =>
    if h : l < a.top + 1 then Lte.ltePops k.kB k.dbc k.fmin a.lv p.temperature p.ne (a.abundance * p.nhtot) ⟨l, h⟩
    else scratch ia l
  | none => scratch ia l

/-- The continua part of `emis_opac`, source/EmisOpac.hpp:336-404: result and scratch array. -/
noncomputable def contPart (k : Consts) (ad : AData) (la : Nat) (n scratch : Pops) (p : Point)
    (activeCont : Option (List Nat)) (update : Bool) (lambda : ℝ) (r : EO) : Outcome (EO × Pops) := do
  let anyActive := match activeCont with
    | some s => decide (s.length > 0)
    | none => ad.conts.any fun t => t.isActive la
  if !anyActive then .ok (r, scratch)
  else
    let nStar := if update then freshLte k ad p scratch else scratch
    let r' ← accum (contTerm k ad n nStar p la lambda) (activeCont.getD (scan Cont.isActive ad.conts la)) r
    .ok (r', nStar)

/-- The lines part of `emis_opac`, source/EmisOpac.hpp:304-335. -/
noncomputable def linePart (k : Consts) (phi : ℝ → ℝ → ℝ) (ad : AData) (la : Nat) (n : Pops) (p : Point)
    (active : Option (List Nat)) (lambda : ℝ) : Outcome EO :=
  accum (lineTerm k phi ad n p lambda) (active.getD (scan Line.isActive ad.lines la)) ⟨0, 0⟩

/-- `emis_opac` at a wavelength of the grid, source/EmisOpac.hpp:294-407. The second component is the scratch array
`n_star_scratch` afterwards. -/
noncomputable def emisOpac (k : Consts) (phi : ℝ → ℝ → ℝ) (ad : AData) (la : Nat) (n scratch : Pops) (p : Point)
    (active activeCont : Option (List Nat)) (update : Bool) (mode : Mode) : Outcome (EO × Pops) := do
  let lambda ← readAt ad.wavelength la
  let lines := decide (mode = .All) || decide (mode = .DynamicOnly)
  let conts := decide (mode = .All) || decide (mode = .StaticOnly)
  let r ← (if lines then linePart k phi ad la n p active lambda else .ok ⟨0, 0⟩ : Outcome EO)
  if conts then contPart k ad la n scratch p activeCont update lambda r else .ok (r, scratch)

/-- One pass of the continuum loop at an arbitrary wavelength, source/EmisOpac.hpp:463-503. -/
noncomputable def contTermSpec (k : Consts) (ad : AData) (n nStar : Pops) (p : Point) (laEff : Nat) (lambda : ℝ)
    (kr : Nat) : Outcome EO := do
  let cont ← readAt ad.conts kr
  let laP := min (laEff + 1) (cont.red - 1)
  let t ← if laEff = laP then .ok 1 else do
    let w0 ← readAt ad.wavelength laEff
    let w1 ← readAt ad.wavelength laP
    .ok ((lambda - w0) / (w1 - w0))
  let s0 ← sigmaAt cont laEff
  let s1 ← sigmaAt cont laP
  let uv := uvContOf k ((1 - t) * s0 + t * s1) (thermalRatio k nStar cont lambda p.temperature) lambda
  .ok (contribution uv (n cont.atom cont.i) (n cont.atom cont.j))

/-- `emis_opac` at an arbitrary wavelength, source/EmisOpac.hpp:409-507. `la_effective` is `upper_bound(..) - 1`; for
`-1` no transition is active (`blue_idx ≥ 0`). -/
noncomputable def emisOpacSpec (k : Consts) (phi : ℝ → ℝ → ℝ) (ad : AData) (lambda : ℝ) (n scratch : Pops) (p : Point) :
    Outcome (EO × Pops) := do
  let ub ← upperBound ad.wavelength (some lambda)
  if ub = 0 then .ok (⟨0, 0⟩, scratch)
  else
    let laEff := ub - 1
    let r ← accum (lineTerm k phi ad n p lambda) (scan Line.isActive ad.lines laEff) ⟨0, 0⟩
    if !(ad.conts.any fun t => t.isActive laEff) then .ok (r, scratch)
    else
      let nStar := freshLte k ad p scratch
      let r' ← accum (contTermSpec k ad n nStar p laEff lambda) (scan Cont.isActive ad.conts laEff) r
      .ok (r', nStar)

/-! ### Filling mip level 0 -/

/-- `BaseMipContents`, source/Config.hpp:62-74. -/
inductive BaseMip
  | LinesAtRest | Continua | VelocityDependent
  deriving DecidableEq

/-- The mode for a wavelength, source/Mipmaps.cpp:82-87; `staticOnly` is the comparison of lines 73-76. -/
def baseMode (contents : BaseMip) (staticOnly : Bool) : Mode :=
  match contents with
  | .Continua => .StaticOnly
  | .LinesAtRest => .All
  | .VelocityDependent => if staticOnly then .StaticOnly else .All

/-- The wavelength loop of `fill_mip0_atomic` for one cell, source/Mipmaps.cpp:69-107: emissivity and opacity for each
wavelength of the batch, and the scratch array, which starts with whatever was in the memory
(source/DynamicFormalSolution.cpp:409-412). `static wave` is `static_only`; `wave` counts from `first`. -/
noncomputable def fillWaves (k : Consts) (phi : ℝ → ℝ → ℝ) (ad : AData) (n : Pops) (p : Point) (contents : BaseMip)
    (static : Nat → Bool) (laStart : Nat) : (count first : Nat) → Pops → Outcome (List EO × Pops)
  | 0, _, scratch => .ok ([], scratch)
  | count + 1, wave, scratch => do
    let la := laStart + wave
    let r ← emisOpac k phi ad la n scratch p (some (scan Line.isActive ad.lines la))
      (some (scan Cont.isActive ad.conts la)) (decide (wave = 0)) (baseMode contents (static wave))
    let rest ← fillWaves k phi ad n p contents static laStart count (wave + 1) r.2
    .ok (r.1 :: rest.1, rest.2)

/-- `fill_mip0_atomic` for one cell and the batch `[laStart, laEnd)`, source/Mipmaps.cpp:34-110. -/
noncomputable def fillMip0 (k : Consts) (phi : ℝ → ℝ → ℝ) (ad : AData) (n : Pops) (p : Point) (contents : BaseMip)
    (static : Nat → Bool) (laStart laEnd : Nat) (scratch : Pops) : Outcome (List EO × Pops) :=
  fillWaves k phi ad n p contents static laStart (laEnd - laStart) 0 scratch

/-- `dynamic_opac`, source/Mipmaps.cpp:78-81. -/
def dynamicOpac (ad : AData) (staticOnly : Bool) (la : Nat) : Bool :=
  staticOnly || decide ((scan Line.isActive ad.lines la).length = 0)

/-- Emissivity and opacity of a cell in a ray with the classic scheme, source/RayMarching.hpp:553-589: the base
value, to which the lines are added if `dynamic_opac`. Simplification: the constant `1e-15` is left out. -/
noncomputable def classicSample (k : Consts) (phi : ℝ → ℝ → ℝ) (ad : AData) (la : Nat) (n : Pops) (p : Point)
    (dynamic : Bool) (base : EO) : Outcome EO := do
  if dynamic && decide ((scan Line.isActive ad.lines la).length > 0) then
    let r ← emisOpac k phi ad la n (fun _ _ => 0) p (some (scan Line.isActive ad.lines la)) none true .DynamicOnly
    .ok (base.add r.1)
  else .ok base

/-! ### Precomputed line data -/

/-- `CoreAndVoigtResult`, source/CoreAndVoigtEmisOpac.cpp:12-17, with `1 / dop_width` (line 146). -/
structure Core where
  etaStar : ℝ
  chiStar : ℝ
  aDamp : ℝ
  invDop : ℝ

/-- `compute_core_and_voigt` and the storing of its result, source/CoreAndVoigtEmisOpac.cpp:19-47, 139-146. -/
noncomputable def coreAndVoigt (k : Consts) (ad : AData) (n : Pops) (p : Point) (kr : Nat) : Outcome Core := do
  let l ← readAt ad.lines kr
  let atom ← readAt ad.atoms l.atom
  let dop := dopplerWidth k l.lambda0 atom.mass p.temperature p.vturb
  let gamma := gammaFromBroadening l p.temperature p.ne p.nh0
  let hnu4pi := k.hc / (k.fourPi * l.lambda0)
  .ok ⟨n l.atom l.j * hnu4pi * l.aji, hnu4pi * (n l.atom l.i * l.bij - n l.atom l.j * l.bji),
    dampingFromGamma k gamma l.lambda0 dop, 1 / dop⟩

/-- `CoreAndVoigtData::emis_opac`, source/CoreAndVoigtEmisOpac.hpp:36-72, for a slot with the given stored values;
`a_damp_ratios`, `emis_opac_ratios` are those of source/CoreAndVoigtEmisOpac.cpp:105, 106. -/
noncomputable def cavEmis (k : Consts) (phi : ℝ → ℝ → ℝ) (s : Core) (lambda0 lambda vel : ℝ) : EO :=
  let a := s.aDamp * (lambda / lambda0) ^ 2
  let ratio := lambda0 / lambda
  let v := ((lambda - lambda0) + (vel * lambda0) * (1 / k.c)) * s.invDop
  let p := phi a v * (1 / k.sqrtPi) * s.invDop
  ⟨ratio * s.etaStar * p, ratio * s.chiStar * p⟩

/-- State of the filling of `active_set_mapping`: the array and `fill_idx`. -/
structure Fill where
  mapping : List Int
  idx : Nat

/-- source/CoreAndVoigtEmisOpac.cpp:66-71, 337-341. -/
def Fill.start (max : Nat) : Fill := ⟨List.replicate max (-1), 0⟩

/-- Body of the loop over the active lines of a wavelength in 2D, source/CoreAndVoigtEmisOpac.cpp:75-91. -/
def fillStep2 (max : Nat) (s : Fill) (kr : Nat) : Outcome Fill :=
  if (s.mapping.take s.idx).contains (kr : Int) then .ok s
  else if s.idx = max then .throws
  else if s.idx < s.mapping.length then .ok ⟨s.mapping.set s.idx kr, s.idx + 1⟩ else .ub

/-- Body of the loop in 3D, source/CoreAndVoigtEmisOpac.cpp:344-352: the write comes before the test. -/
def fillStep3 (max : Nat) (s : Fill) (kr : Nat) : Outcome Fill :=
  if s.idx < s.mapping.length then
    if s.idx + 1 > max then .throws else .ok ⟨s.mapping.set s.idx kr, s.idx + 1⟩
  else .ub

/-- The loop. -/
def fillLoop (step : Fill → Nat → Outcome Fill) : List Nat → Fill → Outcome Fill
  | [], s => .ok s
  | kr :: rest, s =>
    match step s kr with
    | .ok s' => fillLoop step rest s'
    | .throws => .throws
    | .ub => .ub

/-- `CoreAndVoigtData::fill`, the mapping, source/CoreAndVoigtEmisOpac.cpp:66-92; `sets` are the active lines of the
wavelengths of the batch. -/
def fillMapping2 (max : Nat) (sets : List (List Nat)) : Outcome (List Int) :=
  match fillLoop (fillStep2 max) sets.flatten (Fill.start max) with
  | .ok s => .ok s.mapping
  | .throws => .throws
  | .ub => .ub

/-- `CoreAndVoigtData3d::fill`, the mapping, source/CoreAndVoigtEmisOpac.cpp:337-352. -/
def fillMapping3 (max : Nat) (set : List Nat) : Outcome (List Int) :=
  match fillLoop (fillStep3 max) set (Fill.start max) with
  | .ok s => .ok s.mapping
  | .throws => .throws
  | .ub => .ub

/-- Slots holding line `kr`, source/RayMarching.hpp:387-391. -/
def slotsOf (mapping : List Int) (kr : Nat) : List Nat :=
  (List.range mapping.length).filter fun krl => mapping[krl]? = some (kr : Int)

/-- `local_active_set` of `get_dyn_state`, source/RayMarching.hpp:381-395, up to its end marker;
source/DynamicFormalSolution3d.cpp:84-98. Writing past the end is UB. -/
def localSet (max : Nat) (mapping : List Int) (aSet : List Nat) : Outcome (List Nat) :=
  let s := aSet.flatMap (slotsOf mapping)
  if s.length ≤ max then .ok s else .ub

/-- Stored data of slot `krl`: source/CoreAndVoigtEmisOpac.cpp:94-108, 134-147; the loops end at the first unused slot,
so later slots are not written. Simplification: the tables, written once and then only read, are computed at the
read. -/
noncomputable def cavSlot (k : Consts) (phi : ℝ → ℝ → ℝ) (ad : AData) (n : Pops) (p : Point) (mapping : List Int)
    (lambda vel : ℝ) (krl : Nat) : Outcome EO := do
  let kr ← readAt mapping krl
  if (mapping.take (krl + 1)).all (fun m => decide (0 ≤ m)) then do
    let l ← readAt ad.lines kr.toNat
    let s ← coreAndVoigt k ad n p kr.toNat
    .ok (cavEmis k phi s l.lambda0 lambda vel)
  else .ub

/-- Emissivity and opacity of a cell in a ray with precomputed line data, source/RayMarching.hpp:515-552: the base value
plus the lines of the local active set. Simplification: the constant `1e-15` is left out. -/
noncomputable def cavSample (k : Consts) (phi : ℝ → ℝ → ℝ) (ad : AData) (n : Pops) (p : Point) (max : Nat)
    (mapping : List Int) (aSet : List Nat) (lambda : ℝ) (base : EO) : Outcome EO := do
  let s ← localSet max mapping aSet
  accum (cavSlot k phi ad n p mapping lambda p.vel) s base

/-! ### Profile normalisation -/

/-- A ray of the angular quadrature: projected velocity and weight, source/ProfileNormalisation.cpp:98-110, 113-131. -/
structure Ray where
  vel : ℝ
  weight : ℝ

/-- `entry`, source/ProfileNormalisation.cpp:72-134, for a line with Doppler width `dop` and damping `gamma`;
`grid` are wavelength and `wavelength_bin` of the line's wavelengths. -/
noncomputable def profileEntry (k : Consts) (phi : ℝ → ℝ → ℝ) (lambda0 dop gamma : ℝ) (grid : List (ℝ × ℝ))
    (rays : List Ray) : ℝ :=
  grid.foldl (fun e g => rays.foldl (fun e r =>
    e + phi (dampingFromGamma k gamma g.1 dop) (((g.1 - lambda0) + (r.vel * lambda0) / k.c) / dop) /
      (k.sqrtPi * dop) * g.2 * r.weight) e) 0

/-- `wphi`, source/ProfileNormalisation.cpp:135-140. -/
noncomputable def wphi (entry : ℝ) : ℝ := if entry ≠ 0 then 1 / entry else 1

/-- `wlamu` of a line, source/DynamicFormalSolution.cpp:217, 218, 321, with `include_4pi_hc = false`; the ray weight is
`1 / c0_dirs_to_average * wmuy`. -/
noncomputable def wlamuLine (lambda bin rayWeight wphi : ℝ) : ℝ := lambda / 1 * bin * rayWeight * wphi

/-! ### Populations without radiation -/

/-- Downward rate of a continuum in `set_zero_radiation_pops` at one wavelength, source/InitialPops.cpp:47-60; `gi`, `gj`,
`dE` are statistical weights and energy difference of its levels. -/
noncomputable def zeroRadCont (k : Consts) (gi gj dE temperature ne lambda bin sigma : ℝ) : ℝ :=
  let saha := gi / gj * (k.dbc / temperature) ^ (3 / 2 : ℝ) * Real.exp (dE / (k.kB * temperature))
  ne * saha * k.twohc2 / (lambda ^ 3 * lambda ^ 2 * (1 / 1000000000000000000)) * sigma *
    (1 / (k.hc / (k.fourPi * lambda)) * bin)

end Emis
end DexRT
