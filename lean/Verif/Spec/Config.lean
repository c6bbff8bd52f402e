import Verif.Model.Config
/-!
What a configuration file is supposed to mean. Independent of how it is read: every field of the configuration is described
by the keys of the file.
-/
namespace DexRT
namespace Config

/-- The words of the file. -/
def modeName : Mode → String
  | .Lte => "Lte" | .NonLte => "NonLte" | .GivenFs => "GivenFs"
def treatmentName : Treatment → String
  | .Detailed => "Detailed" | .Golding => "Golding" | .Active => "Active"
def initPopsName : InitPops → String
  | .Lte => "Lte" | .ZeroRadiation => "ZeroRadiation"
def boundaryName : Boundary → String
  | .Zero => "Zero" | .Promweaver => "Promweaver"

/-- A key holding one of a set of words: the word of the value, or absent and the default. -/
def Word {α : Type} (name : α → String) (default : α) (key : Option String) (v : α) : Prop :=
  key = some (name v) ∨ key = none ∧ v = default

/-- The level of cascade `i` that the user asked for: none given: 0; one given: that; a sequence: its `i`-th entry, or its last
if it is shorter. -/
def wantedLevel (n : Option LevelsNode) (i : ℕ) : ℤ :=
  match n with
  | none => 0
  | some (.one v) => v
  | some (.seq l) => (l[i]?).getD (l.getLastD 0)

/-- One atom is read as written. -/
def AtomRead (a : AtomNode) (path : String) (k : AtomCfg) : Prop :=
  a.path = some path ∧ Word treatmentName .Active a.treatment k.treatment ∧ Word initPopsName .Lte a.initPops k.initPops

/-- The settings read in every mode. -/
structure CommonRead (f : File) (c : Cfg) : Prop where
  mode : Word modeName .NonLte f.mode c.mode
  pool : c.pool = ((f.system.bind SystemNode.pool).orElse fun _ => f.system.bind SystemNode.poolInitial).getD 4
  atmosPath : c.atmosPath = f.atmosPath.getD "dexrt_atmos.nc"
  outputPath : c.outputPath = f.outputPath.getD "dexrt.nc"
  initialPops : c.initialPops = f.initialPops.getD ""
  storeJ : c.storeJ = f.storeJ.getD true
  maxCascade : c.maxCascade = f.maxCascade.getD 5
  opacity : c.mip.opacity = (f.mip.bind MipNode.opacity).getD (1 / 4)
  logChi : c.mip.logChi = (f.mip.bind MipNode.logChi).getD 1
  logEta : c.mip.logEta = (f.mip.bind MipNode.logEta).getD 1
  levelsLength : (c.mip.levels.length : ℤ) = c.maxCascade + 1
  levels : ∀ i < c.mip.levels.length, c.mip.levels[i]? = some (wantedLevel (f.mip.bind MipNode.levels) i)

/-- The settings of runs with atoms. -/
structure AtomsRead (f : File) (c : Cfg) : Prop where
  atoms : ∃ as, f.atoms = some as ∧ as.length = c.atomPaths.length ∧ as.length = c.atomCfgs.length ∧
    ∀ (i : ℕ) (a : AtomNode) (p : String) (k : AtomCfg), as[i]? = some a → c.atomPaths[i]? = some p → c.atomCfgs[i]? = some k → AtomRead a p k
  boundary : Word boundaryName .Zero f.boundary c.boundary
  sparseCalc : c.sparseCalc = f.sparseCalc.getD false
  threshold : c.threshold = f.threshold.getD 0

/-- The settings of the iteration. -/
structure IterationRead (f : File) (c : Cfg) : Prop where
  maxIter : c.maxIter = f.maxIter.getD 200
  popTol : c.popTol = f.popTol.getD (1 / 1000)
  charge : c.charge = f.charge.getD false
  pressure : c.pressure = f.pressure.getD false
  snapFreq : c.snapFreq = f.snapFreq.getD 0
  lambdaIters : c.lambdaIters = f.lambdaIters.getD 2
  finalDense : c.finalDense = f.finalDense.getD true
  ngEnable : c.ng.enable = (f.ng.bind NgNode.enable).getD true
  ngThreshold : c.ng.threshold = (f.ng.bind NgNode.threshold).getD (5 / 100)
  ngLower : c.ng.lower = (f.ng.bind NgNode.lower).getD (2 / 10000)

/-- A run that is not iterated has no conservation and the default iteration settings. -/
structure NoIteration (c : Cfg) : Prop where
  charge : c.charge = false
  pressure : c.pressure = false
  snapFreq : c.snapFreq = 0

/-- Everything but what goes into the output file is read as written, as far as the mode has a use for it. -/
structure ReadAsWritten (f : File) (c : Cfg) : Prop where
  common : CommonRead f c
  atoms : c.mode ≠ .GivenFs → AtomsRead f c
  noAtoms : c.mode = .GivenFs → c.atomPaths = [] ∧ c.atomCfgs = [] ∧ c.boundary = .Zero ∧ c.sparseCalc = false
  iteration : c.mode = .NonLte → IterationRead f c
  noIteration : c.mode ≠ .NonLte → NoIteration c

/-- The name is one of the words (or the key is absent). -/
def Known {α : Type} (name : α → String) (key : Option String) : Prop := ∀ s, key = some s → ∃ v, s = name v

/-- What a file must not contain, whatever the mode; `pp`: only two cascades are kept. -/
structure ValidFile (pp : Bool) (f : File) : Prop where
  mode : Known modeName f.mode
  cascade : 0 ≤ f.maxCascade.getD 5 ∧ f.maxCascade.getD 5 < i32Max
  levels : ∀ m, f.mip = some m → ∀ l, m.levels = some (.seq l) → l ≠ []
  atoms : f.mode ≠ some "GivenFs" → ∃ as, f.atoms = some as ∧ ∀ a ∈ as, a.path.isSome ∧ Known treatmentName a.treatment ∧
    Known initPopsName a.initPops
  boundary : f.mode ≠ some "GivenFs" → Known boundaryName f.boundary
  cascades : ∀ o, f.output = some o → ∀ n ∈ o.cascades.getD [], n ≤ f.maxCascade.getD 5 ∧ (pp = true → n ≤ 1)

/-! ### The output file -/

/-- What the user asks for, by default results but neither the approximate operator nor cascades. -/
def Wants (o : OutNode) : Var → Prop
  | .J => o.J.getD true = true
  | .maxMip => o.J.getD true = true
  | .wavelength => o.wavelength.getD true = true
  | .pops => o.pops.getD true = true
  | .ltePops => o.ltePops.getD true = true
  | .ne => o.ne.getD true = true
  | .nh => o.nh.getD true = true
  | .psiStar => o.psiStar.getD false = true
  | .active => True
  | .cascade n => (n : ℤ) ∈ o.cascades.getD []
  | .tiles => o.sparse.getD false = true

/-- What makes sense for the run: densities only if they change, populations only with atoms. -/
def Applies (p : Program) (c : Cfg) : Var → Prop
  | .J => True
  | .maxMip => p = .two
  | .wavelength => c.mode ≠ .GivenFs
  | .pops => c.mode ≠ .GivenFs
  | .ltePops => c.mode = .NonLte
  | .ne => c.mode = .NonLte ∧ (c.charge = true ∨ c.pressure = true)
  | .nh => c.mode = .NonLte ∧ (c.charge = true ∨ c.pressure = true)
  | .psiStar => c.mode = .NonLte
  | .active => c.mode ≠ .GivenFs ∧ p = .two
  | .cascade _ => True
  | .tiles => True

/-- The file has exactly the variables wanted that apply. -/
def SavesWanted (p : Program) (pp : Bool) (o : OutNode) (c : Cfg) : Prop :=
  ∃ vs, saveVars p pp c = .ok vs ∧ ∀ v, v ∈ vs ↔ Wants o v ∧ Applies p c v

end Config
end DexRT
