import Verif.Model.Basic
import Mathlib.Algebra.Order.Field.Rat
/-!
Model of reading the configuration file, source/DexrtConfig.hpp:12-363, on the decoded YAML tree, and of choosing what goes
in the output file, source/main.cpp:745-824 and source/main_3d.cpp:433-532. That scalars have the right types is left to the
YAML library, which throws otherwise. Numbers are rationals.
-/
namespace DexRT
namespace Config

/-- `DexrtMode`, source/Types.hpp. -/
inductive Mode where
  | Lte | NonLte | GivenFs
deriving DecidableEq, Repr

/-- `AtomicTreatment`, source/Types.hpp:609-613. -/
inductive Treatment where
  | Detailed | Golding | Active
deriving DecidableEq, Repr

/-- `AtomInitialPops`, source/Types.hpp:615-618. -/
inductive InitPops where
  | Lte | ZeroRadiation
deriving DecidableEq, Repr

/-- `BoundaryType`, source/BoundaryType.hpp. -/
inductive Boundary where
  | Zero | Promweaver
deriving DecidableEq, Repr

/-- The program: `get_dexrt_dimensionality`, source/main.cpp:36, source/main_3d.cpp:26. -/
inductive Program where
  | two | three
deriving DecidableEq, Repr

/-! ### The file -/

/-- Entry of the `atoms` map, source/DexrtConfig.hpp:86-122. -/
structure AtomNode where
  path : Option String := none
  treatment : Option String := none
  initPops : Option String := none

/-- `ng_config`, source/DexrtConfig.hpp:159-170. -/
structure NgNode where
  enable : Option Bool := none
  threshold : Option ℚ := none
  lower : Option ℚ := none

/-- `output`, source/DexrtConfig.hpp:178-207. -/
structure OutNode where
  sparse : Option Bool := none
  wavelength : Option Bool := none
  J : Option Bool := none
  pops : Option Bool := none
  ltePops : Option Bool := none
  ne : Option Bool := none
  nh : Option Bool := none
  psiStar : Option Bool := none
  cascades : Option (List ℤ) := none

/-- `mip_levels`, source/DexrtConfig.hpp:268-284: a sequence or a single number. -/
inductive LevelsNode where
  | seq (l : List ℤ)
  | one (v : ℤ)

/-- `mip_config`, source/DexrtConfig.hpp:263-296. -/
structure MipNode where
  levels : Option LevelsNode := none
  logChi : Option ℚ := none
  logEta : Option ℚ := none
  opacity : Option ℚ := none

/-- `system`, source/DexrtConfig.hpp:306-314. -/
structure SystemNode where
  pool : Option ℚ := none
  poolInitial : Option ℚ := none

/-- The file. `atoms = none`: no `atoms` key, or not a map. -/
structure File where
  system : Option SystemNode := none
  atmosPath : Option String := none
  outputPath : Option String := none
  initialPops : Option String := none
  mode : Option String := none
  storeJ : Option Bool := none
  maxCascade : Option ℤ := none
  sparseCalc : Option Bool := none
  threshold : Option ℚ := none
  atoms : Option (List AtomNode) := none
  boundary : Option String := none
  maxIter : Option ℤ := none
  popTol : Option ℚ := none
  charge : Option Bool := none
  pressure : Option Bool := none
  snapFreq : Option ℤ := none
  lambdaIters : Option ℤ := none
  finalDense : Option Bool := none
  ng : Option NgNode := none
  output : Option OutNode := none
  mip : Option MipNode := none

/-! ### The parsed configuration -/

/-- `ModelAtomConfig`, source/Types.hpp:620-623. -/
structure AtomCfg where
  treatment : Treatment := .Active
  initPops : InitPops := .Lte
deriving DecidableEq, Repr

/-- `DexrtOutputConfig`, source/DexrtConfig.hpp:12-24 (`max_mip_level` is never read or set). -/
structure OutCfg where
  sparse : Bool := false
  wavelength : Bool := true
  J : Bool := true
  pops : Bool := true
  ltePops : Bool := true
  ne : Bool := true
  nh : Bool := true
  psiStar : Bool := false
  active : Bool := true
  cascades : List ℤ := []
deriving DecidableEq, Repr

/-- `DexrtMipConfig`, source/DexrtConfig.hpp:26-31. -/
structure MipCfg where
  opacity : ℚ := 1 / 4
  logChi : ℚ := 1
  logEta : ℚ := 1
  levels : List ℤ := []
deriving DecidableEq

/-- `DexrtNgConfig`, source/DexrtConfig.hpp:33-37. -/
structure NgCfg where
  enable : Bool := true
  threshold : ℚ := 5 / 100
  lower : ℚ := 2 / 10000
deriving DecidableEq

/-- `DexrtConfig`, source/DexrtConfig.hpp:39-63. -/
structure Cfg where
  mode : Mode := .NonLte
  pool : ℚ := 4
  atmosPath : String := ""
  outputPath : String := ""
  initialPops : String := ""
  output : OutCfg := {}
  storeJ : Bool := true
  atomPaths : List String := []
  atomCfgs : List AtomCfg := []
  boundary : Boundary := .Zero
  sparseCalc : Bool := false
  finalDense : Bool := true
  threshold : ℚ := 0
  maxIter : ℤ := 200
  popTol : ℚ := 1 / 1000
  charge : Bool := false
  pressure : Bool := false
  snapFreq : ℤ := 0
  lambdaIters : ℤ := 2
  maxCascade : ℤ := 5
  mip : MipCfg := {}
  ng : NgCfg := {}
deriving DecidableEq

/-! ### Reading -/

/-- source/DexrtConfig.hpp:65-74 `parse_extra_givenfs`. -/
def givenFs (c : Cfg) : Cfg :=
  { c with boundary := .Zero, sparseCalc := false, threshold := 0, maxIter := 0, popTol := 1, charge := false,
           pressure := false }

/-- source/DexrtConfig.hpp:97-108. -/
def parseTreatment : Option String → Outcome Treatment
  | none => .ok .Active
  | some s => if s = "Detailed" then .ok .Detailed else if s = "Golding" then .ok .Golding
    else if s = "Active" then .ok .Active else .throws

/-- source/DexrtConfig.hpp:110-119. -/
def parseInitPops : Option String → Outcome InitPops
  | none => .ok .Lte
  | some s => if s = "Lte" then .ok .Lte else if s = "ZeroRadiation" then .ok .ZeroRadiation else .throws

/-- source/DexrtConfig.hpp:86-122: one atom. -/
def parseAtom (a : AtomNode) : Outcome (String × AtomCfg) := do
  match a.path with
  | none => .throws
  | some p =>
    let t ← parseTreatment a.treatment
    let i ← parseInitPops a.initPops
    .ok (p, { treatment := t, initPops := i })

/-- source/DexrtConfig.hpp:125-134. -/
def parseBoundary : Option String → Outcome Boundary
  | none => .ok .Zero
  | some s => if s = "Zero" then .ok .Zero else if s = "Promweaver" then .ok .Promweaver else .throws

/-- source/DexrtConfig.hpp:76-135 `parse_extra_lte`. -/
def lte (f : File) (c : Cfg) : Outcome Cfg := do
  let c := { c with sparseCalc := f.sparseCalc.getD c.sparseCalc, threshold := f.threshold.getD c.threshold }
  match f.atoms with
  | none => .throws
  | some as =>
    let l ← as.mapM parseAtom
    let b ← parseBoundary f.boundary
    .ok { c with atomPaths := c.atomPaths ++ l.map Prod.fst, atomCfgs := c.atomCfgs ++ l.map Prod.snd, boundary := b }

/-- source/DexrtConfig.hpp:159-170. -/
def ngOf (n : Option NgNode) (g : NgCfg) : NgCfg :=
  match n with
  | none => g
  | some n => { enable := n.enable.getD g.enable, threshold := n.threshold.getD g.threshold,
                lower := n.lower.getD g.lower }

/-- source/DexrtConfig.hpp:137-171 `parse_extra_nonlte`. -/
def nonLte (f : File) (c : Cfg) : Outcome Cfg := do
  let c ← lte f c
  .ok { c with
    maxIter := f.maxIter.getD c.maxIter
    popTol := f.popTol.getD c.popTol
    charge := f.charge.getD c.charge
    pressure := f.pressure.getD c.pressure
    snapFreq := f.snapFreq.getD c.snapFreq
    lambdaIters := f.lambdaIters.getD c.lambdaIters
    finalDense := f.finalDense.getD c.finalDense
    ng := ngOf f.ng c.ng }

/-- source/DexrtConfig.hpp:178-207: the keys of `output`. -/
def outKeys (o : OutNode) : OutCfg :=
  { sparse := o.sparse.getD false, wavelength := o.wavelength.getD true, J := o.J.getD true, pops := o.pops.getD true,
    ltePops := o.ltePops.getD true, ne := o.ne.getD true, nh := o.nh.getD true, psiStar := o.psiStar.getD false,
    cascades := o.cascades.getD [] }

/-- source/DexrtConfig.hpp:209-231: what applies to the mode. -/
def outMode (c : Cfg) (o : OutCfg) : OutCfg :=
  match c.mode with
  | .GivenFs => { o with ne := false, nh := false, pops := false, ltePops := false, active := false, psiStar := false }
  | .Lte => { o with ne := false, nh := false, ltePops := false, psiStar := false, active := true }
  | .NonLte =>
    let o := { o with active := true }
    if !(c.charge || c.pressure) then { o with ne := false, nh := false } else o

/-- source/DexrtConfig.hpp:236-252: check of the requested cascades; `pp` is `PINGPONG_BUFFERS(_3D)`. -/
def cascadesOk (pp : Bool) (c : Cfg) (o : OutCfg) : Bool :=
  o.cascades.all fun n => !(decide (n > c.maxCascade)) && !(pp && decide (n > 1))

/-- source/DexrtConfig.hpp:173-256 `parse_and_update_dexrt_output_config`. -/
def output (pp : Bool) (o : OutNode) (c : Cfg) : Outcome Cfg :=
  let out := outMode c (outKeys o)
  if cascadesOk pp c out then .ok { c with output := out } else .throws

/-- source/DexrtConfig.hpp:263-284: the mip levels of `len` cascades; with an empty sequence line 276 reads `mip_levels[-1]`
(if there is any cascade). -/
def levelsFor (len : ℕ) : Option LevelsNode → Outcome (List ℤ)
  | none => .ok (List.replicate len 0)
  | some (.one v) => .ok (List.replicate len v)
  | some (.seq l) =>
    let m := min len l.length
    if h : 0 < m then
      .ok (l.take m ++ List.replicate (len - m) (l[m - 1]'(by omega)))
    else if len = 0 then .ok [] else .ub

/-- source/DexrtConfig.hpp:258-284: the mip level per cascade. `resize` of a negative size throws; `max_cascade + 1` overflows
for the largest `int`. -/
def mipLevels (maxCascade : ℤ) (n : Option LevelsNode) : Outcome (List ℤ) :=
  if maxCascade = i32Max then .ub
  else if maxCascade + 1 < 0 then .throws
  else levelsFor (maxCascade + 1).toNat n

/-- source/DexrtConfig.hpp:258-297 `parse_mip_config`. -/
def mip (f : File) (c : Cfg) : Outcome Cfg := do
  let l ← mipLevels c.maxCascade (f.mip.bind MipNode.levels)
  match f.mip with
  | none => .ok { c with mip := { c.mip with levels := l } }
  | some m => .ok { c with mip :=
      { opacity := m.opacity.getD c.mip.opacity, logChi := m.logChi.getD c.mip.logChi,
        logEta := m.logEta.getD c.mip.logEta, levels := l } }

/-- source/DexrtConfig.hpp:306-314. -/
def poolOf (s : Option SystemNode) (p : ℚ) : ℚ :=
  match s with
  | none => p
  | some s => match s.pool with
    | some v => v
    | none => s.poolInitial.getD p

/-- source/DexrtConfig.hpp:324-333. -/
def parseMode : Option String → Outcome Mode
  | none => .ok .NonLte
  | some s => if s = "Lte" then .ok .Lte else if s = "NonLte" then .ok .NonLte
    else if s = "GivenFs" then .ok .GivenFs else .throws

/-- source/DexrtConfig.hpp:341-351. -/
def extra (f : File) (c : Cfg) : Outcome Cfg :=
  match c.mode with
  | .Lte => lte f c
  | .NonLte => nonLte f c
  | .GivenFs => .ok (givenFs c)

/-- source/DexrtConfig.hpp:353-355. -/
def outputIf (pp : Bool) (o : Option OutNode) (c : Cfg) : Outcome Cfg :=
  match o with
  | none => .ok c
  | some o => output pp o c

/-- source/DexrtConfig.hpp:299-339: the settings read in every mode. -/
def base (f : File) (m : Mode) : Cfg :=
  { mode := m, pool := poolOf f.system 4, atmosPath := f.atmosPath.getD "dexrt_atmos.nc",
    outputPath := f.outputPath.getD "dexrt.nc", initialPops := f.initialPops.getD "",
    storeJ := f.storeJ.getD true, maxCascade := f.maxCascade.getD 5 }

/-- source/DexrtConfig.hpp:299-360 `parse_dexrt_config`. -/
def parse (pp : Bool) (f : File) : Outcome Cfg := do
  let m ← parseMode f.mode
  let c ← extra f (base f m)
  let c ← outputIf pp f.output c
  mip f c

/-! ### The output file -/

/-- A variable of the output file. -/
inductive Var where
  | J | maxMip | wavelength | pops | ltePops | ne | nh | psiStar | active | cascade (n : ℕ) | tiles
deriving DecidableEq, Repr

/-- Arrays that exist when results are written: `pops`, `ne`, `nh_tot`, `wavelength` are set up by `init_atmos_atoms`
(source/main.cpp:65-146, source/main_3d.cpp:103-173), not in `GivenFs` mode. -/
def hasAtoms (c : Cfg) : Bool := c.mode != .GivenFs

/-- `psi_star` is allocated in non-LTE mode, source/CascadeState.cpp:56-58, source/CascadeState3d.cpp:44-46. -/
def hasPsi (c : Cfg) : Bool := c.mode == .NonLte

/-- The array written as `J` and its shape are defined: in 2D always (source/main.cpp:40-63, shape from the block map); in
3D `J_cpu` is not allocated in `GivenFs` mode (source/main_3d.cpp:44-51) and the shape is `atmos.num_z/y/x`, which only
`init_atmos_atoms` sets (source/main_3d.cpp:464-496). -/
def jDefined (p : Program) (c : Cfg) : Bool :=
  match p with
  | .two => true
  | .three => hasAtoms c

/-- `i_cascades[casc]`: two buffers with ping-pong, else one per cascade, source/CascadeState.cpp:25-55; outside is UB. -/
def cascadeVar (pp : Bool) (c : Cfg) (n : ℤ) : Outcome Var :=
  if 0 ≤ n ∧ n < (if pp then 2 else c.maxCascade + 1) then .ok (.cascade n.toNat) else .ub

/-- source/main.cpp:772-823, source/main_3d.cpp:464-530 `save_results`: the variables written, in order. Using an array that
was never allocated is UB. `max_mip_block` and `active` are only written by the 2D program. -/
def saveVars (p : Program) (pp : Bool) (c : Cfg) : Outcome (List Var) := do
  let o := c.output
  let j ← if o.J then
      (if jDefined p c then .ok (if p = .two then [Var.J, Var.maxMip] else [Var.J]) else .ub)
    else .ok []
  let w := if o.wavelength && hasAtoms c then [Var.wavelength] else []
  let ps := if o.pops && hasAtoms c then [Var.pops] else []
  let lp ← if o.ltePops then (if hasAtoms c then .ok [Var.ltePops] else .ub) else .ok []
  let ne := if o.ne && hasAtoms c then [Var.ne] else []
  let nh := if o.nh && hasAtoms c then [Var.nh] else []
  let psi := if o.psiStar && hasPsi c then [Var.psiStar] else []
  let act := if o.active && p = .two then [Var.active] else []
  let cs ← o.cascades.mapM (cascadeVar pp c)
  .ok (j ++ w ++ ps ++ lp ++ ne ++ nh ++ psi ++ act ++ cs ++ (if o.sparse then [Var.tiles] else []))

end Config
end DexRT
