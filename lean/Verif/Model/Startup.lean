import Verif.Model.Sparse
import Verif.Model.IterLoop
import Verif.Model.StatEq
/-!
Model of the start of a run: reading initial populations (source/main.cpp:336-398, source/main_3d.cpp:606-672) and everything
that happens to the populations before the first iteration (source/main.cpp:889-963, source/main_3d.cpp:730-795), on one
process. Several processes are the subject of `startupWorld`.
-/
namespace DexRT
namespace Startup

/-! ### Reading initial populations -/

/-- A file of populations. `sparse`: it has a dimension `ks`, source/main.cpp:344. -/
inductive PopsFile (C V : Type) where
  | sparse (levels : ℕ) (cells : ℤ) (val : ℕ → ℤ → V)
  | dense (levels : ℕ) (dims : C) (val : ℕ → C → V)

variable {V : Type}

/-- The iterations of source/main.cpp:381-386: all levels times all cells of all tiles. -/
def popsIters {C : Type} (cells levels : ℕ) (bm : BlockMap C) : List (ℕ × ℕ × ℤ) :=
  (List.range levels).flatMap fun l => (loopIters cells bm).map fun p => (l, p)

/-- source/main.cpp:379-396 "Sparsify new pops": `pops(level, ks) = temp_pops(level, coord.z, coord.x)`. -/
def loadDense2 (B levels : ℕ) (bm : BlockMap Coord2) (ext : Coord2) (val : ℕ → Coord2 → V) (sched : List (ℕ × ℕ × ℤ))
    (old : ℕ × ℤ → V) : Outcome (ℕ × ℤ → V) :=
  writeLoop (fun q => do
    let ks := (geo2 B).loopIdx q.2.1 q.2.2
    let c ← loopCoord2 B bm q.2.1 q.2.2
    if ¬ q.1 < levels then .ub
    else if !inDims2 ext c then .ub
    else if ¬ (0 ≤ ks ∧ ks < numActiveCells (B * B) bm) then .ub
    else .ok ((q.1, ks), val q.1 c)) sched old

/-- source/main.cpp:336-398 `load_initial_pops`. `levels` is `state.pops.extent(0)`, `atmos` is `num_x`, `num_z`. -/
def loadPops2 (B levels : ℕ) (bm : BlockMap Coord2) (atmos : Coord2) (file : PopsFile Coord2 V) (sched : List (ℕ × ℕ × ℤ))
    (old : ℕ × ℤ → V) : Outcome (ℕ × ℤ → V) :=
  match file with
  | .sparse l n val =>
    if l ≠ levels then .throws
    else if n ≠ numActiveCells (B * B) bm then .throws
    else .ok fun k => val k.1 k.2
  | .dense l d val =>
    if l ≠ levels then .throws
    else if d.x ≠ atmos.x ∨ d.z ≠ atmos.z then .throws
    else loadDense2 B levels bm d val sched old

/-- source/main_3d.cpp:652-669: the levels one after the other. -/
def loadDense3 (B levels : ℕ) (bm : BlockMap Coord3) (ext : Coord3) (val : ℕ → Coord3 → V) (sched : ℕ → List (ℕ × ℤ))
    (old : ℕ × ℤ → V) : Outcome (ℕ × ℤ → V) :=
  (List.range levels).foldlM (fun m l => do
    let s ← sparsifyField3 B bm ext (val l) (sched l) (fun ks => m (l, ks))
    .ok fun k => if k.1 = l then s k.2 else m k) old

/-- source/main_3d.cpp:606-672 `load_initial_pops`. -/
def loadPops3 (B levels : ℕ) (bm : BlockMap Coord3) (atmos : Coord3) (file : PopsFile Coord3 V) (sched : ℕ → List (ℕ × ℤ))
    (old : ℕ × ℤ → V) : Outcome (ℕ × ℤ → V) :=
  match file with
  | .sparse l n val =>
    if l ≠ levels then .throws
    else if n ≠ numActiveCells (B * B * B) bm then .throws
    else .ok fun k => val k.1 k.2
  | .dense l d val =>
    if l ≠ levels then .throws
    else if d.x ≠ atmos.x ∨ d.y ≠ atmos.y ∨ d.z ≠ atmos.z then .throws
    else loadDense3 B levels bm d val sched old

/-! ### Before the first iteration -/

/-- The physics of the start, arbitrary functions. Populations are given per atom (`A`: those of one atom in all cells).
`lte`: `compute_lte_pops`. `collGamma`: `compute_collisions_to_gamma` (source/Collisions.cpp), a function of electron and
hydrogen densities (and the fixed temperature), not of the populations. `solve ia old g h`: `stat_eq` for atom `ia`
(source/Populations.cpp:386-633); the old populations select the equation to replace. `change`: the relative change it
reports. `nr`, `press`: as in `Phys`. `dark ia g e`: adds the rates without radiation, source/InitialPops.cpp:9-65. -/
structure StartPhys (A E H G : Type) where
  lte : E → H → ℕ → A
  collGamma : E → H → ℕ → G
  solve : ℕ → A → G → H → A
  change : (ℕ → A) → (ℕ → A) → Fl
  nr : Bool → Fields (ℕ → A) E H → Fields (ℕ → A) E H × Fl
  press : Fields (ℕ → A) E H → Fields (ℕ → A) E H × Fl
  dark : ℕ → G → E → G

/-- Settings of the start. `press2` is true for the 2D program, which conserves pressure in the LTE loop with
`simple_conserve_pressure` (source/main.cpp:940-951); the 3D program passes `conserve_pressure` to `nr_post_update`
(source/main_3d.cpp:776-780). `zeroRad ia`: the atom is to start from `ZeroRadiation`. -/
structure StartCfg where
  nonLte : Bool
  charge : Bool
  pressure : Bool
  haveH : Bool
  maxIters : ℤ
  atoms : ℕ
  zeroRad : ℕ → Bool
  press2 : Bool

variable {A E H G : Type}

/-- `stat_eq` for all atoms (source/Populations.cpp:388), with rates from collisions. -/
def collEq (ph : StartPhys A E H G) (f : Fields (ℕ → A) E H) : Fields (ℕ → A) E H × Fl :=
  let p := fun ia => ph.solve ia (f.pops ia) (ph.collGamma f.ne f.nh ia) f.nh
  ({ f with pops := p }, ph.change f.pops p)

/-- source/main.cpp:929-952, source/main_3d.cpp:761-783: one pass of the LTE iteration; `lteI` counts from 1. -/
def ltePass (c : StartCfg) (ph : StartPhys A E H G) (lteI : ℕ) (f : Fields (ℕ → A) E H) : Fields (ℕ → A) E H × Fl :=
  let (f1, ch) := collEq ph f
  if lteI < 2 then (f1, ch)
  else if c.press2 then
    let (f2, u) := ph.nr false f1
    if c.pressure then
      let (f3, u3) := ph.press f2
      (f3, flMax u3 u)
    else (f2, u)
  else ph.nr c.pressure f1

/-- source/main.cpp:926-953, source/main_3d.cpp:758-784: the LTE iteration; `n` passes are left before `max_iters`. -/
def lteLoop (c : StartCfg) (ph : StartPhys A E H G) : ℕ → ℕ → Fl → Fields (ℕ → A) E H → Fields (ℕ → A) E H
  | 0, _, _, f => f
  | n + 1, lteI, ch, f =>
    if flGt ch (some (1 / 100000)) || decide (lteI < 6) then
      let r := ltePass c ph (lteI + 1) f
      lteLoop c ph n (lteI + 1) r.2 r.1
    else f

/-- source/InitialPops.cpp:67-99 `set_initial_pops_special`. All collisional rates are computed once, before the first atom is
solved for. -/
def special (c : StartCfg) (ph : StartPhys A E H G) (f : Fields (ℕ → A) E H) : Fields (ℕ → A) E H :=
  { f with pops := fun ia =>
      if ia < c.atoms ∧ c.zeroRad ia = true then
        ph.solve ia (f.pops ia) (ph.dark ia (ph.collGamma f.ne f.nh ia) f.ne) f.nh
      else f.pops ia }

/-- source/main.cpp:889-963, source/main_3d.cpp:730-795: fields and iteration number before the first iteration. `file`: the
populations read from `initial_pops_path`. `restart`: what `handle_restart` reads. -/
def start (c : StartCfg) (ph : StartPhys A E H G) (e : E) (h : H) (file : Option (ℕ → A))
    (restart : Option (Snapshot (ℕ → A) E H)) : Outcome (ℤ × Fields (ℕ → A) E H) :=
  let f : Fields (ℕ → A) E H := { pops := file.getD (ph.lte e h), ne := e, nh := h }
  if c.charge && !c.haveH then .throws
  else if c.pressure && !c.charge then .throws
  else if c.press2 && !c.nonLte then .ok (0, f)
  else
    let f := if c.charge && restart.isNone then lteLoop c ph c.maxIters.toNat 0 (some 1) f else f
    let f := if c.nonLte && restart.isNone then special c ph f else f
    match restart with
    | none => .ok (0, f)
    | some s => handleRestart s f

/-! ### LTE runs -/

/-- Number of formal solutions over all wavelengths of a run in LTE mode: the 2D program makes one (source/main.cpp:1091-1117);
the 3D program enters the iteration loop and leaves it after the formal solution (source/main_3d.cpp:808-847), if the loop
condition holds at the start: `i` is 0 or the iteration number of the snapshot. -/
def lteSolutions (three : Bool) (tol : ℚ) (lambdaIters maxIters i : ℤ) : ℕ :=
  if three then
    (if (decide (1 > tol) || decide (i < lambdaIters + 1)) && decide (i < maxIters) then 1 else 0)
  else 1

end Startup
end DexRT
