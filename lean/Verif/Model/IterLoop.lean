import Verif.Model.Basic
import Mathlib.Data.Rat.Defs
import Mathlib.Algebra.Order.Field.Rat
/-!
Model of the non-LTE iteration: the loop of source/main.cpp:940-1060 (source/main_3d.cpp:735-886), the firing
rule of Ng acceleration (source/NgAcceleration.cpp:12-37), MPI replication of the populations and electron
density (source/WavelengthParallelisation.hpp:224-248), snapshots and restart (source/main.cpp:263-334).

The physics of an iteration is an arbitrary function (`Phys`); nothing is assumed about it.
-/
namespace DexRT

/-- A floating-point number as far as comparisons go: `none` is NaN. Simplification: finite values are
exact rationals, infinities are not represented. -/
abbrev Fl := Option ℚ

/-- `a > b` (false if either is NaN). -/
def flGt : Fl → Fl → Bool
  | some a, some b => decide (b < a)
  | _, _ => false

/-- `a < b` (false if either is NaN). -/
def flLt (a b : Fl) : Bool := flGt b a

/-- `std::max(a, b)`: `(a < b) ? b : a`. -/
def flMax (a b : Fl) : Fl := if flLt a b then b else a

/-! ### Ng acceleration: when it fires -/

/-- The decision state of `NgAccelerator`, source/NgAcceleration.hpp:14-20: `step_count` and
`change_hist` (`num_steps = 5` entries). `V` is the stored population array per slot (`copy_pops`). -/
structure NgState (V : Type) where
  stepCount : Nat
  hist : Nat → Fl
  pops : Nat → V

/-- `NgAccelerator` after `init`, source/NgAcceleration.hpp:22-27; arrays start with arbitrary content. -/
def ngInit {V : Type} (h : Nat → Fl) (p : Nat → V) : NgState V := { stepCount := 0, hist := h, pops := p }

/-- source/NgAcceleration.cpp:14-37: record the populations and the change; the flag says whether the
extrapolation of lines 39-110 is carried out. -/
def ngRecord {V : Type} (accelTol lowerTol : Fl) (s : NgState V) (pops : V) (change : Fl) : NgState V × Bool :=
  let idx := s.stepCount % 5
  let hist := fun k => if k = idx then change else s.hist k
  let s' : NgState V := { stepCount := s.stepCount + 1, hist := hist, pops := fun k => if k = idx then pops else s.pops k }
  if idx != 4 || flLt change lowerTol then (s', false)
  else if (List.range 5).any fun i => flGt (hist i) accelTol then (s', false)
  else (s', true)

/-! ### One process -/

/-- The fields an iteration changes: populations, electron density, total hydrogen density
(source/State.hpp: `pops`, `atmos.ne`, `atmos.nh_tot`). -/
structure Fields (P E H : Type) where
  pops : P
  ne : E
  nh : H
deriving DecidableEq

/-- Configuration read by the loop, source/main.cpp:900-916; `pressNr` is `CONSERVE_PRESSURE_NR`
(source/UserConfig2d.hpp:216). -/
structure IterCfg where
  tol : Fl
  initialLambda : Int
  maxIters : Int
  ng : Bool
  accelTol : Fl
  lowerTol : Fl
  consCharge : Bool
  consPressure : Bool
  pressNr : Bool
  snapFreq : Nat

/-- The physics of an iteration, arbitrary functions. `statEq lam w` is formal solution plus statistical
equilibrium on rank 0 when rank `r` holds the fields `w r`; `nr` is `nr_post_update`
(source/ChargeConservation.cpp:445-966), `press` is `simple_conserve_pressure`
(source/PressureConservation.hpp:10-104), `extrap` the Ng extrapolation from the five stored iterates. -/
structure Phys (P E H : Type) where
  statEq : Bool → (Nat → Fields P E H) → P × Fl
  nr : Bool → Fields P E H → Fields P E H × Fl
  press : Fields P E H → Fields P E H × Fl
  extrap : (Nat → P) → P

variable {P E H : Type}

/-- Loop variables of source/main.cpp:940-980. -/
structure IterState (P E H : Type) where
  i : Int
  maxChange : Fl
  accelerated : Bool
  ng : NgState P
  f : Fields P E H

/-- source/main.cpp:980: the loop condition. -/
def iterCond (c : IterCfg) (s : IterState P E H) : Bool :=
  ((flGt s.maxChange c.tol || decide (s.i < c.initialLambda + 1)) && decide (s.i < c.maxIters)) || s.accelerated

/-- `nr_post_update` as far as the frame goes: `nh_tot` and the other populations are only written when it
conserves pressure (source/ChargeConservation.cpp:923-943). -/
def nrUpdate (ph : Phys P E H) (consP : Bool) (f : Fields P E H) : Fields P E H × Fl :=
  let r := ph.nr consP f
  ({ pops := r.1.pops, ne := r.1.ne, nh := if consP then r.1.nh else f.nh }, r.2)

/-- source/main.cpp:1018-1043: what rank 0 computes in one iteration, given the fields `w r` every rank used
in the formal solution: new fields and `max_change`. -/
def rank0Update (c : IterCfg) (ph : Phys P E H) (i : Int) (w : Nat → Fields P E H) : Fields P E H × Fl :=
  let (p1, ch1) := ph.statEq (decide (i < c.initialLambda)) w
  let f1 : Fields P E H := { pops := p1, ne := (w 0).ne, nh := (w 0).nh }
  if decide (i > 0) && c.consCharge then
    let (f2, u) := nrUpdate ph (c.pressNr && c.consPressure) f1
    let ch2 := flMax u ch1
    if !c.pressNr && c.consPressure then
      let (f3, u3) := ph.press f2
      (f3, flMax u3 ch2)
    else (f2, ch2)
  else (f1, ch1)

/-- source/main.cpp:1044-1051: Ng step. -/
def ngStep (c : IterCfg) (ph : Phys P E H) (ng : NgState P) (acc : Bool) (p : P) (ch : Fl) : NgState P × Bool × P :=
  if c.ng then
    let (ng', fire) := ngRecord c.accelTol c.lowerTol ng p ch
    (ng', fire, if fire then ph.extrap ng'.pops else p)
  else (ng, acc, p)

/-- source/main.cpp:981-1059: one iteration of a single process. -/
def iterStep (c : IterCfg) (ph : Phys P E H) (s : IterState P E H) : IterState P E H :=
  let (f, ch) := rank0Update c ph s.i (fun _ => s.f)
  let (ng', acc, p) := ngStep c ph s.ng s.accelerated f.pops ch
  { i := s.i + 1, maxChange := ch, accelerated := acc, ng := ng', f := { f with pops := p } }

/-- source/main.cpp:961-979: loop variables before the first iteration (`max_change` is 1, line 916); Ng
records the initial populations (line 976, result ignored: no extrapolation can happen on the first call). -/
def iterInit (c : IterCfg) (h0 : Nat → Fl) (p0 : Nat → P) (i0 : Int) (f : Fields P E H) : IterState P E H :=
  { i := i0, maxChange := some 1, accelerated := false,
    ng := if c.ng then (ngRecord c.accelTol c.lowerTol (ngInit h0 p0) f.pops (some 1)).1 else ngInit h0 p0, f := f }

/-- `k` iterations, whether or not the loop condition still holds. -/
def iterN (c : IterCfg) (ph : Phys P E H) (s : IterState P E H) : Nat → IterState P E H
  | 0 => s
  | k + 1 => iterStep c ph (iterN c ph s k)

/-- The `while` loop started in `s` ends after exactly `n` iterations. -/
def LoopEnds (c : IterCfg) (ph : Phys P E H) (s : IterState P E H) (n : Nat) : Prop :=
  (∀ k < n, iterCond c (iterN c ph s k) = true) ∧ iterCond c (iterN c ph s n) = false

/-! ### Convergence measure -/

/-- source/Populations.cpp:603-646 and source/Populations.cpp:386, 643: the change reported by `stat_eq`: a
`MaxLoc` reduction (its identity is the lowest finite number, `low`) with the comparison `change > rval.val`,
then `std::max` with 0. -/
def reportedChange (low : ℚ) (changes : List Fl) : Fl :=
  flMax (changes.foldl (fun m ch => if flGt ch m then ch else m) (some low)) (some 0)

/-! ### Several ranks -/

/-- State of all ranks: rank `r` holds `w r`; loop variables are the same on all ranks except `ng`. -/
structure WorldState (P E H : Type) where
  i : Int
  maxChange : Nat → Fl
  accelerated : Nat → Bool
  ng : Nat → NgState P
  w : Nat → Fields P E H

/-- source/main.cpp:981-1059 on all ranks. `stat_eq`, `nr_post_update` and `simple_conserve_pressure` only run
on rank 0 and broadcast the change (source/Populations.cpp:651-662, source/ChargeConservation.cpp:967-978,
source/PressureConservation.hpp:12-13, 100-102); then `update_ne` (main.cpp:1034), `update_nh_tot` (1041),
Ng on every rank with its own populations (1044-1051) and `update_pops` (1052). `update_ne` comes before
`simple_conserve_pressure`, so it broadcasts the density before that correction. -/
def worldStep (c : IterCfg) (ph : Phys P E H) (s : WorldState P E H) : WorldState P E H :=
  let up := rank0Update c ph s.i s.w
  let ch := up.2
  let (p1, _) := ph.statEq (decide (s.i < c.initialLambda)) s.w
  let sent := decide (s.i > 0) && c.consCharge
  let bcNe := (nrUpdate ph (c.pressNr && c.consPressure) { pops := p1, ne := (s.w 0).ne, nh := (s.w 0).nh }).1.ne
  -- fields after lines 1018-1043
  let w1 : Nat → Fields P E H := fun r =>
    if r = 0 then up.1
    else { pops := (s.w r).pops,
           ne := if sent then bcNe else (s.w r).ne,
           nh := if sent && c.consPressure then up.1.nh else (s.w r).nh }
  let ngr := fun r => ngStep c ph (s.ng r) (s.accelerated r) (w1 r).pops ch
  { i := s.i + 1, maxChange := fun _ => ch, accelerated := fun r => (ngr r).2.1, ng := fun r => (ngr r).1,
    w := fun r => { w1 r with pops := (ngr 0).2.2 } }

/-- `k` iterations on all ranks. -/
def worldN (c : IterCfg) (ph : Phys P E H) (s : WorldState P E H) : Nat → WorldState P E H
  | 0 => s
  | k + 1 => worldStep c ph (worldN c ph s k)

/-- All ranks before the first iteration; `w` are the fields after the start-up of source/main.cpp:923-962. -/
def worldInit (c : IterCfg) (h0 : Nat → Nat → Fl) (p0 : Nat → Nat → P) (i0 : Int) (w : Nat → Fields P E H) :
    WorldState P E H :=
  { i := i0, maxChange := fun _ => some 1, accelerated := fun _ => false,
    ng := fun r => (iterInit c (h0 r) (p0 r) i0 (w r)).ng, w := w }

/-- The loop condition on rank `r`. -/
def worldCond (c : IterCfg) (s : WorldState P E H) (r : Nat) : Bool :=
  ((flGt (s.maxChange r) c.tol || decide (s.i < c.initialLambda + 1)) && decide (s.i < c.maxIters)) || s.accelerated r

/-- source/main.cpp:923-958 start-up on all ranks when not restarting: every rank has loaded the same fields
`f`. With charge conservation the LTE loop (lines 924-956) runs `stat_eq`, `nr_post_update` (and
`simple_conserve_pressure`), which change the fields of rank 0 only and broadcast nothing but the change. An
atom starting from `ZeroRadiation` (`zeroRad`, source/InitialPops.cpp:67-99) gets populations `pz` on all ranks
and is then solved for on rank 0 only. `f0` collects what rank 0 ends up with. -/
def startupWorld (c : IterCfg) (zeroRad : Bool) (f f0 : Fields P E H) (pz : P) : Nat → Fields P E H := fun r =>
  if r = 0 then
    { pops := if c.consCharge || zeroRad then f0.pops else f.pops,
      ne := if c.consCharge then f0.ne else f.ne,
      nh := if c.consCharge && c.consPressure then f0.nh else f.nh }
  else { f with pops := if zeroRad then pz else f.pops }

/-! ### Snapshots and restart -/

/-- Content of a snapshot file, in the order it is written (source/main.cpp:320-333). -/
structure Snapshot (P E H : Type) where
  numIter : Option Int
  pops : Option P
  ne : Option E
  nh : Option H

/-- source/main.cpp:301-334 `save_snapshot`: the writes, after `nc.create(.., NETCDF_MODE_REPLACE)` emptied
the file. `prefixes` are the contents a crash can leave behind: the k-th is the file after k operations. -/
def snapshotWrites (c : IterCfg) (i : Int) (f : Fields P E H) : List (Snapshot P E H) :=
  let s0 : Snapshot P E H := { numIter := none, pops := none, ne := none, nh := none }
  let s1 := { s0 with numIter := some i }
  let s2 := { s1 with pops := some f.pops }
  let s3 := if c.consCharge then { s2 with ne := some f.ne } else s2
  let s4 := if c.consPressure then { s3 with nh := some f.nh } else s3
  [s0, s1, s2, s3, s4]

/-- The complete file, source/main.cpp:320-333. -/
def snapshotOf (c : IterCfg) (i : Int) (f : Fields P E H) : Snapshot P E H :=
  { numIter := some i, pops := some f.pops, ne := if c.consCharge then some f.ne else none,
    nh := if c.consPressure then some f.nh else none }

/-- source/main.cpp:263-297 `handle_restart` on fields `f` loaded from the atmosphere: missing `ne`/`nh_tot`
are kept from `f`; a missing dimension, `pops` or `num_iter` throws. (Array sizes are not modelled; a size
mismatch throws.) -/
def handleRestart (snap : Snapshot P E H) (f : Fields P E H) : Outcome (Int × Fields P E H) :=
  match snap.pops, snap.numIter with
  | some p, some i => .ok (i, { pops := p, ne := snap.ne.getD f.ne, nh := snap.nh.getD f.nh })
  | _, _ => .throws

/-- source/main.cpp:1053-1057: is a snapshot written when `i` has become this value? -/
def snapshotDue (c : IterCfg) (i : Int) : Bool := c.snapFreq != 0 && i % (c.snapFreq : Int) == 0

/-- The snapshot file between iterations, after `n` iterations from `s` (source/main.cpp:1053-1058). -/
def fileIdle (c : IterCfg) (ph : Phys P E H) (s : IterState P E H) : Nat → Option (Snapshot P E H)
  | 0 => none
  | n + 1 =>
    let t := iterN c ph s (n + 1)
    if snapshotDue c t.i then some (snapshotOf c t.i t.f) else fileIdle c ph s n

/-- The file if the process dies during the snapshot written after iteration `n`, after `k` of its
operations (`k = 0`: just after `nc.create` replaced the old file). Simplification: data reaches the disk in
program order. -/
def fileTorn (c : IterCfg) (ph : Phys P E H) (s : IterState P E H) (n k : Nat) : Option (Snapshot P E H) :=
  let t := iterN c ph s n
  if snapshotDue c t.i then (snapshotWrites c t.i t.f)[k]? else none

/-- source/main.cpp:306-315: the snapshot's file name (characters of the output path). -/
def snapshotName (name : List Char) : List Char :=
  let ext := ['.', 'n', 'c']
  let newExt := ['_', 's', 'n', 'a', 'p', 's', 'h', 'o', 't', '.', 'n', 'c']
  -- `rfind`: the last position where `ext` occurs
  match (List.range (name.length + 1)).reverse.find? (fun p => (name.drop p).take 3 == ext) with
  | none => name ++ newExt
  | some p => name.take p ++ newExt ++ name.drop (p + 3)

end DexRT
