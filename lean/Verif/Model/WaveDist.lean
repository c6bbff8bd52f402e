import Verif.Model.Basic
/-!
Model of the wavelength distributor (source/WavelengthParallelisation.hpp) and of the formal-solution
passes that drive it (source/main.cpp:1001-1016, 1072-1087, 1098-1113; source/main_3d.cpp:832-850, 906-923).

Ranks run concurrently; a state transition is one indivisible action of one rank or of rank 0's service
thread, or a barrier. Integers are unbounded naturals (`la`, `la_max`, `batch_size` are never negative).
Message passing is reliable; the collectives between passes (`MPI_Reduce`, `MPI_Bcast`) and the mutex
`test_lock` (which only serialises MPI calls of rank 0) are left out: leaving them out allows more
interleavings, not fewer.
-/
namespace DexRT

/-- `WavelengthBatch`, source/WavelengthParallelisation.hpp:28-31. -/
structure WaveBatch where
  laStart : Nat
  laEnd : Nat
deriving DecidableEq, Repr

/-- Where a rank is inside a pass. -/
inductive RankPc where
  /-- before `wait_for_all` / `reset`, source/main.cpp:1001, 1072, 1098 -/
  | start
  /-- past the barrier, before `reset()`, source/main.cpp:1002 -/
  | released
  /-- at the loop head, about to call `next_batch`, source/main.cpp:1003 -/
  | asking
  /-- request sent, blocked in `MPI_Recv`, source/WavelengthParallelisation.hpp:124-127 -/
  | waiting
  /-- the service thread has taken `v` from the counter and (is about to have) sent it, lines 100-103 -/
  | replied (v : Nat)
  /-- `next_batch` returned false; waiting at the closing barrier, source/main.cpp:1016 -/
  | finished
deriving DecidableEq, Repr

/-- Global state with dynamic load balancing (`MPI_LOAD_BALANCE = true`). `la` is rank 0's counter (the
counters of the other ranks are never read, line 56), `log` the batches the ranks were given in the current
pass (latest first, with the rank), `pass` the number of completed passes. -/
structure DistState where
  la : Nat
  pc : Nat → RankPc
  log : List (Nat × WaveBatch)
  pass : Nat

/-- Fixed parameters of a run: ranks, wavelengths, batch size, and for each pass whether it begins with a
barrier (source/main.cpp:1001 has one; 1072 and 1098 do not). -/
structure DistCfg where
  R : Nat
  laMax : Nat
  B : Nat
  bar : Nat → Bool

/-- Set the program counter of one rank. -/
def setPc (pc : Nat → RankPc) (r : Nat) (p : RankPc) : Nat → RankPc := fun q => if q = r then p else pc q

/-- source/WavelengthParallelisation.hpp:144-147: the batch made from the counter value `v`. -/
def mkBatch (c : DistCfg) (v : Nat) : WaveBatch := { laStart := v, laEnd := min (v + c.B) c.laMax }

/-- source/WavelengthParallelisation.hpp:55-73 `init`: the counter starts at 0. -/
def distInit : DistState := { la := 0, pc := fun _ => .start, log := [], pass := 0 }

/-- What a rank does with a received counter value, source/WavelengthParallelisation.hpp:144-147 and the
`while` at source/main.cpp:1003: record the batch and come back, or leave the loop. -/
def useValue (c : DistCfg) (s : DistState) (r v : Nat) : DistState :=
  if (mkBatch c v).laStart < c.laMax then
    { s with pc := setPc s.pc r .asking, log := (r, mkBatch c v) :: s.log }
  else { s with pc := setPc s.pc r .finished }

/-- One action inside a pass. -/
inductive DistStep (c : DistCfg) : DistState → DistState → Prop where
  /-- `wait_for_all` before the pass, source/main.cpp:1001 -/
  | barrier1 (s) : c.bar s.pass = true → (∀ r < c.R, s.pc r = .start) →
      DistStep c s { s with pc := fun _ => .released }
  /-- no barrier before the pass, source/main.cpp:1072, 1098 -/
  | enter (s r) : c.bar s.pass = false → r < c.R → s.pc r = .start →
      DistStep c s { s with pc := setPc s.pc r .released }
  /-- `reset()` on rank 0, source/WavelengthParallelisation.hpp:75-80 (`rank_la_start` is 0) -/
  | reset0 (s) : 0 < c.R → s.pc 0 = .released →
      DistStep c s { s with la := 0, pc := setPc s.pc 0 .asking }
  /-- `reset()` on another rank: only touches that rank's unused counter -/
  | resetR (s r) : 0 < r → r < c.R → s.pc r = .released →
      DistStep c s { s with pc := setPc s.pc r .asking }
  /-- `next_batch` on rank 0, lines 136-137 and 83-88 (one critical section) -/
  | take0 (s) : 0 < c.R → s.pc 0 = .asking →
      DistStep c s (useValue c { s with la := s.la + c.B } 0 s.la)
  /-- `request_next_la`, lines 123-125 -/
  | send (s r) : 0 < r → r < c.R → s.pc r = .asking →
      DistStep c s { s with pc := setPc s.pc r .waiting }
  /-- the service thread takes a value for a waiting rank, lines 99-104 and 83-88 -/
  | serve (s r) : 0 < r → r < c.R → s.pc r = .waiting →
      DistStep c s { s with la := s.la + c.B, pc := setPc s.pc r (.replied s.la) }
  /-- `MPI_Recv` returns, lines 126-128, then 144-147 -/
  | recv (s r v) : 0 < r → r < c.R → s.pc r = .replied v → DistStep c s (useValue c s r v)

/-- `wait_for_all` after the pass (source/main.cpp:1016, 1087, 1113; source/main_3d.cpp:850) and the start of
the next pass. -/
inductive DistNext (c : DistCfg) : DistState → DistState → Prop where
  | barrier2 (s) : (∀ r < c.R, s.pc r = .finished) →
      DistNext c s { s with pc := fun _ => .start, log := [], pass := s.pass + 1 }

/-- States reachable by any interleaving over any number of passes. -/
inductive DistReach (c : DistCfg) : DistState → Prop where
  | init : DistReach c distInit
  | step {s t} : DistReach c s → DistStep c s t → DistReach c t
  | next {s t} : DistReach c s → DistNext c s t → DistReach c t

/-- Static mode (`MPI_LOAD_BALANCE = false`) and the build without MPI: the loop
`reset(); while (next_batch(..))` of rank `r`, source/WavelengthParallelisation.hpp:66-67, 75-80, 141-153;
`la` is the rank's own counter. `none` means the fuel ran out. -/
def staticLoop (R B laMax : Nat) : Nat → Nat → Option (List WaveBatch)
  | 0, _ => none
  | fuel + 1, la =>
    let b : WaveBatch := { laStart := la, laEnd := min (la + B) laMax }
    if b.laStart < laMax then (staticLoop R B laMax fuel (la + R * B)).map (b :: ·) else some []

/-- A pass of rank `r` in static mode: `reset` sets `la = rank_la_start = rank * batch_size`. -/
def staticPass (R B laMax fuel r : Nat) : Option (List WaveBatch) := staticLoop R B laMax fuel (r * B)

/-- source/main.cpp:874-882: the batch loop of `GivenFs` mode. -/
def givenLoop (W numWaves : Nat) : Nat → Nat → Option (List WaveBatch)
  | 0, _ => none
  | fuel + 1, laStart =>
    if laStart < numWaves then
      (givenLoop W numWaves fuel (laStart + W)).map
        ({ laStart := laStart, laEnd := min (laStart + W) numWaves } :: ·)
    else some []

end DexRT
