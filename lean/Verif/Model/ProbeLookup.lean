import Verif.Model.MeanJ
/-!
Model of the host object that tells every kernel which probes of a cascade to compute:
`ProbesToCompute2d`, `ProbesToCompute3d` (source/ProbesToCompute.cpp, source/Types.hpp:384-433). Its device
half, `DeviceProbesToCompute`, is `Probes2`/`Probes3` in `MeanJ`.

Simplification: cascade indices are natural numbers.
-/
namespace DexRT.Lookup
open DexRT

/-- Signed 64-bit product; overflow is UB. -/
def mulI64 (a b : Int) : Outcome Int :=
  if -9223372036854775808 ≤ a * b ∧ a * b ≤ 9223372036854775807 then .ok (a * b) else .ub

/-- `ProbesToCompute2d`, source/Types.hpp:384-387: `active_probes` has one list per cascade. -/
structure Host2 where
  sparse : Bool
  c0 : Casc2
  active : List (List Coord2)

/-- source/ProbesToCompute.cpp:7-18 `init(c0, sparse, probes_to_compute)`. -/
def Host2.init (c0 : Casc2) (sp : Bool) (lists : List (List Coord2)) : Outcome Host2 :=
  if sp && lists.length == 0 then .throws else .ok ⟨sp, c0, lists⟩

/-- source/ProbesToCompute.cpp:20-31 `init(state, max_cascades)`: `sp` is `config.sparse_calculation`, `bm` the block map,
`order` the thread orders; the vector of source/MiscSparse.cpp:294-413 has an entry for each of 0..max_cascades. -/
def Host2.initState (cfg : RcCfg) (B : Nat) (bm : BlockMap Coord2) (order : Nat → List Coord2) (c0 : Casc2) (sp : Bool)
    (maxC : Nat) : Outcome Host2 := do
  let lists ← if sp then collect (activeList2 B bm (probeDims2 cfg c0) order) (List.range (maxC + 1)) else .ok []
  Host2.init c0 sp lists

/-- source/ProbesToCompute.cpp:33-40 `num_active_probes`; `vector::at` throws past the end. -/
def Host2.num (cfg : RcCfg) (h : Host2) (n : Nat) : Outcome Int :=
  if h.sparse then
    match h.active[n]? with
    | none => .throws
    | some l => .ok l.length
  else mulI64 (cascadeSize cfg h.c0 n).np0 (cascadeSize cfg h.c0 n).np1

/-- source/ProbesToCompute.cpp:42-55 `bind`. The member that is not named is never read; here it is zero or empty. -/
def Host2.bind (cfg : RcCfg) (h : Host2) (n : Nat) : Outcome Probes2 :=
  if h.sparse then
    match h.active[n]? with
    | none => .throws
    | some l => .ok { sparse := true, np := { x := 0, z := 0 }, active := l }
  else .ok { sparse := false, np := { x := (cascadeSize cfg h.c0 n).np0, z := (cascadeSize cfg h.c0 n).np1 }, active := [] }

/-- `ProbesToCompute3d`, source/Types.hpp:409-412. -/
structure Host3 where
  sparse : Bool
  c0 : Casc3
  active : List (List Coord3)

/-- source/ProbesToCompute.cpp:57-68. -/
def Host3.init (c0 : Casc3) (sp : Bool) (lists : List (List Coord3)) : Outcome Host3 :=
  if sp && lists.length == 0 then .throws else .ok ⟨sp, c0, lists⟩

/-- source/ProbesToCompute.cpp:70-81, with the vector of source/MiscSparse.cpp:415-584. -/
def Host3.initState (br : Branch3) (B : Nat) (bm : BlockMap Coord3) (c0 : Casc3) (sp : Bool) (maxC : Nat) :
    Outcome Host3 := do
  let lists ← if sp then collect (activeList3 B bm (probeDims3 br c0)) (List.range (maxC + 1)) else .ok []
  Host3.init c0 sp lists

/-- source/ProbesToCompute.cpp:83-90. -/
def Host3.num (br : Branch3) (h : Host3) (n : Nat) : Outcome Int :=
  if h.sparse then
    match h.active[n]? with
    | none => .throws
    | some l => .ok l.length
  else do
    let a ← mulI64 (cascadeSize3 br h.c0 n).np0 (cascadeSize3 br h.c0 n).np1
    mulI64 a (cascadeSize3 br h.c0 n).np2

/-- source/ProbesToCompute.cpp:92-105. -/
def Host3.bind (br : Branch3) (h : Host3) (n : Nat) : Outcome Probes3 :=
  if h.sparse then
    match h.active[n]? with
    | none => .throws
    | some l => .ok { sparse := true, np := { x := 0, y := 0, z := 0 }, active := l }
  else .ok { sparse := false,
             np := { x := (cascadeSize3 br h.c0 n).np0, y := (cascadeSize3 br h.c0 n).np1, z := (cascadeSize3 br h.c0 n).np2 },
             active := [] }

end DexRT.Lookup
