import Verif.Model.IndexGen
import Verif.Model.RcInterp
/-!
Model of `compute_active_probe_lists` (source/MiscSparse.cpp:294-584): which probes of each cascade are
computed in a sparse run. Flag arrays are functions from coordinates to `Bool`.
-/
namespace DexRT

/-- Probes per axis of cascade `n`: `cascade_size(c0_size, n).num_probes`, source/RcUtilsModes.hpp:41-42;
`x` is `num_probes(0)`, `z` is `num_probes(1)`. -/
def probeDims2 (c : RcCfg) (c0 : Casc2) (n : Nat) : Coord2 :=
  { x := (cascadeSize c c0 n).np0, z := (cascadeSize c c0 n).np1 }

/-- Probes per axis in 3D, source/RcUtilsModes3d.hpp:63-65. -/
def probeDims3 (b : Branch3) (c0 : Casc3) (n : Nat) : Coord3 :=
  { x := (cascadeSize3 b c0 n).np0, y := (cascadeSize3 b c0 n).np1, z := (cascadeSize3 b c0 n).np2 }

/-- Index pairs of a `FlatLoop<2>(d.z, d.x)` in order. -/
def cells2 (d : Coord2) : List Coord2 :=
  (loopTo d.z).flatMap fun z => (loopTo d.x).map fun x => { x := x, z := z }

/-- Index triples of a `FlatLoop<3>(d.z, d.y, d.x)` in order. -/
def cells3 (d : Coord3) : List Coord3 :=
  (loopTo d.z).flatMap fun z => (loopTo d.y).flatMap fun y => (loopTo d.x).map fun x =>
    { x := x, y := y, z := z }

section
variable {C : Type} [DecidableEq C]

/-- Set a list of flags to 1 (`prev_active(...) = 1`, `atomic_max(curr_active(...), 1)`,
source/MiscSparse.cpp:312, 366-375); a write outside the array is UB. -/
def setFlags (inb : C → Bool) : List C → (C → Bool) → Outcome (C → Bool)
  | [], g => .ok g
  | t :: ts, g => if inb t then setFlags inb ts (fun c => decide (c = t) || g c) else .ub

/-- Collect outcomes of a list of loop iterations. -/
def collect {α β : Type} (f : α → Outcome β) : List α → Outcome (List β)
  | [] => .ok []
  | a :: as => do
    let b ← f a
    let bs ← collect f as
    .ok (b :: bs)
end

/-- `(tile_idx, block_idx)` pairs of `block_map.loop_bounds()` in order of `loop_idx`
(source/BlockMap.hpp:222-228). -/
def blockLoop (numActive : Int) (cells : Nat) : List (Nat × Int) :=
  (List.range numActive.toNat).flatMap fun t => (List.range cells).map fun k : Nat => (t, (k : Int))

/-- source/MiscSparse.cpp:320-331: the list of cascade 0. Entry `ks = loop_idx(tile, block)` is the
iteration's position, so the array is the list of coordinates in loop order. -/
def c0List2 (B : Nat) (bm : BlockMap Coord2) : Outcome (List Coord2) :=
  collect (fun p => loopCoord2 B bm p.1 p.2) (blockLoop bm.numActive (B * B))

/-- source/MiscSparse.cpp:304-315: flags of cascade 0. -/
def c0Flags2 (B : Nat) (bm : BlockMap Coord2) (d : Coord2) : Outcome (Coord2 → Bool) := do
  let l ← c0List2 B bm
  setFlags (inDims2 d) l (fun _ => false)

/-- source/MiscSparse.cpp:357-376: flags set by one active probe `l` of the cascade below; `d` are the
extents of `curr_active`. -/
def markTargets2 (d l : Coord2) : List Coord2 :=
  let zb := max ((l.z - 1).tdiv 2) 0
  let xb := max ((l.x - 1).tdiv 2) 0
  let zClamp : Bool := zb == 0 || zb == d.z - 1
  let xClamp : Bool := xb == 0 || xb == d.x - 1
  [{ x := xb, z := zb }] ++
  (if xClamp then [] else [{ x := xb + 1, z := zb }]) ++
  (if zClamp then [] else [{ x := xb, z := zb + 1 }]) ++
  (if zClamp || xClamp then [] else [{ x := xb + 1, z := zb + 1 }])

/-- source/MiscSparse.cpp:354-378: the parallel loop over the probes of the cascade below, in the order
`sched` in which the threads run. -/
def markAll2 (d : Coord2) (prev : Coord2 → Bool) : List Coord2 → (Coord2 → Bool) → Outcome (Coord2 → Bool)
  | [], g => .ok g
  | l :: ls, g =>
    if prev l then do
      let g' ← setFlags (inDims2 d) (markTargets2 d l) g
      markAll2 d prev ls g'
    else markAll2 d prev ls g

/-- source/MiscSparse.cpp:340-411: flags of cascade `n`; `sched n` is the thread order of the loop that
computes cascade `n+1`. -/
def activeFlags2 (B : Nat) (bm : BlockMap Coord2) (D : Nat → Coord2) (sched : Nat → List Coord2) :
    Nat → Outcome (Coord2 → Bool)
  | 0 => c0Flags2 B bm (D 0)
  | n + 1 => do
    let p ← activeFlags2 B bm D sched n
    markAll2 (D (n + 1)) p (sched n) (fun _ => false)

/-- source/MiscSparse.cpp:380-401: flags to list: collect the codes, sort, decode. -/
def probeList2 (d : Coord2) (g : Coord2 → Bool) : List Coord2 :=
  (sortCodes (((cells2 d).filter g).map encodeMorton2)).map decodeMorton2

/-- source/MiscSparse.cpp:294-413 `compute_active_probe_lists(State)`: the list of cascade `n`. -/
def activeList2 (B : Nat) (bm : BlockMap Coord2) (D : Nat → Coord2) (sched : Nat → List Coord2) :
    Nat → Outcome (List Coord2)
  | 0 => c0List2 B bm
  | n + 1 => do
    let g ← activeFlags2 B bm D sched (n + 1)
    .ok (probeList2 (D (n + 1)) g)

/-! ### 3D -/

/-- source/MiscSparse.cpp:424-434: the list of cascade 0. -/
def c0List3 (B : Nat) (bm : BlockMap Coord3) : Outcome (List Coord3) :=
  collect (fun p => loopCoord3 B bm p.1 p.2) (blockLoop bm.numActive (B * B * B))

/-- source/MiscSparse.cpp:479-485 `clamp access`, one axis. -/
def clampAxis (v n : Int) : Int := min (max v 0) (n - 1)

/-- `for (int z = zp - 1; z < zp + 3; ++z)`, source/MiscSparse.cpp:475-477. -/
def gatherRange (p : Int) : List Int := [2 * p - 1, 2 * p, 2 * p + 1, 2 * p + 2]

/-- source/MiscSparse.cpp:466-486: coordinates of the cascade below inspected for probe `c`, in order;
`pd` are its dimensions. -/
def gatherCoords3 (pd c : Coord3) : List Coord3 :=
  (gatherRange c.z).flatMap fun z => (gatherRange c.y).flatMap fun y => (gatherRange c.x).map fun x =>
    { x := clampAxis x pd.x, y := clampAxis y pd.y, z := clampAxis z pd.z }

/-- source/MiscSparse.cpp:472-499 for cascade 1: `has_leaves` on one generator until the first hit. -/
def anyLeaf3 (B : Nat) (bm : BlockMap Coord3) : List Coord3 → IdxState Coord3 → Outcome Bool
  | [], _ => .ok false
  | c :: cs, s => do
    let (b, s') ← (geo3 B).hasLeaves bm s c
    if b then .ok true else anyLeaf3 B bm cs s'

/-- source/MiscSparse.cpp:472-499 for cascades above 1: read the flags of the cascade below (`pd` its
dimensions, out of bounds is UB). -/
def anyFlag3 (pd : Coord3) (prev : Coord3 → Bool) : List Coord3 → Outcome Bool
  | [] => .ok false
  | c :: cs => if !inDims3 pd c then .ub else if prev c then .ok true else anyFlag3 pd prev cs

/-- source/MiscSparse.cpp:461-512: the parallel loop over the probes `cs` of the new cascade; every
iteration writes only its own flag, so the order does not matter. -/
def gatherAll3 (check : Coord3 → Outcome Bool) : List Coord3 → Outcome (Coord3 → Bool)
  | [] => .ok (fun _ => false)
  | c :: cs => do
    let b ← check c
    let g ← gatherAll3 check cs
    .ok (fun c' => if c' = c then b else g c')

/-- source/MiscSparse.cpp:447-574: flags of cascade `n + 1`. -/
def activeFlags3 (B : Nat) (bm : BlockMap Coord3) (D : Nat → Coord3) : Nat → Outcome (Coord3 → Bool)
  | 0 => gatherAll3 (fun c => anyLeaf3 B bm (gatherCoords3 (D 0) c) (geo3 B).fresh) (cells3 (D 1))
  | n + 1 => do
    let p ← activeFlags3 B bm D n
    gatherAll3 (fun c => anyFlag3 (D (n + 1)) p (gatherCoords3 (D (n + 1)) c)) (cells3 (D (n + 2)))

/-- Insert by code (helper of `sortByCode`). -/
def insertByCode (c : Coord3) : List Coord3 → List Coord3
  | [] => [c]
  | k :: ks =>
    if (encodeMorton3 c).toNat ≤ (encodeMorton3 k).toNat then c :: k :: ks else k :: insertByCode c ks

/-- `std::sort` of probes by code, source/MiscSparse.cpp:560-571 (order among equal codes is unspecified
in C++; here first come first served). -/
def sortByCode : List Coord3 → List Coord3
  | [] => []
  | c :: cs => insertByCode c (sortByCode cs)

/-- source/MiscSparse.cpp:415-584 `compute_active_probe_lists(State3d)`: the list of cascade `n`;
`copy_if` keeps the flagged coordinates in loop order. -/
def activeList3 (B : Nat) (bm : BlockMap Coord3) (D : Nat → Coord3) : Nat → Outcome (List Coord3)
  | 0 => c0List3 B bm
  | n + 1 => do
    let g ← activeFlags3 B bm D n
    .ok (sortByCode ((cells3 (D (n + 1))).filter g))

end DexRT
