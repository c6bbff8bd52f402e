import Verif.Model.Morton
/-!
Model of block-map construction: source/BlockMap.cpp:5-304 and the containers of
source/BlockMap.hpp:13-229.

2D and 3D share `assignTiles`/`BlockMap`, parametrised by the coordinate type; the loops
that enumerate tiles are written out for each dimension.
-/
namespace DexRT

/-- `BlockMapLookup::entries` (source/BlockMap.hpp:14-90): an i64 per tile, initialised to -1.
Modelled as a total function; reads and writes go through the bounds test `inb`. -/
abbrev Entries (C : Type) := C → Int

/-- source/BlockMap.hpp:45-80 `BlockMapLookup::init`: all entries -1. -/
def Entries.init {C : Type} : Entries C := fun _ => -1

/-- Write `lookup_host(c) = v` (source/BlockMap.hpp:58-66, 82-90). Out of bounds is UB. -/
def Entries.write {C : Type} [DecidableEq C] (inb : C → Bool) (e : Entries C) (c : C) (v : Int) :
    Outcome (Entries C) :=
  if inb c then .ok (fun c' => if c' = c then v else e c') else .ub

/-- The block map (source/BlockMap.hpp:152-163). `dims` are the tile counts (`num_tiles`),
`bboxMax` the upper corner of `bbox`; `bbox.min` is always 0 (source/BlockMap.cpp:17-20). -/
structure BlockMap (C : Type) where
  dims : C
  numActive : Int
  bboxMax : C
  lookup : Entries C
  mortonOrder : List (BitVec 32)
  activeTiles : List (BitVec 32)

/-- Tile `c` is inside the lookup array of `d.x` by `d.z` entries. -/
def inDims2 (d c : Coord2) : Bool := decide (0 ≤ c.x ∧ c.x < d.x ∧ 0 ≤ c.z ∧ c.z < d.z)

/-- Tile `c` is inside the lookup array of `d.x` by `d.y` by `d.z` entries. -/
def inDims3 (d c : Coord3) : Bool :=
  decide (0 ≤ c.x ∧ c.x < d.x ∧ 0 ≤ c.y ∧ c.y < d.y ∧ 0 ≤ c.z ∧ c.z < d.z)

/-- `for (int i = 0; i < n; ++i)` as the list of visited values. -/
def loopTo (n : Int) : List Int := (List.range n.toNat).map Int.ofNat

/-- source/BlockMap.cpp:31-36 and 70-75: fill `morton_order`. The slot `z*num_x_tiles+x` is the
position in visiting order, so the array is the concatenation of the rows. -/
def tileCodes2 (d : Coord2) : List (BitVec 32) :=
  (loopTo d.z).flatMap fun z => (loopTo d.x).map fun x => encodeMorton2 { x := x, z := z }

/-- source/BlockMap.cpp:167-174 and 226-235: fill `morton_order` in 3D. -/
def tileCodes3 (d : Coord3) : List (BitVec 32) :=
  (loopTo d.z).flatMap fun z => (loopTo d.y).flatMap fun y =>
    (loopTo d.x).map fun x => encodeMorton3 { x := x, y := y, z := z }

/-- Insert a code into a sorted list (helper of `sortCodes`). -/
def insertCode (m : BitVec 32) : List (BitVec 32) → List (BitVec 32)
  | [] => [m]
  | k :: ks => if m.toNat ≤ k.toNat then m :: k :: ks else k :: insertCode m ks

/-- `std::sort` on `uint32_t` (source/BlockMap.cpp:37, 76, 175, 236, 398). Any sorting algorithm
gives the same list because equal codes are indistinguishable; insertion sort is used here. -/
def sortCodes : List (BitVec 32) → List (BitVec 32)
  | [] => []
  | m :: ms => insertCode m (sortCodes ms)

/-- The numbering loop, source/BlockMap.cpp:43-47 (dense: `act` constantly true),
109-116, 181-185, 268-276: walk the sorted codes, give every active tile the next number.
Returns the entries and the final `grid_idx`. Reading `active` or writing `lookup` out of
bounds is UB. -/
def assignTiles {C : Type} [DecidableEq C] (inb : C → Bool) (dec : BitVec 32 → C) (act : C → Bool) :
    List (BitVec 32) → Entries C → Int → Outcome (Entries C × Int)
  | [], e, g => .ok (e, g)
  | m :: ms, e, g =>
    let c := dec m
    if !inb c then .ub
    else if act c then do
      let e' ← e.write inb c g
      assignTiles inb dec act ms e' (g + 1)
    else assignTiles inb dec act ms e g

/-- source/BlockMap.cpp:5-49 `BlockMapInit<2>::setup_dense`. `B` is `BLOCK_SIZE`. -/
def setupDense2 (B : Nat) (xSize zSize : Int) : Outcome (BlockMap Coord2) :=
  if xSize.tmod B ≠ 0 ∨ zSize.tmod B ≠ 0 then .throws
  else do
    let nx := xSize.tdiv B
    let nz := zSize.tdiv B
    let d : Coord2 := { x := nx, z := nz }
    let numActive ← mulI32 nx nz
    if nx * nz * (B * B) > i32Max then .throws
    else do
      let order := sortCodes (tileCodes2 d)
      let (e, _) ← assignTiles (inDims2 d) decodeMorton2 (fun _ => true) order Entries.init 0
      .ok { dims := d, numActive := numActive, bboxMax := { x := xSize, z := zSize },
            lookup := e, mortonOrder := order, activeTiles := order }

/-- source/BlockMap.cpp:142-196 `BlockMapInit<3>::setup_dense`. -/
def setupDense3 (B : Nat) (xSize ySize zSize : Int) : Outcome (BlockMap Coord3) :=
  if xSize.tmod B ≠ 0 ∨ ySize.tmod B ≠ 0 ∨ zSize.tmod B ≠ 0 then .throws
  else do
    let nx := xSize.tdiv B
    let ny := ySize.tdiv B
    let nz := zSize.tdiv B
    let d : Coord3 := { x := nx, y := ny, z := nz }
    let p ← mulI32 nx ny
    let numActive ← mulI32 p nz
    let order := sortCodes (tileCodes3 d)
    let (e, _) ← assignTiles (inDims3 d) decodeMorton3 (fun _ => true) order Entries.init 0
    if nx * ny * nz * (B * B * B) > i32Max then .throws
    else
      .ok { dims := d, numActive := numActive, bboxMax := { x := xSize, y := ySize, z := zSize },
            lookup := e, mortonOrder := order, activeTiles := order }

section Sparse
variable {F : Type} [LE F] [DecidableLE F]

/-- `for (int z = t * B; z < (t + 1) * B; ++z)`. -/
def tileRange (B : Nat) (t : Int) : List Int := (List.range B).map fun i : Nat => t * B + (i : Int)

/-- source/BlockMap.cpp:91-101: scan a tile, stop at the first cell at or below the cutoff
(`any` short-circuits exactly where the lambda returns). `F` is any floating-point-like type;
no law of `≤` is assumed, so NaN cells simply compare false. -/
def scanTile2 (B : Nat) (temp : Int → Int → F) (cutoff : F) (c : Coord2) : Bool :=
  (tileRange B c.z).any fun z => (tileRange B c.x).any fun x => decide (temp z x ≤ cutoff)

/-- source/BlockMap.cpp:252-264. -/
def scanTile3 (B : Nat) (temp : Int → Int → Int → F) (cutoff : F) (c : Coord3) : Bool :=
  (tileRange B c.z).any fun z => (tileRange B c.y).any fun y =>
    (tileRange B c.x).any fun x => decide (temp z y x ≤ cutoff)

/-- source/BlockMap.cpp:51-140 `BlockMapInit<2>::setup_sparse`; the temperature array has extents
`zSize` by `xSize`; `allActive` is `cutoff_temperature == 0`. -/
def setupSparse2 (B : Nat) (xSize zSize : Int) (temp : Int → Int → F) (cutoff : F)
    (allActive : Bool) : Outcome (BlockMap Coord2) :=
  if zSize.tmod B ≠ 0 ∨ xSize.tmod B ≠ 0 then .throws
  else do
    let nx := xSize.tdiv B
    let nz := zSize.tdiv B
    let d : Coord2 := { x := nx, z := nz }
    let _ ← mulI32 nx nz
    let order := sortCodes (tileCodes2 d)
    let act : Coord2 → Bool := fun c => allActive || scanTile2 B temp cutoff c
    let (e, g) ← assignTiles (inDims2 d) decodeMorton2 act order Entries.init 0
    let active := if allActive then order else order.filter (fun m => act (decodeMorton2 m))
    if g * (B * B) > i32Max then .throws
    else
      .ok { dims := d, numActive := g, bboxMax := { x := xSize, z := zSize },
            lookup := e, mortonOrder := order, activeTiles := active }

/-- source/BlockMap.cpp:198-304 `BlockMapInit<3>::setup_sparse`. -/
def setupSparse3 (B : Nat) (xSize ySize zSize : Int) (temp : Int → Int → Int → F) (cutoff : F)
    (allActive : Bool) : Outcome (BlockMap Coord3) :=
  if zSize.tmod B ≠ 0 ∨ ySize.tmod B ≠ 0 ∨ xSize.tmod B ≠ 0 then .throws
  else do
    let nx := xSize.tdiv B
    let ny := ySize.tdiv B
    let nz := zSize.tdiv B
    let d : Coord3 := { x := nx, y := ny, z := nz }
    let p ← mulI32 nz ny
    let _ ← mulI32 p nx
    let order := sortCodes (tileCodes3 d)
    let act : Coord3 → Bool := fun c => allActive || scanTile3 B temp cutoff c
    let (e, g) ← assignTiles (inDims3 d) decodeMorton3 act order Entries.init 0
    let active := if allActive then order else order.filter (fun m => act (decodeMorton3 m))
    if g * (B * B * B) > i32Max then .throws
    else
      .ok { dims := d, numActive := g, bboxMax := { x := xSize, y := ySize, z := zSize },
            lookup := e, mortonOrder := order, activeTiles := active }

end Sparse

/-- source/BlockMap.cpp:411-420 (tail of `setup_block_map_sparse_atmos`): a parallel loop doing
`map.lookup(decode(active[i])) = i`. `sched` lists the iterations `(active[i], i)` in the order in
which the threads happen to perform their write. -/
def writeTiles {C : Type} [DecidableEq C] (inb : C → Bool) (dec : BitVec 32 → C) :
    List (BitVec 32 × Nat) → Entries C → Outcome (Entries C)
  | [], e => .ok e
  | (m, i) :: ms, e => do
    let e' ← e.write inb (dec m) i
    writeTiles inb dec ms e'

/-- source/BlockMap.cpp:327-423 `setup_block_map_sparse_atmos<2>`. `numActive` is the file's
`num_active_tiles` dimension, `numCells` the extent of the temperature field, `tiles` the
`morton_tiles` variable, `sched` the order of the parallel writes. -/
def setupFromFile2 (B : Nat) (numX numZ : Int) (numActive numCells : Int)
    (tiles : List (BitVec 32)) (sched : List (BitVec 32 × Nat)) : Outcome (BlockMap Coord2) :=
  if numX.tmod B ≠ 0 ∨ numZ.tmod B ≠ 0 then .throws
  else do
    let d : Coord2 := { x := numX.tdiv B, z := numZ.tdiv B }
    let expect ← mulI32 numActive (B * B)
    if expect ≠ numCells then .throws
    else do
      let e ← writeTiles (inDims2 d) decodeMorton2 sched Entries.init
      .ok { dims := d, numActive := numActive, bboxMax := { x := numX, z := numZ }, lookup := e,
            mortonOrder := sortCodes (tileCodes2 d), activeTiles := tiles }

/-- source/BlockMap.cpp:327-423 `setup_block_map_sparse_atmos<3>`. -/
def setupFromFile3 (B : Nat) (numX numY numZ : Int) (numActive numCells : Int)
    (tiles : List (BitVec 32)) (sched : List (BitVec 32 × Nat)) : Outcome (BlockMap Coord3) :=
  if numX.tmod B ≠ 0 ∨ numZ.tmod B ≠ 0 ∨ numY.tmod B ≠ 0 then .throws
  else do
    let d : Coord3 := { x := numX.tdiv B, y := numY.tdiv B, z := numZ.tdiv B }
    let expect ← mulI32 numActive (B * B * B)
    if expect ≠ numCells then .throws
    else do
      let e ← writeTiles (inDims3 d) decodeMorton3 sched Entries.init
      .ok { dims := d, numActive := numActive, bboxMax := { x := numX, y := numY, z := numZ },
            lookup := e, mortonOrder := sortCodes (tileCodes3 d), activeTiles := tiles }

end DexRT
