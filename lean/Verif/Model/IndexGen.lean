import Verif.Model.BlockMap
/-!
Model of `IndexGen` and `MultiLevelIndexGen` (source/BlockMap.hpp:446-1015), the grid-coordinate to
storage-address translators with a one-tile cache. Release build (`DEXRT_DEBUG` undefined),
`INNER_MORTON_LOOKUP = false`, `assume_lower_tile_bound_0 = true`.
-/
namespace DexRT

/-- source/BlockMap.hpp:453 `L2_BLOCK_SIZE = bit_width(BLOCK_SIZE) - 1`. -/
def l2 (B : Nat) : Nat := Nat.log2 B

/-- source/BlockMap.hpp:532-533: tile of a cell, by arithmetic right shift. -/
def tileOf2 (B : Nat) (c : Coord2) : Coord2 := { x := c.x >>> l2 B, z := c.z >>> l2 B }

/-- source/BlockMap.hpp:564-566. -/
def tileOf3 (B : Nat) (c : Coord3) : Coord3 :=
  { x := c.x >>> l2 B, y := c.y >>> l2 B, z := c.z >>> l2 B }

/-- source/BlockMap.hpp:534-535: coordinates within the tile. -/
def innerOf2 (B : Nat) (c : Coord2) : Coord2 :=
  { x := c.x - (tileOf2 B c).x * B, z := c.z - (tileOf2 B c).z * B }

/-- source/BlockMap.hpp:567-569. -/
def innerOf3 (B : Nat) (c : Coord3) : Coord3 :=
  { x := c.x - (tileOf3 B c).x * B, y := c.y - (tileOf3 B c).y * B, z := c.z - (tileOf3 B c).z * B }

/-- source/BlockMap.hpp:513-521 `compute_inner_offset` (2D). -/
def innerOffset2 (B : Nat) (c : Coord2) : Int := c.z * B + c.x

/-- source/BlockMap.hpp:523-527 `compute_inner_offset` (3D). -/
def innerOffset3 (B : Nat) (c : Coord3) : Int := (c.z * B + c.y) * B + c.x

/-- source/BlockMap.hpp:484-495 `compute_tile_inner_offset` (2D). `/` on non-negative i32. -/
def tileInnerOffset2 (B : Nat) (off : Int) : Coord2 :=
  let z := off.tdiv B
  { x := off - B * z, z := z }

/-- source/BlockMap.hpp:497-510 `compute_tile_inner_offset` (3D). -/
def tileInnerOffset3 (B : Nat) (off : Int) : Coord3 :=
  let z := off.tdiv (B * B)
  let lower := z * (B * B)
  let y := (off - lower).tdiv B
  let lower := lower + y * B
  { x := off - lower, y := y, z := z }

/-- What the cache logic needs to know about the dimension. -/
structure Geo (C : Type) where
  /-- the default-constructed coordinate, source/Types.hpp:65-84 -/
  dflt : C
  tileOf : C → C
  /-- offset of a cell inside its tile -/
  off : C → Int
  /-- `int_pow<NumDim>(BLOCK_SIZE)`, source/BlockMap.hpp:114-135 -/
  cells : Int
  /-- tile inside the lookup array -/
  inDims : C → C → Bool
  /-- the unsigned out-of-bounds test of `has_leaves` -/
  outside : C → C → Bool

/-- 2D: source/BlockMap.hpp:529-559, 596-615. -/
def geo2 (B : Nat) : Geo Coord2 where
  dflt := {}
  tileOf := tileOf2 B
  off := fun c => innerOffset2 B (innerOf2 B c)
  cells := B * B
  inDims := inDims2
  outside := fun mx c => decide (u32 c.x ≥ u32 mx.x ∨ u32 c.z ≥ u32 mx.z)

/-- 3D: source/BlockMap.hpp:561-593, 633-655. -/
def geo3 (B : Nat) : Geo Coord3 where
  dflt := {}
  tileOf := tileOf3 B
  off := fun c => innerOffset3 B (innerOf3 B c)
  cells := B * B * B
  inDims := inDims3
  outside := fun mx c => decide (u32 c.x ≥ u32 mx.x ∨ u32 c.y ≥ u32 mx.y ∨ u32 c.z ≥ u32 mx.z)

/-- Mutable members of `IndexGen` (source/BlockMap.hpp:449-450). -/
structure IdxState (C : Type) where
  key : C
  base : Int
deriving DecidableEq, Repr

variable {C : Type} [DecidableEq C]

/-- source/BlockMap.hpp:455-460: constructor; `tile_base_idx()` is value-initialised to 0. -/
def Geo.fresh (G : Geo C) : IdxState C := { key := G.dflt, base := 0 }

/-- `block_map.lookup(tile)`, out of bounds is UB. -/
def Geo.read (G : Geo C) (bm : BlockMap C) (t : C) : Outcome Int :=
  if G.inDims bm.dims t then .ok (bm.lookup t) else .ub

/-- source/BlockMap.hpp:529-593 `idx`. -/
def Geo.idx (G : Geo C) (bm : BlockMap C) (s : IdxState C) (c : C) : Outcome (Int × IdxState C) :=
  let t := G.tileOf c
  if s.key = t then .ok (s.base + G.off c, s)
  else do
    let tileIdx ← G.read bm t
    if tileIdx ≥ 0 then
      let base := tileIdx * G.cells
      .ok (base + G.off c, { key := t, base := base })
    else .ok (-1, s)

/-- source/BlockMap.hpp:596-673 `has_leaves`. -/
def Geo.hasLeaves (G : Geo C) (bm : BlockMap C) (s : IdxState C) (c : C) : Outcome (Bool × IdxState C) :=
  let t := G.tileOf c
  if s.key = t then .ok (true, s)
  else if G.outside bm.bboxMax c then .ok (false, s)
  else do
    let tileIdx ← G.read bm t
    if tileIdx ≠ -1 then .ok (true, { key := t, base := tileIdx * G.cells })
    else .ok (false, s)

/-- A call on the generator. -/
inductive Query (C : Type) where
  | idx (c : C)
  | hasLeaves (c : C)

/-- Its answer. -/
inductive Answer where
  | addr (a : Int)
  | leaf (b : Bool)
deriving DecidableEq, Repr

/-- One call. -/
def Geo.ask (G : Geo C) (bm : BlockMap C) (s : IdxState C) : Query C → Outcome (Answer × IdxState C)
  | .idx c => do let (a, s') ← G.idx bm s c; .ok (.addr a, s')
  | .hasLeaves c => do let (b, s') ← G.hasLeaves bm s c; .ok (.leaf b, s')

/-- A sequence of calls on one generator; UB ends everything. -/
def Geo.run (G : Geo C) (bm : BlockMap C) : IdxState C → List (Query C) → Outcome (IdxState C)
  | s, [] => .ok s
  | s, q :: qs => do let (_, s') ← G.ask bm s q; G.run bm s' qs

/-- source/BlockMap.hpp:675-678 `loop_idx`. -/
def Geo.loopIdx (G : Geo C) (tileIdx blockIdx : Int) : Int := tileIdx * G.cells + blockIdx

/-- source/BlockMap.hpp:470-473 `compute_tile_coord`, 680-689 `loop_coord` (2D). -/
def loopCoord2 (B : Nat) (bm : BlockMap Coord2) (tileIdx : Nat) (blockIdx : Int) : Outcome Coord2 :=
  match bm.activeTiles[tileIdx]? with
  | none => .ub
  | some m =>
    let t := decodeMorton2 m
    let o := tileInnerOffset2 B blockIdx
    .ok { x := t.x * B + o.x, z := t.z * B + o.z }

/-- source/BlockMap.hpp:691-701 `loop_coord` (3D). -/
def loopCoord3 (B : Nat) (bm : BlockMap Coord3) (tileIdx : Nat) (blockIdx : Int) : Outcome Coord3 :=
  match bm.activeTiles[tileIdx]? with
  | none => .ub
  | some m =>
    let t := decodeMorton3 m
    let o := tileInnerOffset3 B blockIdx
    .ok { x := t.x * B + o.x, y := t.y * B + o.y, z := t.z * B + o.z }

end DexRT
