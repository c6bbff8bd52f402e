import Verif.Model.IndexGen
/-!
Model of the mip-level side of the block map: `MultiLevelLookup`, `MultiResBlockMap` and
`MultiLevelIndexGen` (source/BlockMap.hpp:231-444, 703-1015).
-/
namespace DexRT

/-! ### Packed per-tile entries -/

/-- source/BlockMap.hpp:233 `packed_entries_per_u64`. `E` is `entry_size` (bits per entry). -/
def perWord (E : Nat) : Nat := 64 / E

/-- source/BlockMap.hpp:234 `lowest_entry_mask = (1 << entry_size) - 1`. -/
def entryMask (E : Nat) : BitVec 64 := BitVec.ofNat 64 (2 ^ E - 1)

/-- source/BlockMap.hpp:231-242 `MultiLevelLookup`: tile counts (halved in 2D by hyper-blocking) and
the packed words. -/
structure MLLookup (C : Type) where
  dims : C
  words : List (BitVec 64)

/-- source/BlockMap.hpp:243-258 `init` (2D, `HYPERBLOCK2x2 = true`, Config.hpp). Freshly allocated
words are 0 here; the code leaves them uninitialised until `pack_entries`.
Signed remainder: `-1 % 2 == -1`, so only positive odd counts are rejected. -/
def MLLookup.init2 (E : Nat) (tiles : Coord2) : Outcome (MLLookup Coord2) :=
  if tiles.z.tmod 2 = 1 ∨ tiles.x.tmod 2 = 1 then .throws
  else do
    let n ← mulI32 tiles.x tiles.z
    let words := (n + perWord E - 1).tdiv (perWord E)
    .ok { dims := { x := tiles.x.tdiv 2, z := tiles.z.tdiv 2 }, words := List.replicate words.toNat 0 }

/-- source/BlockMap.hpp:260-268 `init` (3D). -/
def MLLookup.init3 (E : Nat) (tiles : Coord3) : Outcome (MLLookup Coord3) := do
  let p ← mulI32 tiles.x tiles.y
  let n ← mulI32 p tiles.z
  let words := (n + perWord E - 1).tdiv (perWord E)
  .ok { dims := tiles, words := List.replicate words.toNat 0 }

/-- source/BlockMap.hpp:271-282 `flat_tile_index` (2D, hyper-blocked). `c & 1` is the Euclidean
remainder mod 2 in two's complement. -/
def MLLookup.flat2 (lk : MLLookup Coord2) (c : Coord2) : Int :=
  let hyper := (c.z >>> (1 : Nat)) * lk.dims.x + (c.x >>> (1 : Nat))
  hyper * 4 + (c.z % 2) * 2 + (c.x % 2)

/-- source/BlockMap.hpp:285-290 `flat_tile_index` (3D). -/
def MLLookup.flat3 (lk : MLLookup Coord3) (c : Coord3) : Int :=
  c.z * (lk.dims.x * lk.dims.y) + c.y * lk.dims.x + c.x

/-- source/BlockMap.hpp:293-302 `get`, after the flat index: read word `flat / P`, take entry
`flat % P`. Out of bounds is UB. -/
def MLLookup.get {C : Type} (E : Nat) (lk : MLLookup C) (flat : Int) : Outcome Nat :=
  let block := flat.tdiv (perWord E)
  let entry := flat.tmod (perWord E)
  if block < 0 ∨ entry < 0 then .ub
  else match lk.words[block.toNat]? with
    | none => .ub
    | some w => .ok (((w >>> (E * entry.toNat)) &&& entryMask E).toNat % 256)

/-- source/BlockMap.hpp:328-337: one packed word. `vals` is the array of single entries (`i32`,
converted to u64). -/
def packWord (E : Nat) (vals : List Int) (block : Nat) : BitVec 64 :=
  let maxEntry := min (vals.length - block * perWord E) (perWord E)
  (List.range maxEntry).foldl
    (fun w e => w ||| ((BitVec.ofInt 64 (vals.getD (block * perWord E + e) 0) &&& entryMask E) <<< (e * E))) 0

/-- source/BlockMap.hpp:321-342 `pack_entries`: every word is rebuilt (iterations are independent). -/
def MLLookup.pack {C : Type} (E : Nat) (lk : MLLookup C) (vals : List Int) : MLLookup C :=
  { lk with words := (List.range lk.words.length).map (packWord E vals) }

/-! ### Mip offsets -/

/-- source/BlockMap.hpp:193-197 `buffer_len(mip_px_size)`; `D` is the dimension.
`int_pow` is in `int`; block sizes are small constants so it does not overflow. -/
def bufferLen (B D : Nat) (numActive : Int) (px : Nat) : Int := numActive * ((B ^ D / px ^ D : Nat) : Int)

/-- source/BlockMap.hpp:430-437: the loop filling `mip_offsets`; `i` levels still to do from `lvl`. -/
def fillOffsets (B D : Nat) (numActive : Int) : Nat → Nat → Int → (Nat → Int) → (Nat → Int)
  | 0, _, _, off => off
  | n + 1, lvl, acc, off =>
    fillOffsets B D numActive n (lvl + 1) (acc + bufferLen B D numActive (2 ^ lvl))
      (fun j => if j = lvl then acc else off j)

/-- source/BlockMap.hpp:406-438 `MultiResBlockMap::init`, offsets part: throws when more levels are
asked for than an entry can store. The packed lookup's own `init` is modelled separately. -/
def mipOffsets (E B D : Nat) (numActive : Int) (maxMip : Nat) : Outcome (Nat → Int) :=
  if maxMip + 1 > 2 ^ E - 1 then .throws
  else .ok (fillOffsets B D numActive (maxMip + 1) 0 0 (fun _ => 0))

/-- source/BlockMap.hpp:440-442 `buffer_len()` of the multi-resolution map. -/
def mipBufferLen (B D : Nat) (numActive : Int) (off : Nat → Int) (maxMip : Nat) : Int :=
  off maxMip + bufferLen B D numActive (2 ^ maxMip)

/-- source/BlockMap.hpp:738-741 `compute_base_idx`. -/
def mipBase (B D : Nat) (off : Nat → Int) (mip : Nat) (tile : Int) : Int :=
  off mip + tile * (((B >>> mip) ^ D : Nat) : Int)

/-- source/BlockMap.hpp:987-990 `loop_idx`. -/
def mipLoopIdx (B D : Nat) (off : Nat → Int) (mip : Nat) (tile block : Int) : Int :=
  mipBase B D off mip tile + block

/-- source/BlockMap.hpp:782-796 `compute_inner_offset` (2D). -/
def mipInner2 (B mip : Nat) (c : Coord2) : Int :=
  (c.z >>> mip) * ((B >>> mip : Nat) : Int) + (c.x >>> mip)

/-- source/BlockMap.hpp:798-808 `compute_inner_offset` (3D). -/
def mipInner3 (B mip : Nat) (c : Coord3) : Int :=
  ((c.z >>> mip) * ((B >>> mip : Nat) : Int) + (c.y >>> mip)) * ((B >>> mip : Nat) : Int) + (c.x >>> mip)

/-- source/BlockMap.hpp:743-761 `compute_tile_inner_offset` (2D). -/
def mipTileInner2 (B mip : Nat) (off : Int) : Coord2 :=
  let z := off.tdiv ((B >>> mip : Nat) : Int)
  let x := off - ((B >>> mip : Nat) : Int) * z
  { x := x * 2 ^ mip, z := z * 2 ^ mip }

/-- source/BlockMap.hpp:763-780 `compute_tile_inner_offset` (3D). -/
def mipTileInner3 (B mip : Nat) (off : Int) : Coord3 :=
  let b : Int := ((B >>> mip : Nat) : Int)
  let z := off.tdiv (b * b)
  let lower := z * (b * b)
  let y := (off - lower).tdiv b
  let lower := lower + y * b
  { x := (off - lower) * 2 ^ mip, y := y * 2 ^ mip, z := z * 2 ^ mip }

/-- source/BlockMap.hpp:992-1002 `loop_coord` (2D). -/
def mipLoopCoord2 (B : Nat) (bm : BlockMap Coord2) (mip tileIdx : Nat) (blockIdx : Int) : Outcome Coord2 :=
  match bm.activeTiles[tileIdx]? with
  | none => .ub
  | some m =>
    let t := decodeMorton2 m
    let o := mipTileInner2 B mip blockIdx
    .ok { x := t.x * B + o.x, z := t.z * B + o.z }

/-- source/BlockMap.hpp:1004-1014 `loop_coord` (3D). -/
def mipLoopCoord3 (B : Nat) (bm : BlockMap Coord3) (mip tileIdx : Nat) (blockIdx : Int) : Outcome Coord3 :=
  match bm.activeTiles[tileIdx]? with
  | none => .ub
  | some m =>
    let t := decodeMorton3 m
    let o := mipTileInner3 B mip blockIdx
    .ok { x := t.x * B + o.x, y := t.y * B + o.y, z := t.z * B + o.z }

/-! ### The caching multi-level generator -/

/-- What the multi-level cache logic needs beyond `Geo`. -/
structure MGeo (C : Type) extends Geo C where
  /-- offset of a cell inside its tile at a mip level -/
  offM : Nat → C → Int
  /-- dimension, for `int_pow` -/
  D : Nat
  B : Nat

/-- source/BlockMap.hpp:810-851, 897-938 (2D). -/
def mgeo2 (B : Nat) : MGeo Coord2 where
  toGeo := geo2 B
  offM := fun mip c => mipInner2 B mip (innerOf2 B c)
  D := 2
  B := B

/-- source/BlockMap.hpp:853-895, 940-985 (3D). -/
def mgeo3 (B : Nat) : MGeo Coord3 where
  toGeo := geo3 B
  offM := fun mip c => mipInner3 B mip (innerOf3 B c)
  D := 3
  B := B

/-- Read-only data of the generator: the block map, the mip offsets (valid for levels `< maxStore`,
the size of the `mip_offsets` array) and the packed level lookup `get`. -/
structure MRMap (C : Type) where
  bm : BlockMap C
  off : Nat → Int
  maxStore : Nat
  get : C → Outcome Nat

/-- source/BlockMap.hpp:719-721: cache key (level, tile) and base address. -/
structure MIdxState (C : Type) where
  mip : Int
  key : C
  base : Int
deriving DecidableEq, Repr

variable {C : Type} [DecidableEq C]

/-- source/BlockMap.hpp:727-735 constructor. -/
def MGeo.fresh (G : MGeo C) : MIdxState C := { mip := -1, key := G.dflt, base := 0 }

/-- `mip_offsets(mip) + tile * int_pow(B >> mip)`, source/BlockMap.hpp:738-741; reading past the
`mip_offsets` array is UB. -/
def MGeo.baseOf (G : MGeo C) (m : MRMap C) (mip : Nat) (tile : Int) : Outcome Int :=
  if mip < m.maxStore then .ok (mipBase G.B G.D m.off mip tile) else .ub

/-- source/BlockMap.hpp:810-895 `idx(mip, coord)`. Levels are natural numbers: no caller passes a
negative level (a negative shift would be UB). -/
def MGeo.idx (G : MGeo C) (m : MRMap C) (s : MIdxState C) (mip : Nat) (c : C) :
    Outcome (Int × MIdxState C) :=
  let t := G.tileOf c
  if s.mip = mip ∧ s.key = t then .ok (s.base + G.offM mip c, s)
  else do
    let tileIdx ← G.read m.bm t
    if tileIdx ≥ 0 then
      let base ← G.baseOf m mip tileIdx
      .ok (base + G.offM mip c, { mip := mip, key := t, base := base })
    else .ok (-1, s)

/-- source/BlockMap.hpp:897-985 `get_sample_level`. -/
def MGeo.sampleLevel (G : MGeo C) (m : MRMap C) (s : MIdxState C) (c : C) : Outcome (Int × MIdxState C) :=
  let t := G.tileOf c
  if t = s.key then .ok (s.mip, s)
  else if G.outside m.bm.bboxMax c then .ok (-1, s)
  else do
    let e ← m.get t
    if (e : Int) - 1 ≠ -1 then
      let tileIdx ← G.read m.bm t
      let base ← G.baseOf m (e - 1) tileIdx
      .ok ((e : Int) - 1, { mip := (e : Int) - 1, key := t, base := base })
    else .ok (-1, s)

/-- A call on the multi-level generator. -/
inductive MQuery (C : Type) where
  | idx (mip : Nat) (c : C)
  | level (c : C)

/-- One call, keeping only the state. -/
def MGeo.step (G : MGeo C) (m : MRMap C) (s : MIdxState C) : MQuery C → Outcome (MIdxState C)
  | .idx mip c => do let (_, s') ← G.idx m s mip c; .ok s'
  | .level c => do let (_, s') ← G.sampleLevel m s c; .ok s'

/-- A sequence of calls. -/
def MGeo.run (G : MGeo C) (m : MRMap C) : MIdxState C → List (MQuery C) → Outcome (MIdxState C)
  | s, [] => .ok s
  | s, q :: qs => do let s' ← G.step m s q; G.run m s' qs

end DexRT
