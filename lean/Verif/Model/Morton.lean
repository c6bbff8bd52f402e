import Verif.Model.Basic
/-!
Model of source/MortonCodes.hpp. `uint32_t` is `BitVec 32`.
-/
namespace DexRT

/-- source/MortonCodes.hpp:8-16 `part_1_by_1`. -/
def part1By1 (x : BitVec 32) : BitVec 32 :=
  let x := x &&& 0x0000ffff#32
  let x := (x ^^^ (x <<< 8)) &&& 0x00ff00ff#32
  let x := (x ^^^ (x <<< 4)) &&& 0x0f0f0f0f#32
  let x := (x ^^^ (x <<< 2)) &&& 0x33333333#32
  let x := (x ^^^ (x <<< 1)) &&& 0x55555555#32
  x

/-- source/MortonCodes.hpp:19-27 `part_1_by_2`. -/
def part1By2 (x : BitVec 32) : BitVec 32 :=
  let x := x &&& 0x000003ff#32
  let x := (x ^^^ (x <<< 16)) &&& 0xff0000ff#32
  let x := (x ^^^ (x <<< 8)) &&& 0x0300f00f#32
  let x := (x ^^^ (x <<< 4)) &&& 0x030c30c3#32
  let x := (x ^^^ (x <<< 2)) &&& 0x09249249#32
  x

/-- source/MortonCodes.hpp:30-38 `compact_1_by_1`. -/
def compact1By1 (x : BitVec 32) : BitVec 32 :=
  let x := x &&& 0x55555555#32
  let x := (x ^^^ (x >>> 1)) &&& 0x33333333#32
  let x := (x ^^^ (x >>> 2)) &&& 0x0f0f0f0f#32
  let x := (x ^^^ (x >>> 4)) &&& 0x00ff00ff#32
  let x := (x ^^^ (x >>> 8)) &&& 0x0000ffff#32
  x

/-- source/MortonCodes.hpp:41-49 `compact_1_by_2`. -/
def compact1By2 (x : BitVec 32) : BitVec 32 :=
  let x := x &&& 0x09249249#32
  let x := (x ^^^ (x >>> 2)) &&& 0x030c30c3#32
  let x := (x ^^^ (x >>> 4)) &&& 0x0300f00f#32
  let x := (x ^^^ (x >>> 8)) &&& 0xff0000ff#32
  let x := (x ^^^ (x >>> 16)) &&& 0x000003ff#32
  x

/-- `uint32_t(i32)` conversion: two's complement. -/
def toU32 (i : Int) : BitVec 32 := BitVec.ofInt 32 i

/-- source/MortonCodes.hpp:54-57 `encode_morton<2>`. -/
def encodeMorton2 (c : Coord2) : BitVec 32 :=
  (part1By1 (toU32 c.z) <<< 1) + part1By1 (toU32 c.x)

/-- source/MortonCodes.hpp:59-66 `encode_morton<3>`. -/
def encodeMorton3 (c : Coord3) : BitVec 32 :=
  (part1By2 (toU32 c.z) <<< 2) + (part1By2 (toU32 c.y) <<< 1) + part1By2 (toU32 c.x)

/-- source/MortonCodes.hpp:71-77 `decode_morton<2>`; `i32(uint32_t)` is `toInt`. -/
def decodeMorton2 (code : BitVec 32) : Coord2 where
  x := (compact1By1 code).toInt
  z := (compact1By1 (code >>> 1)).toInt

/-- source/MortonCodes.hpp:79-86 `decode_morton<3>`. -/
def decodeMorton3 (code : BitVec 32) : Coord3 where
  x := (compact1By2 code).toInt
  y := (compact1By2 (code >>> 1)).toInt
  z := (compact1By2 (code >>> 2)).toInt

/-- source/MortonCodes.hpp:92-95 `MaxMortonValue<2>::value` (never consulted by the code). -/
def maxMorton2 : Int := 2 ^ 16 - 1

/-- source/MortonCodes.hpp:97-100 `MaxMortonValue<3>::value` (never consulted by the code). -/
def maxMorton3 : Int := 2 ^ 10 - 1

end DexRT
