import Verif.Model.BlockMap
/-!
Specification of tile numberings and grids, independent of how maps are built.
-/
namespace DexRT


/-- Specification of a tile numbering: `Grid` are the tiles of the grid, `Active` those with data.
The map gives active tiles the numbers 0..n-1, one each, inactive tiles -1, and the i-th entry of the
active list is the code of the tile numbered i. -/
structure TileNumbering {C : Type} (dec : BitVec 32 → C) (Grid Active : C → Prop) (bm : BlockMap C) :
    Prop where
  count : (bm.activeTiles.length : Int) = bm.numActive
  active : ∀ c, Grid c → Active c → 0 ≤ bm.lookup c ∧ bm.lookup c < bm.numActive
  inactive : ∀ c, Grid c → ¬ Active c → bm.lookup c = -1
  injective : ∀ c c', Grid c → Grid c' → Active c → Active c' → bm.lookup c = bm.lookup c' → c = c'
  listed : ∀ i (h : i < bm.activeTiles.length),
    Grid (dec bm.activeTiles[i]) ∧ Active (dec bm.activeTiles[i]) ∧
      bm.lookup (dec bm.activeTiles[i]) = i

/-- The tiles of a `xSize` by `zSize` grid cut into `B` by `B` tiles. -/
def GridTile2 (B : Nat) (xSize zSize : Int) (c : Coord2) : Prop :=
  0 ≤ c.x ∧ c.x * B < xSize ∧ 0 ≤ c.z ∧ c.z * B < zSize

/-- The tiles of a 3D grid cut into cubes of side `B`. -/
def GridTile3 (B : Nat) (xSize ySize zSize : Int) (c : Coord3) : Prop :=
  0 ≤ c.x ∧ c.x * B < xSize ∧ 0 ≤ c.y ∧ c.y * B < ySize ∧ 0 ≤ c.z ∧ c.z * B < zSize

/-- A tile has a cell at or below the cutoff. -/
def HasColdCell2 {F : Type} [LE F] (B : Nat) (temp : Int → Int → F) (cutoff : F) (c : Coord2) : Prop :=
  ∃ z x, c.z * B ≤ z ∧ z < (c.z + 1) * B ∧ c.x * B ≤ x ∧ x < (c.x + 1) * B ∧ temp z x ≤ cutoff

/-- A 3D tile has a cell at or below the cutoff. -/
def HasColdCell3 {F : Type} [LE F] (B : Nat) (temp : Int → Int → Int → F) (cutoff : F) (c : Coord3) :
    Prop :=
  ∃ z y x, c.z * B ≤ z ∧ z < (c.z + 1) * B ∧ c.y * B ≤ y ∧ y < (c.y + 1) * B ∧
    c.x * B ≤ x ∧ x < (c.x + 1) * B ∧ temp z y x ≤ cutoff

/-- The sizes the constructors are meant for: `nx` by `nz` whole tiles within the tile-code limit and
with at most `int32_max` cells. -/
def GoodSize2 (B : Nat) (nx nz : Nat) : Prop :=
  0 < B ∧ nx ≤ 65536 ∧ nz ≤ 65536 ∧ (nx : Int) * nz * (B * B) ≤ i32Max

def GoodSize3 (B : Nat) (nx ny nz : Nat) : Prop :=
  0 < B ∧ nx ≤ 1024 ∧ ny ≤ 1024 ∧ nz ≤ 1024 ∧ (nx : Int) * ny * nz * (B * B * B) ≤ i32Max

/-- Cell `c` lies in tile `t` (2D). -/
def InTile2 (B : Nat) (t c : Coord2) : Prop :=
  t.x * B ≤ c.x ∧ c.x < (t.x + 1) * B ∧ t.z * B ≤ c.z ∧ c.z < (t.z + 1) * B

/-- Cell `c` lies in tile `t` (3D). -/
def InTile3 (B : Nat) (t c : Coord3) : Prop :=
  t.x * B ≤ c.x ∧ c.x < (t.x + 1) * B ∧ t.y * B ≤ c.y ∧ c.y < (t.y + 1) * B ∧
    t.z * B ≤ c.z ∧ c.z < (t.z + 1) * B

/-- A map of `nx` by `nz` tiles of side `B` whose active tiles are `Active`: what C03, C04 and C41
show the constructors return. -/
structure MapFor2 (B nx nz : Nat) (Active : Coord2 → Prop) (bm : BlockMap Coord2) : Prop where
  dims : bm.dims = { x := nx, z := nz }
  bbox : bm.bboxMax = { x := nx * B, z := nz * B }
  numbering : TileNumbering decodeMorton2 (GridTile2 B (nx * B) (nz * B)) Active bm

/-- 3D version of `MapFor2`. -/
structure MapFor3 (B nx ny nz : Nat) (Active : Coord3 → Prop) (bm : BlockMap Coord3) : Prop where
  dims : bm.dims = { x := nx, y := ny, z := nz }
  bbox : bm.bboxMax = { x := nx * B, y := ny * B, z := nz * B }
  numbering : TileNumbering decodeMorton3 (GridTile3 B (nx * B) (ny * B) (nz * B)) Active bm

/-- The cell belongs to an active tile of the grid (2D). -/
def HasData2 (B nx nz : Nat) (Active : Coord2 → Prop) (c : Coord2) : Prop :=
  ∃ t, GridTile2 B (nx * B) (nz * B) t ∧ Active t ∧ InTile2 B t c

/-- The cell belongs to an active tile of the grid (3D). -/
def HasData3 (B nx ny nz : Nat) (Active : Coord3 → Prop) (c : Coord3) : Prop :=
  ∃ t, GridTile3 B (nx * B) (ny * B) (nz * B) t ∧ Active t ∧ InTile3 B t c

/-- The coordinate is an `i32` pair. -/
def IsI32Coord2 (c : Coord2) : Prop :=
  (-2147483648 ≤ c.x ∧ c.x ≤ 2147483647) ∧ (-2147483648 ≤ c.z ∧ c.z ≤ 2147483647)

/-- The coordinate is an `i32` triple. -/
def IsI32Coord3 (c : Coord3) : Prop :=
  (-2147483648 ≤ c.x ∧ c.x ≤ 2147483647) ∧ (-2147483648 ≤ c.y ∧ c.y ≤ 2147483647) ∧
  (-2147483648 ≤ c.z ∧ c.z ≤ 2147483647)

end DexRT
