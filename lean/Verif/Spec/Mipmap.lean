import Verif.Model.Mipmap
import Verif.Spec.Grid
import Mathlib.Algebra.BigOperators.Group.Finset.Defs
/-! Specification side of C34: what it means for a field to be stored at a level, and block means. -/
namespace DexRT

/-- A set-up multi-resolution map (2D): a good block map, accepted level offsets, no more levels than the
offset array holds or than the tile can be halved. -/
structure MipMap2 (E k nx nz : Nat) (Active : Coord2 → Prop) (mr : MRMap Coord2) (maxMip : Nat) : Prop where
  map : MapFor2 (2 ^ k) nx nz Active mr.bm
  sizeX : (nx : Int) * (2 ^ k : Nat) ≤ i32Max
  sizeZ : (nz : Int) * (2 ^ k : Nat) ≤ i32Max
  offs : mipOffsets E (2 ^ k) 2 mr.bm.numActive maxMip = .ok mr.off
  store : maxMip < mr.maxStore
  levels : maxMip ≤ k

/-- 3D version of `MipMap2`. -/
structure MipMap3 (E k nx ny nz : Nat) (Active : Coord3 → Prop) (mr : MRMap Coord3) (maxMip : Nat) : Prop where
  map : MapFor3 (2 ^ k) nx ny nz Active mr.bm
  sizeX : (nx : Int) * (2 ^ k : Nat) ≤ i32Max
  sizeY : (ny : Int) * (2 ^ k : Nat) ≤ i32Max
  sizeZ : (nz : Int) * (2 ^ k : Nat) ≤ i32Max
  offs : mipOffsets E (2 ^ k) 3 mr.bm.numActive maxMip = .ok mr.off
  store : maxMip < mr.maxStore
  levels : maxMip ≤ k

variable {F : Type} [Field F]

/-- Looking cell `c` up at level `l` with a new index generator finds `field c`, for every data cell. -/
def StoredAt2 (B nx nz : Nat) (Active : Coord2 → Prop) (mr : MRMap Coord2) (l : Nat) (m : Int → F)
    (field : Coord2 → F) : Prop :=
  ∀ c, HasData2 B nx nz Active c → ∃ a s, (mgeo2 B).idx mr (mgeo2 B).fresh l c = .ok (a, s) ∧ m a = field c

/-- 3D version of `StoredAt2`. -/
def StoredAt3 (B nx ny nz : Nat) (Active : Coord3 → Prop) (mr : MRMap Coord3) (l : Nat) (m : Int → F)
    (field : Coord3 → F) : Prop :=
  ∀ c, HasData3 B nx ny nz Active c → ∃ a s, (mgeo3 B).idx mr (mgeo3 B).fresh l c = .ok (a, s) ∧ m a = field c

/-- Sum of `field` over the aligned block of side `2 ^ l` containing `c`. -/
def blockSum2 (field : Coord2 → F) (l : Nat) (c : Coord2) : F :=
  ∑ a ∈ Finset.range (2 ^ l), ∑ b ∈ Finset.range (2 ^ l),
    field { x := c.x - c.x % (2 ^ l : Nat) + b, z := c.z - c.z % (2 ^ l : Nat) + a }

/-- Mean of `field` over the aligned block of side `2 ^ l` containing `c`. -/
def blockMean2 (field : Coord2 → F) (l : Nat) (c : Coord2) : F := blockSum2 field l c / (2 ^ l * 2 ^ l)

/-- 3D block sum. -/
def blockSum3 (field : Coord3 → F) (l : Nat) (c : Coord3) : F :=
  ∑ a ∈ Finset.range (2 ^ l), ∑ b ∈ Finset.range (2 ^ l), ∑ d ∈ Finset.range (2 ^ l),
    field { x := c.x - c.x % (2 ^ l : Nat) + d, y := c.y - c.y % (2 ^ l : Nat) + b,
            z := c.z - c.z % (2 ^ l : Nat) + a }

/-- 3D block mean. -/
def blockMean3 (field : Coord3 → F) (l : Nat) (c : Coord3) : F :=
  blockSum3 field l c / (2 ^ l * 2 ^ l * 2 ^ l)

/-- Total of `field` over the cells of tile `t` of side `B`. -/
def tileTotal2 (B : Nat) (field : Coord2 → F) (t : Coord2) : F :=
  ∑ a ∈ Finset.range B, ∑ b ∈ Finset.range B, field { x := t.x * B + b, z := t.z * B + a }

/-- 3D tile total. -/
def tileTotal3 (B : Nat) (field : Coord3 → F) (t : Coord3) : F :=
  ∑ a ∈ Finset.range B, ∑ b ∈ Finset.range B, ∑ d ∈ Finset.range B,
    field { x := t.x * B + d, y := t.y * B + b, z := t.z * B + a }

end DexRT
