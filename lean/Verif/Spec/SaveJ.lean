import Verif.Model.SaveJ
import Verif.Spec.Sparse
/-!
Specification of the J variable of the output file.
-/
namespace DexRT

variable {V : Type} [Zero V]

/-- J in memory after the last formal solution (C62): for every wavelength and every cell solved, the value
`I la c` at the cell's address, which is the sparse address of a sparse solution and `z * nx + x` of a
dense one. -/
def HoldsJ2 (B nx nz : Nat) (Active : Coord2 → Prop) (bm : BlockMap Coord2) (sparse : Bool)
    (I : Nat → Coord2 → V) (q : Pages V) : Prop :=
  q.cells = allocCells2 B bm sparse ∧
  if sparse then ∀ la c a, HasData2 B nx nz Active c → Addr2 B bm c a → q.val la a = I la c
  else ∀ la c, InGrid2 B nx nz c → q.val la (c.z * (nx * B) + c.x) = I la c

/-- 3D version of `HoldsJ2`. -/
def HoldsJ3 (B nx ny nz : Nat) (Active : Coord3 → Prop) (bm : BlockMap Coord3) (sparse : Bool)
    (I : Nat → Coord3 → V) (q : Pages V) : Prop :=
  q.cells = allocCells3 B bm sparse ∧
  if sparse then ∀ la c a, HasData3 B nx ny nz Active c → Addr3 B bm c a → q.val la a = I la c
  else ∀ la c, InGrid3 B nx ny nz c → q.val la ((c.z * (ny * B) + c.y) * (nx * B) + c.x) = I la c

/-- What a reader of the file expects. On the grid: the value of every solved cell at its coordinates and
zero elsewhere. In sparse form: the value of every cell with data at its sparse address. -/
def Shows {C : Type} (InGrid Solved HasData : C → Prop) (Addr : C → Int → Prop) (I : Nat → C → V) (pages : Nat) :
    JFile C V → Prop
  | .grid g => ∀ la, la < pages → ∀ c, (Solved c → g (la, c) = I la c) ∧
      (InGrid c → ¬ Solved c → g (la, c) = 0)
  | .ks q => ∀ la, la < pages → ∀ c a, HasData c → Addr c a → q.val la a = I la c

end DexRT
