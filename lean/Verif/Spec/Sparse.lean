import Verif.Model.IndexGen
import Verif.Spec.Grid
/-!
Vocabulary of C36: cells of the grid, their storage addresses, rehydrated fields.
-/
namespace DexRT

/-- The cell is inside a grid of `nx` by `nz` tiles. -/
def InGrid2 (B nx nz : Nat) (c : Coord2) : Prop :=
  (0 ≤ c.x ∧ c.x < nx * B) ∧ (0 ≤ c.z ∧ c.z < nz * B)

/-- The cell is inside a grid of `nx` by `ny` by `nz` tiles. -/
def InGrid3 (B nx ny nz : Nat) (c : Coord3) : Prop :=
  (0 ≤ c.x ∧ c.x < nx * B) ∧ (0 ≤ c.y ∧ c.y < ny * B) ∧ (0 ≤ c.z ∧ c.z < nz * B)

/-- The storage address the index generator reports for a cell. -/
def Addr2 (B : Nat) (bm : BlockMap Coord2) (c : Coord2) (a : Int) : Prop :=
  ∃ s', (geo2 B).idx bm (geo2 B).fresh c = .ok (a, s')

/-- 3D version of `Addr2`. -/
def Addr3 (B : Nat) (bm : BlockMap Coord3) (c : Coord3) (a : Int) : Prop :=
  ∃ s', (geo3 B).idx bm (geo3 B).fresh c = .ok (a, s')

/-- What a rehydrated field must be: the stored value where there is data, zero in the holes. -/
structure Rehydrated {C V : Type} [Zero V] (InGrid HasData : C → Prop) (Addr : C → Int → Prop)
    (stored : Int → V) (dense : C → V) : Prop where
  data : ∀ c, HasData c → ∀ a, Addr c a → dense c = stored a
  hole : ∀ c, InGrid c → ¬ HasData c → dense c = 0

end DexRT
