import Verif.Model.PopsField
/-! Vocabulary for C83: rows of an atom and their contents. -/
namespace DexRT.PopsField
open DexRT DexRT.Lte DexRT.Atomic

/-- Population of level `i` of atom `ia` in cell `ks`: the rows of the atoms follow each other. -/
def popOf (atoms : List FieldAtom) (p : Pops) (ia i ks : Nat) : ℝ :=
  p.mem (((((atoms.take ia).map fun a => a.n + 1).sum) + i) * p.cols + ks)

/-- The array has a row for every level of every atom. -/
def HasRows (atoms : List FieldAtom) (p : Pops) : Prop := p.rows = (atoms.map fun a => a.n + 1).sum

/-- All threads: every atom and every cell once. -/
def threads (atoms : List FieldAtom) (cells : Nat) : List (Nat × Nat) :=
  (List.range atoms.length).flatMap fun ia => (List.range cells).map fun ks => (ia, ks)

end DexRT.PopsField
