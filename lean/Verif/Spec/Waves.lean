import Verif.Model.WaveDist
/-!
Specification vocabulary for C22: what it means for a list of batches to solve every wavelength once.
-/
namespace DexRT

/-- How many of the batches contain wavelength `w`. -/
def timesSolved (bs : List WaveBatch) (w : Nat) : Nat :=
  (bs.filter fun b => decide (b.laStart ≤ w ∧ w < b.laEnd)).length

/-- Every batch is a non-empty part of `[0, n)` with at most `B` wavelengths. -/
def BatchesOk (n B : Nat) (bs : List WaveBatch) : Prop :=
  ∀ b ∈ bs, b.laStart < b.laEnd ∧ b.laEnd ≤ n ∧ b.laEnd - b.laStart ≤ B

/-- Every wavelength of `[0, n)` is in exactly one batch. -/
def SolvedOnce (n : Nat) (bs : List WaveBatch) : Prop := ∀ w < n, timesSolved bs w = 1

end DexRT
