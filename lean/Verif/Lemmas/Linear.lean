import Verif.Model.Linear
import Mathlib.Tactic.FieldSimp
import Mathlib.Tactic.Ring
import Mathlib.Tactic.LinearCombination
/-! Correctness of elimination without pivoting. -/
namespace DexRT
namespace Lin
open Finset
variable {K : Type} [Field K] [DecidableEq K]

theorem luSolve_correct : ∀ {n : Nat} (A : Fin n → Fin n → K) (b x : Fin n → K), luSolve n A b = some x →
    ∀ i, ∑ j, A i j * x j = b i
  | 0, _, _, _, _ => fun i => i.elim0
  | n + 1, A, b, x, h => by
    unfold luSolve at h
    split at h
    · simp at h
    rename_i h0
    rw [Option.map_eq_some_iff] at h
    obtain ⟨y, hy, rfl⟩ := h
    have ih := luSolve_correct _ _ _ hy
    have e0 : ∑ j, A 0 j * (Fin.cons ((b 0 - ∑ j, A 0 j.succ * y j) / A 0 0) y : Fin (n + 1) → K) j = b 0 := by
      rw [Fin.sum_univ_succ]
      simp only [Fin.cons_zero, Fin.cons_succ]
      field_simp
      ring
    intro i
    refine Fin.cases e0 (fun i => ?_) i
    have := ih i
    rw [Fin.sum_univ_succ] at e0 ⊢
    simp only [Fin.cons_zero, Fin.cons_succ] at e0 ⊢
    have hs : ∑ j, (A i.succ j.succ - A i.succ 0 / A 0 0 * A 0 j.succ) * y j
        = (∑ j, A i.succ j.succ * y j) - A i.succ 0 / A 0 0 * ∑ j, A 0 j.succ * y j := by
      rw [mul_sum, ← sum_sub_distrib]
      exact sum_congr rfl fun j _ => by ring
    rw [hs] at this
    field_simp at this ⊢
    linear_combination this

/-- If elimination fails, some leading block has a non-zero vector in its kernel. -/
theorem luSolve_none : ∀ {n : Nat} (A : Fin n → Fin n → K) (b : Fin n → K), luSolve n A b = none →
    ∃ (k : Nat) (x : Fin n → K), (∃ i, x i ≠ 0) ∧ (∀ i, k ≤ i.val → x i = 0) ∧
      ∀ i, i.val < k → ∑ j, A i j * x j = 0
  | 0, _, _, h => by simp [luSolve] at h
  | n + 1, A, b, h => by
    unfold luSolve at h
    split at h
    · rename_i h0
      refine ⟨1, fun i => if i = 0 then 1 else 0, ⟨0, by simp⟩, ?_, ?_⟩
      · intro i hi
        have : i ≠ 0 := fun e => by subst e; simp at hi
        simp [this]
      · intro i hi
        have : i = 0 := Fin.ext (by show i.val = 0; omega)
        subst this
        simp [h0]
    · rename_i h0
      rw [Option.map_eq_none_iff] at h
      obtain ⟨k, x, ⟨i, hi⟩, hz, hk⟩ := luSolve_none _ _ h
      refine ⟨k + 1, Fin.cons (-(∑ j, A 0 j.succ * x j) / A 0 0) x, ⟨i.succ, by simpa using hi⟩, ?_, ?_⟩
      · intro i
        refine Fin.cases (fun h => by simp at h) (fun i hi => ?_) i
        simp only [Fin.val_succ] at hi
        simpa using hz i (by omega)
      · intro i
        refine Fin.cases (fun _ => ?_) (fun i hi => ?_) i
        · rw [Fin.sum_univ_succ]
          simp only [Fin.cons_zero, Fin.cons_succ]
          field_simp
          ring
        · rw [Fin.sum_univ_succ]
          simp only [Fin.cons_zero, Fin.cons_succ]
          simp only [Fin.val_succ] at hi
          have := hk i (by omega)
          have hs : ∑ j, (A i.succ j.succ - A i.succ 0 / A 0 0 * A 0 j.succ) * x j
              = (∑ j, A i.succ j.succ * x j) - A i.succ 0 / A 0 0 * ∑ j, A 0 j.succ * x j := by
            rw [mul_sum, ← sum_sub_distrib]
            exact sum_congr rfl fun j _ => by ring
          rw [hs] at this
          field_simp at this ⊢
          linear_combination this

/-- Whether elimination succeeds does not depend on the right hand side, and a zero right hand side gives zero. -/
theorem luSolve_zero : ∀ {n : Nat} (A : Fin n → Fin n → K) (b x : Fin n → K), luSolve n A b = some x →
    luSolve n A (fun _ => 0) = some fun _ => 0
  | 0, _, _, _, _ => by simp [luSolve]
  | n + 1, A, b, x, h => by
    unfold luSolve at h ⊢
    split at h
    · simp at h
    rename_i h0
    rw [Option.map_eq_some_iff] at h
    obtain ⟨y, hy, rfl⟩ := h
    rw [if_neg h0]
    have := luSolve_zero _ _ _ hy
    simp only [mul_zero, sub_zero] at this ⊢
    rw [this]
    simp only [Option.map_some, mul_zero, sum_const_zero, sub_zero, zero_div, Option.some.injEq]
    funext i
    refine Fin.cases ?_ (fun i => ?_) i <;> simp

/-- In exact arithmetic refinement changes nothing. -/
theorem solveRefined_eq {n : Nat} (A : Fin n → Fin n → K) (b : Fin n → K) (upd : Fin n → Bool) (p : Nat) :
    solveRefined A b upd p = luSolve n A b := by
  induction p with
  | zero => rfl
  | succ p ih =>
    unfold solveRefined
    rw [ih]
    cases h : luSolve n A b with
    | none => rfl
    | some x =>
      show refine A b upd x = some x
      unfold refine
      have hz : (fun i => b i - ∑ j, A i j * x j) = fun _ => 0 := by
        funext i; rw [luSolve_correct A b x h i, sub_self]
      rw [hz, luSolve_zero A b x h]
      simp

end Lin
end DexRT
