import Verif.Model.ChargeCons
import Verif.Lemmas.StatEq
/-! Lemmas for charge conservation. -/
namespace DexRT
namespace Nr
open Finset Lin StatEq
variable {K : Type} [Field K] [LinearOrder K] [IsStrictOrderedRing K] {n : Nat}

omit [IsStrictOrderedRing K] in
theorem newtonStep_eq {cp : Bool} {ta : K} {c : Cell K n} {d : Fin (n + 1) → K} (h : newtonStep cp ta c = some d) :
    ∀ i, ∑ j, jacobian cp ta c i j * d j = residual cp ta c i := by
  unfold newtonStep at h
  rw [solveRefined_eq] at h
  exact luSolve_correct _ _ _ h

omit [IsStrictOrderedRing K] in
theorem charge_row {cp : Bool} {ta : K} {c : Cell K n} {d : Fin (n + 1) → K} (h : newtonStep cp ta c = some d) :
    ∑ j, (c.stage j - 1) * (c.pops j + d j.castSucc) = c.ne + d (Fin.last n) := by
  have hn := newtonStep_eq h (Fin.last n)
  rw [Fin.sum_univ_castSucc] at hn
  have h1 : ¬ ((Fin.last n).val + 1 = n) := by simp
  have h2 : ¬ ((Fin.last n).val < n) := by simp
  have h3 : ¬ ((Fin.last n).val + 1 < n) := by simp
  have h4 : ∀ j : Fin n, (j.castSucc).val < n := fun j => j.isLt
  simp only [jacobian, residual, h1, h2, h3, if_false, dif_neg, not_false_eq_true, Fin.val_castSucc, Fin.is_lt, dite_true] at hn
  try simp only [Fin.eta] at hn
  have : ∑ j, (c.stage j - 1) * (c.pops j + d j.castSucc)
      = ∑ j, (c.stage j - 1) * c.pops j - ∑ j, -(c.stage j - 1) * d j.castSucc := by
    rw [← sum_sub_distrib]; exact sum_congr rfl fun j _ => by ring
  rw [this]
  linear_combination -hn

omit [IsStrictOrderedRing K] in
theorem cons_row {cp : Bool} {ta : K} {c : Cell K n} {d : Fin (n + 1) → K} (hn0 : 0 < n)
    (h : newtonStep cp ta c = some d) :
    if cp then ta * (∑ j, (c.pops j + d j.castSucc)) + (c.ne + d (Fin.last n)) = c.pOverKT
    else ∑ j, (c.pops j + d j.castSucc) = c.abundance * c.nh := by
  have hn := newtonStep_eq h ⟨n - 1, by omega⟩
  rw [Fin.sum_univ_castSucc] at hn
  have h1 : n - 1 + 1 = n := by omega
  have h2 : ¬ ((Fin.last n).val < n) := by simp
  have h3 : ¬ (n - 1 + 1 < n) := by omega
  have h4 : ∀ j : Fin n, (j.castSucc).val < n := fun j => j.isLt
  simp only [jacobian, residual, h1, h2, h3, if_true, if_false, dif_neg, not_false_eq_true, h4, lt_irrefl] at hn
  cases cp
  · simp only [Bool.false_eq_true, if_false, one_mul, zero_mul, add_zero] at hn ⊢
    rw [sum_add_distrib]
    linear_combination hn
  · simp only [if_true, one_mul, ← mul_sum] at hn ⊢
    rw [sum_add_distrib]
    linear_combination hn

omit [IsStrictOrderedRing K] in
theorem applyStep_unclamped {c : Cell K n} {d : Fin (n + 1) → K} (s : Fin n → K)
    (hp : ∀ i, 0 ≤ c.pops i + d i.castSucc) (he : 0 ≤ c.ne + d (Fin.last n)) :
    applyStep c d s = some { c with pops := fun i => c.pops i + d i.castSucc, ne := c.ne + d (Fin.last n) } := by
  have h1 : clampedUpdate c.ne (d (Fin.last n)) c.ne (d (Fin.last n)) = some (d (Fin.last n)) := by
    unfold clampedUpdate; rw [if_neg (not_lt.mpr he)]
  have h2 : ∀ i, clampedUpdate (c.pops i) (d i.castSucc) (s i) (d (Fin.last n)) = some (d i.castSucc) := fun i => by
    unfold clampedUpdate; rw [if_neg (not_lt.mpr (hp i))]
  unfold applyStep
  simp [h1, h2]

end Nr
end DexRT
