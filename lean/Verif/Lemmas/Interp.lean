import Verif.Model.Interp
import Mathlib.Tactic.Ring
import Mathlib.Tactic.FieldSimp
import Mathlib.Tactic.Linarith
import Mathlib.Data.List.Sort
/-! Lemmas for table lookup. -/
namespace DexRT
variable {K : Type} [Field K] [LinearOrder K]

omit [Field K] in
theorem readAt_lt {xs : List K} {i : Nat} (h : i < xs.length) : readAt xs i = .ok xs[i] := by
  simp [readAt, h]

theorem ub_loop (xs : List K) (hs : xs.Pairwise (· ≤ ·)) (v : K) : ∀ (count first : Nat),
    first + count ≤ xs.length →
    (∀ i (h : i < xs.length), i < first → xs[i] ≤ v) →
    (∀ i (h : i < xs.length), first + count ≤ i → v < xs[i]) →
    ∃ k, upperBoundLoop xs (some v) first count = .ok k ∧ k ≤ xs.length ∧
      (∀ i (h : i < xs.length), i < k → xs[i] ≤ v) ∧ (∀ i (h : i < xs.length), k ≤ i → v < xs[i]) := by
  intro count
  induction count using Nat.strong_induction_on with
  | _ count ih =>
    intro first hb hl hr
    unfold upperBoundLoop
    by_cases h0 : count = 0
    · subst h0
      exact ⟨first, by simp, by omega, hl, fun i h hi => hr i h (by omega)⟩
    · have hlt : first + count / 2 < xs.length := by omega
      rw [dif_neg h0]
      simp only [readAt_lt hlt, nanLt]
      have mono : ∀ i j (hi : i < xs.length) (hj : j < xs.length), i ≤ j → xs[i] ≤ xs[j] := by
        intro i j hi hj hij
        rcases Nat.lt_or_eq_of_le hij with h | h
        · exact List.pairwise_iff_getElem.mp hs i j hi hj h
        · subst h; exact le_refl _
      by_cases hv : v < xs[first + count / 2]
      · simp only [hv, decide_true, Bool.not_true, Bool.false_eq_true, if_false]
        exact ih (count / 2) (by omega) first (by omega) hl
          (fun i h hi => lt_of_lt_of_le hv (mono _ _ hlt h hi))
      · simp only [hv, decide_false, Bool.not_false, if_true]
        exact ih (count - (count / 2 + 1)) (by omega) (first + count / 2 + 1) (by omega)
          (fun i h hi => le_trans (mono i _ h hlt (by omega)) (not_lt.mp hv))
          (fun i h hi => hr i h (by omega))

theorem ub_loop_nan (xs : List K) : ∀ (count first : Nat), first + count = xs.length →
    upperBoundLoop xs none first count = .ok xs.length := by
  intro count
  induction count using Nat.strong_induction_on with
  | _ count ih =>
    intro first hb
    unfold upperBoundLoop
    by_cases h0 : count = 0
    · subst h0; simp [← hb]
    · have hlt : first + count / 2 < xs.length := by omega
      rw [dif_neg h0]
      simp only [readAt_lt hlt, nanLt, Bool.not_false, if_true]
      exact ih _ (by omega) _ (by omega)

end DexRT
