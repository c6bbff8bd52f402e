import Verif.Model.StatEq
import Verif.Lemmas.Linear
import Mathlib.Algebra.Order.BigOperators.Ring.Finset
import Mathlib.Tactic.Linarith
import Mathlib.Logic.Relation
/-! Lemmas for statistical equilibrium. -/
namespace DexRT
namespace StatEq
open Finset Lin
variable {K : Type} [Field K] [LinearOrder K] [IsStrictOrderedRing K] {n : Nat}

omit [LinearOrder K] [IsStrictOrderedRing K] in
theorem fixup_col (G : Fin n → Fin n → K) (j : Fin n) : ∑ i, fixup G i j = 0 := by
  have h : ∀ i, fixup G i j = (if i = j then 0 else G i j)
      + (if i = j then -∑ k, (if k = j then 0 else G k j) else 0) := by
    intro i; unfold fixup; split <;> simp
  simp only [h, sum_add_distrib, sum_ite_eq', mem_univ, if_true]
  ring

/-- Negative part of a vector in the kernel of the block `S` is empty. -/
theorem block_nonneg (G : Fin n → Fin n → K) (e : Fin n)
    (hG : ∀ i j, i ≠ j → 0 ≤ G i j)
    (hreach : ∀ j, Relation.ReflTransGen (fun a b => a ≠ b ∧ 0 < G b a) j e)
    (S : Finset (Fin n)) (x : Fin n → K) (hs : ∀ i ∉ S, x i = 0)
    (hk : ∀ i ∈ S, i ≠ e → ∑ j, fixup G i j * x j = 0) (he : 0 ≤ x e) : ∀ i, 0 ≤ x i := by
  by_contra hcon
  push Not at hcon
  obtain ⟨i0, hi0⟩ := hcon
  let P : Finset (Fin n) := univ.filter fun i => x i < 0
  have hPe : e ∉ P := by simp [P]; exact he
  have hPS : ∀ i ∈ P, i ∈ S := fun i hi => by
    by_contra h
    have := hs i h
    simp [P, this] at hi
  -- sum of the balance equations over P
  have hsum : ∑ j, x j * ∑ i ∈ P, fixup G i j = 0 := by
    have : ∑ i ∈ P, ∑ j, fixup G i j * x j = 0 :=
      sum_eq_zero fun i hi => hk i (hPS i hi) (fun h => hPe (h ▸ hi))
    rw [sum_comm] at this
    rw [← this]
    exact sum_congr rfl fun j _ => by rw [mul_sum]; exact sum_congr rfl fun i _ => mul_comm _ _
  have hoff : ∀ j ∉ P, 0 ≤ ∑ i ∈ P, fixup G i j := fun j hj =>
    sum_nonneg fun i hi => by
      have : i ≠ j := fun h => hj (h ▸ hi)
      simp only [fixup, this, if_false]
      exact hG i j this
  have hcompl : ∀ j, ∑ i ∈ P, fixup G i j = -∑ i ∈ univ.filter (fun i => i ∉ P), fixup G i j := fun j => by
    have h1 := fixup_col G j
    rw [← sum_filter_add_sum_filter_not univ (fun i => i ∈ P)] at h1
    have h2 : univ.filter (fun i => i ∈ P) = P := by ext; simp
    rw [h2] at h1
    linear_combination h1
  have hin : ∀ j ∈ P, ∀ i ∉ P, 0 ≤ fixup G i j := fun j hj i hi => by
    have : i ≠ j := fun h => hi (h ▸ hj)
    simp only [fixup, this, if_false]
    exact hG i j this
  have hterm : ∀ j ∈ (univ : Finset (Fin n)), 0 ≤ x j * ∑ i ∈ P, fixup G i j := by
    intro j _
    by_cases hj : j ∈ P
    · have hx : x j < 0 := by simpa [P] using hj
      rw [hcompl]
      have : 0 ≤ ∑ i ∈ univ.filter (fun i => i ∉ P), fixup G i j :=
        sum_nonneg fun i hi => hin j hj i (by simpa using hi)
      nlinarith
    · have hx : 0 ≤ x j := by simpa [P] using hj
      exact mul_nonneg hx (hoff j hj)
  have hzero := (sum_eq_zero_iff_of_nonneg hterm).mp hsum
  -- P is closed under transitions
  have hclosed : ∀ j ∈ P, ∀ i, j ≠ i → 0 < G i j → i ∈ P := by
    intro j hj i hji hpos
    by_contra hi
    have hx : x j < 0 := by simpa [P] using hj
    have hz := (mul_eq_zero.mp (hzero j (mem_univ j))).resolve_left hx.ne
    rw [hcompl, neg_eq_zero] at hz
    have := (sum_eq_zero_iff_of_nonneg (fun i hi => hin j hj i (by simpa using hi))).mp hz i (by simpa using hi)
    simp only [fixup, Ne.symm hji, if_false] at this
    exact hpos.ne' this
  have hall : ∀ j, Relation.ReflTransGen (fun a b => a ≠ b ∧ 0 < G b a) i0 j → j ∈ P := by
    intro j hr
    induction hr with
    | refl => simpa [P] using hi0
    | tail _ hs ih => exact hclosed _ ih _ hs.1 hs.2
  exact hPe (hall e (hreach i0))

/-- Any vector killed by the modified equations of a leading block is zero. -/
theorem block_injective (G : Fin n → Fin n → K) (e : Fin n)
    (hG : ∀ i j, i ≠ j → 0 ≤ G i j)
    (hreach : ∀ j, Relation.ReflTransGen (fun a b => a ≠ b ∧ 0 < G b a) j e)
    (S : Finset (Fin n)) (x : Fin n → K) (hs : ∀ i ∉ S, x i = 0)
    (hk : ∀ i ∈ S, ∑ j, withConservation e (fixup G) i j * x j = 0) : ∀ i, x i = 0 := by
  have hk' : ∀ i ∈ S, i ≠ e → ∑ j, fixup G i j * x j = 0 := fun i hi he => by
    have := hk i hi
    simpa [withConservation, he] using this
  have hkn : ∀ i ∈ S, i ≠ e → ∑ j, fixup G i j * (fun j => -x j) j = 0 := fun i hi he => by
    simp only [mul_neg, sum_neg_distrib, hk' i hi he, neg_zero]
  have hsn : ∀ i ∉ S, (fun j => -x j) i = 0 := fun i hi => by simp [hs i hi]
  by_cases heS : e ∈ S
  · have hsum : ∑ j, x j = 0 := by simpa [withConservation] using hk e heS
    rcases le_total 0 (x e) with he | he
    · have := block_nonneg G e hG hreach S x hs hk' he
      intro i
      exact (sum_eq_zero_iff_of_nonneg fun j _ => this j).mp hsum i (mem_univ i)
    · have := block_nonneg G e hG hreach S (fun j => -x j) hsn hkn (by simpa using he)
      intro i
      have h2 : ∑ j, (-x j) = 0 := by rw [sum_neg_distrib, hsum, neg_zero]
      have := (sum_eq_zero_iff_of_nonneg fun j _ => this j).mp h2 i (mem_univ i)
      simpa using this
  · have he := hs e heS
    have h1 := block_nonneg G e hG hreach S x hs hk' he.ge
    have h2 := block_nonneg G e hG hreach S (fun j => -x j) hsn hkn (by simp [he])
    intro i
    have := h2 i
    exact le_antisymm (by simpa using this) (h1 i)

theorem statEq_solve (G : Fin n → Fin n → K) (e : Fin n)
    (hG : ∀ i j, i ≠ j → 0 ≤ G i j)
    (hreach : ∀ j, Relation.ReflTransGen (fun a b => a ≠ b ∧ 0 < G b a) j e) :
    ∃ x, luSolve n (withConservation e (fixup G)) (rhs e) = some x := by
  cases h : luSolve n (withConservation e (fixup G)) (rhs e) with
  | some x => exact ⟨x, rfl⟩
  | none =>
    exfalso
    obtain ⟨k, x, ⟨i, hi⟩, hz, hk⟩ := luSolve_none _ _ h
    exact hi (block_injective G e hG hreach (univ.filter fun i => i.val < k) x
      (fun i hi => hz i (by simpa using hi)) (fun i hi => hk i (by simpa using hi)) i)

end StatEq
end DexRT
