import Verif.Lemmas.StatEq
import Mathlib.Tactic.FinCases
/-!
# C25: statistical equilibrium

`G i j` (`i ≠ j`) is the rate per particle from level `j` to level `i` accumulated in `Gamma(i, j, ks)`. The diagonal of
`G` is whatever was accumulated there; no statement mentions it. `e` is the level whose equation is replaced.
-/
namespace DexRT
open Finset StatEq Lin
variable {K : Type} [Field K] [LinearOrder K] [IsStrictOrderedRing K] {n : Nat}

/-! ### Specification -/

/-- Every level is populated as fast as it is depopulated. -/
def Balanced (G : Fin n → Fin n → K) (x : Fin n → K) : Prop :=
  ∀ i, ∑ j ∈ univ.erase i, G i j * x j = x i * ∑ j ∈ univ.erase i, G j i

/-- From every level there is a chain of transitions with positive rate leading to level `e`. -/
def Reaches (G : Fin n → Fin n → K) (e : Fin n) : Prop :=
  ∀ j, Relation.ReflTransGen (fun a b => a ≠ b ∧ 0 < G b a) j e

/-- No negative rates. -/
def RatesNonneg (G : Fin n → Fin n → K) : Prop := ∀ i j, i ≠ j → 0 ≤ G i j

omit [LinearOrder K] [IsStrictOrderedRing K] in
theorem fixup_row (G : Fin n → Fin n → K) (x : Fin n → K) (i : Fin n) :
    ∑ j, fixup G i j * x j = ∑ j ∈ univ.erase i, G i j * x j - x i * ∑ j ∈ univ.erase i, G j i := by
  rw [← add_sum_erase univ _ (mem_univ i)]
  have h1 : ∑ j ∈ univ.erase i, fixup G i j * x j = ∑ j ∈ univ.erase i, G i j * x j :=
    sum_congr rfl fun j hj => by
      have : ¬ i = j := fun h => (mem_erase.mp hj).1 h.symm
      simp [fixup, this]
  have h2 : fixup G i i = -∑ j ∈ univ.erase i, G j i := by
    simp only [fixup, if_true]
    rw [← add_sum_erase univ _ (mem_univ i)]
    simp only [if_true, zero_add]
    congr 1
    exact sum_congr rfl fun j hj => by simp [(mem_erase.mp hj).1]
  rw [h1, h2]
  ring

omit [LinearOrder K] [IsStrictOrderedRing K] in
theorem balanced_iff (G : Fin n → Fin n → K) (x : Fin n → K) :
    Balanced G x ↔ ∀ i, ∑ j, fixup G i j * x j = 0 := by
  refine forall_congr' fun i => ?_
  rw [fixup_row, sub_eq_zero]

omit [IsStrictOrderedRing K] in
theorem statEqCell_some {e : Fin n} {G : Fin n → Fin n → K} {ntot : K} {p : Fin n → K}
    (h : statEqCell e G ntot = some p) :
    ∃ x, luSolve n (withConservation e (fixup G)) (rhs e) = some x ∧ p = fun i => x i * ntot := by
  unfold statEqCell at h
  rw [solveRefined_eq, Option.map_eq_some_iff] at h
  obtain ⟨x, hx, rfl⟩ := h
  exact ⟨x, hx, rfl⟩

/-! ### C25 -/

omit [LinearOrder K] [IsStrictOrderedRing K] in
/-- C25 (columns): before the conservation equation is put in, every column adds up to zero and every transition
rate is the accumulated one. -/
theorem C25_columns (G : Fin n → Fin n → K) :
    (∀ j, ∑ i, fixup G i j = 0) ∧ ∀ i j, i ≠ j → fixup G i j = G i j :=
  ⟨fixup_col G, fun i j h => by simp [fixup, h]⟩

omit [IsStrictOrderedRing K] in
/-- C25: whatever the rates, if the solve gives finite populations they add up to the number of atoms in the cell
and balance in **every** level, including the one whose equation was replaced. -/
theorem C25_conserves (e : Fin n) (G : Fin n → Fin n → K) (ntot : K) (p : Fin n → K)
    (h : statEqCell e G ntot = some p) : ∑ i, p i = ntot ∧ Balanced G p := by
  obtain ⟨x, hx, rfl⟩ := statEqCell_some h
  have hc := luSolve_correct _ _ _ hx
  have hsum : ∑ i, x i = 1 := by simpa [withConservation, rhs] using hc e
  have hrow : ∀ i, i ≠ e → ∑ j, fixup G i j * x j = 0 := fun i hi => by
    simpa [withConservation, rhs, hi] using hc i
  have hall : ∑ i, ∑ j, fixup G i j * x j = 0 := by
    rw [sum_comm]
    refine sum_eq_zero fun j _ => ?_
    rw [← sum_mul, fixup_col, zero_mul]
  have hrow' : ∀ i, ∑ j, fixup G i j * x j = 0 := fun i => by
    by_cases hi : i = e
    · subst hi
      rw [← add_sum_erase univ _ (mem_univ i),
        sum_eq_zero (fun k hk => hrow k (mem_erase.mp hk).1), add_zero] at hall
      exact hall
    · exact hrow i hi
  refine ⟨by rw [← sum_mul, hsum, one_mul], (balanced_iff G _).mpr fun i => ?_⟩
  have : ∑ j, fixup G i j * (x j * ntot) = (∑ j, fixup G i j * x j) * ntot := by
    rw [sum_mul]; exact sum_congr rfl fun j _ => by ring
  rw [this, hrow' i, zero_mul]

/-- C25 (existence): for non-negative rates in which every level can reach the eliminated one, elimination without
pivoting never meets a zero pivot, and no population is negative. -/
theorem C25_defined (e : Fin n) (G : Fin n → Fin n → K) (ntot : K) (hG : RatesNonneg G) (hr : Reaches G e)
    (h0 : 0 ≤ ntot) : ∃ p, statEqCell e G ntot = some p ∧ ∀ i, 0 ≤ p i := by
  obtain ⟨x, hx⟩ := statEq_solve G e hG hr
  refine ⟨fun i => x i * ntot, ?_, fun i => mul_nonneg ?_ h0⟩
  · unfold statEqCell; rw [solveRefined_eq, hx]; rfl
  · have h1 : statEqCell e G 1 = some (fun i => x i * 1) := by unfold statEqCell; rw [solveRefined_eq, hx]; rfl
    obtain ⟨hs, hb⟩ := C25_conserves e G 1 _ h1
    simp only [mul_one] at hs hb
    have hb' := (balanced_iff G x).mp hb
    rcases le_total 0 (x e) with he | he
    · exact block_nonneg G e hG hr univ x (by simp) (fun i _ _ => hb' i) he i
    · have := block_nonneg G e hG hr univ (fun j => -x j) (by simp)
        (fun i _ _ => by simp only [mul_neg, sum_neg_distrib, hb' i, neg_zero]) (by simpa using he)
      exfalso
      have h2 : (0 : K) ≤ ∑ i, -x i := sum_nonneg fun i _ => this i
      rw [sum_neg_distrib, hs] at h2
      linarith

/-- C25 (uniqueness): there is only one balanced distribution with the given total, so that is what is computed. -/
theorem C25_unique (e : Fin n) (G : Fin n → Fin n → K) (ntot : K) (hG : RatesNonneg G) (hr : Reaches G e)
    (x : Fin n → K) (hb : Balanced G x) (hs : ∑ i, x i = ntot) : statEqCell e G ntot = some x := by
  obtain ⟨y, hy⟩ := statEq_solve G e hG hr
  have h : statEqCell e G ntot = some fun i => y i * ntot := by unfold statEqCell; rw [solveRefined_eq, hy]; rfl
  rw [h]
  obtain ⟨hs', hb'⟩ := C25_conserves e G ntot _ h
  have hz := block_injective G e hG hr univ (fun i => y i * ntot - x i) (by simp) (fun i _ => by
    have h1 := (balanced_iff G _).mp hb
    have h2 := (balanced_iff G _).mp hb'
    by_cases hi : i = e
    · simp [withConservation, hi, hs, hs']
    · simp only [withConservation, hi, if_false, mul_sub, sum_sub_distrib, h1 i, h2 i, sub_zero])
  congr 1
  funext i
  exact sub_eq_zero.mp (hz i)

/-- C25 (choice of equation): the result does not depend on which level's equation is replaced, so neither on how
the parallel search for the largest population breaks ties. -/
theorem C25_any_elimination (e e' : Fin n) (G : Fin n → Fin n → K) (ntot : K) (hG : RatesNonneg G)
    (hr : Reaches G e) (hr' : Reaches G e') : statEqCell e G ntot = statEqCell e' G ntot := by
  obtain ⟨y, hy⟩ := statEq_solve G e' hG hr'
  have h : statEqCell e' G ntot = some fun i => y i * ntot := by unfold statEqCell; rw [solveRefined_eq, hy]; rfl
  obtain ⟨hs, hb⟩ := C25_conserves e' G ntot _ h
  rw [h]
  exact C25_unique e G ntot hG hr _ hb hs

/-- C25 (positivity): if every level can reach every other, all populations are positive. -/
theorem C25_positive (e : Fin n) (G : Fin n → Fin n → K) (ntot : K) (hG : RatesNonneg G)
    (hr : ∀ i, Reaches G i) (h0 : 0 < ntot) : ∃ p, statEqCell e G ntot = some p ∧ ∀ i, 0 < p i := by
  obtain ⟨p, hp, hn⟩ := C25_defined e G ntot hG (hr e) h0.le
  refine ⟨p, hp, fun i => lt_of_le_of_ne (hn i) fun hz => ?_⟩
  obtain ⟨hs, hb⟩ := C25_conserves e G ntot p hp
  -- an empty level is fed by nobody
  have hfeed : ∀ k, p k = 0 → ∀ j, j ≠ k → 0 < G k j → p j = 0 := by
    intro k hk j hjk hpos
    have := hb k
    rw [hk, zero_mul] at this
    have := (sum_eq_zero_iff_of_nonneg fun j hj => mul_nonneg (hG k j (Ne.symm (mem_erase.mp hj).1)) (hn j)).mp this j
      (mem_erase.mpr ⟨hjk, mem_univ j⟩)
    exact (mul_eq_zero.mp this).resolve_left hpos.ne'
  have hall : ∀ j, p j = 0 := by
    intro j
    have := hr i j
    induction this using Relation.ReflTransGen.head_induction_on with
    | refl => exact hz.symm
    | head hs _ ih => exact hfeed _ ih _ hs.1 hs.2
  simp only [hall, sum_const_zero] at hs
  exact h0.ne hs

/-- C25 (converged): populations that are already in equilibrium are returned unchanged and the change reported
for each (non-empty) level is zero. -/
theorem C25_fixed_point (e : Fin n) (G : Fin n → Fin n → K) (ntot frac : K) (hG : RatesNonneg G)
    (hr : Reaches G e) (x : Fin n → K) (hb : Balanced G x) (hs : ∑ i, x i = ntot) (hpos : ∀ i, x i ≠ 0) :
    ∃ p, statEqCell e G ntot = some p ∧ ∀ i, p i = x i ∧ change frac ntot (x i) (p i) = 0 := by
  refine ⟨x, C25_unique e G ntot hG hr x hb hs, fun i => ⟨rfl, ?_⟩⟩
  unfold change
  rw [div_self (hpos i)]
  simp

/-- The change reported for a level that is not ignored bounds the relative change of its population. -/
theorem C25_change (frac ntot old new tol : K) (hn : 0 < new) (hi : frac * ntot ≤ old)
    (h : change frac ntot old new ≤ tol) : |new - old| ≤ tol * new := by
  unfold change at h
  rw [if_neg (not_lt.mpr hi)] at h
  have : |1 - old / new| = |new - old| / new := by
    rw [← abs_of_pos hn, ← abs_div, abs_of_pos hn, sub_div, div_self hn.ne']
  rw [this, div_le_iff₀ hn] at h
  exact h

/-- The connectivity hypothesis is needed: two levels without any transition give a zero pivot (NaN populations),
although the distribution could be left as it was. -/
theorem C25_disconnected : statEqCell (0 : Fin 2) (fun _ _ => (0 : ℚ)) 1 = none := by
  decide +kernel

/-- Non-vacuity: three levels in a one-way cycle 0 → 1 → 2 → 0 with rates 1, 2, 3, all hypotheses met, giving
populations in proportion 6 : 3 : 2. -/
example : let G : Fin 3 → Fin 3 → ℚ := fun i j => if (j, i) = (0, 1) then 1 else if (j, i) = (1, 2) then 2 else
      if (j, i) = (2, 0) then 3 else 0
    RatesNonneg G ∧ (∀ i, Reaches G i) ∧ statEqCell 1 G 11 = some ![6, 3, 2] := by
  refine ⟨fun i j _ => by fin_cases i <;> fin_cases j <;> decide +kernel, ?_, by decide +kernel⟩
  intro i j
  have s01 : Relation.ReflTransGen (fun a b : Fin 3 => a ≠ b ∧ (0 : ℚ) < (if (a, b) = (0, 1) then 1 else
      if (a, b) = (1, 2) then 2 else if (a, b) = (2, 0) then 3 else 0)) 0 1 :=
    .single (by decide +kernel)
  have s12 : Relation.ReflTransGen (fun a b : Fin 3 => a ≠ b ∧ (0 : ℚ) < (if (a, b) = (0, 1) then 1 else
      if (a, b) = (1, 2) then 2 else if (a, b) = (2, 0) then 3 else 0)) 1 2 :=
    .single (by decide +kernel)
  have s20 : Relation.ReflTransGen (fun a b : Fin 3 => a ≠ b ∧ (0 : ℚ) < (if (a, b) = (0, 1) then 1 else
      if (a, b) = (1, 2) then 2 else if (a, b) = (2, 0) then 3 else 0)) 2 0 :=
    .single (by decide +kernel)
  fin_cases i <;> fin_cases j
  · exact .refl
  · exact s12.trans s20
  · exact s20
  · exact s01
  · exact .refl
  · exact s20.trans s01
  · exact s01.trans s12
  · exact s12
  · exact .refl

end DexRT
