import Verif.Lemmas.Gamma
import Mathlib.Data.Rat.Defs
import Mathlib.Algebra.Order.Ring.Rat
/-!
# C26, C48, C51: accumulation of the rate matrix
-/
namespace DexRT
open Rates
variable {K : Type} [Field K] {α : Type} [DecidableEq α]

/-- Specification: value of element `l` after adding all contributions to `init`. -/
def Summed (init : α → K) (ops : List (AddOp α K)) (l : α) : K :=
  init l + (ops.map fun o => if o.1 = l then o.2 else 0).sum

/-! ### C26 -/

/-- C26 (atomic variant): however the additions are distributed over threads and however the threads are interleaved,
the result is the sum. -/
theorem C26_atomic (work : List (List (AddOp α K))) (mem : α → K) (d : Cfg α K)
    (h : Relation.ReflTransGen StepAtomic ⟨work.map fun ops => ⟨ops, none⟩, mem⟩ d) (hf : Finished d) :
    d.mem = Summed mem work.flatten := by
  funext l
  have := run_atomic_inv h l
  rw [pending_finished hf, add_zero] at this
  rw [this]
  unfold Summed
  congr 1
  have := total_flatten work l
  unfold total at this
  rw [this]
  simp [pending, total, Function.comp_def]

/-- C26 (plain variant): if each element of the matrix is only touched by one thread (one thread per cell), the same
holds although loads and stores of different threads interleave arbitrarily. -/
theorem C26_plain (work : List (List (AddOp α K))) (own : α → Nat)
    (hown : ∀ (t : Nat) (ops : List (AddOp α K)), work[t]? = some ops → ∀ o ∈ ops, own o.1 = t) (mem : α → K) (d : Cfg α K)
    (h : Relation.ReflTransGen StepPlain ⟨work.map fun ops => ⟨ops, none⟩, mem⟩ d) (hf : Finished d) :
    d.mem = Summed mem work.flatten := by
  have ho : Owned own (⟨work.map fun ops => ⟨ops, none⟩, mem⟩ : Cfg α K) := by
    intro t th hth
    rw [List.getElem?_map] at hth
    obtain ⟨ops, hops, rfl⟩ := Option.map_eq_some_iff.mp hth
    exact ⟨hown t ops hops, fun x hx => by simp at hx⟩
  funext l
  have := (run_plain_inv h ho).2 l
  rw [pending_finished hf, add_zero] at this
  rw [this]
  unfold Summed
  congr 1
  have := total_flatten work l
  unfold total at this
  rw [this]
  simp [pending, total, Function.comp_def]

/-- Without that (two threads adding to the same element) the plain variant can lose an addition: the hypothesis of
`C26_plain` is needed. -/
theorem C26_plain_needs_ownership : ∃ d : Cfg Unit ℚ,
    Relation.ReflTransGen StepPlain ⟨[⟨[((), 1)], none⟩, ⟨[((), 1)], none⟩], fun _ => 0⟩ d ∧ Finished d ∧ d.mem () = 1 := by
  refine ⟨⟨[⟨[], none⟩, ⟨[], none⟩], write (write (fun _ => 0) () (0 + 1)) () (0 + 1)⟩, ?_, ?_, ?_⟩
  · refine Relation.ReflTransGen.head (StepPlain.load [] [⟨[((), 1)], none⟩] () 1 [] _) ?_
    refine Relation.ReflTransGen.head (StepPlain.load [⟨[((), 1)], some 0⟩] [] () 1 [] _) ?_
    refine Relation.ReflTransGen.head (StepPlain.store [] [⟨[((), 1)], some 0⟩] () 1 0 [] _) ?_
    exact Relation.ReflTransGen.single (StepPlain.store [⟨[], none⟩] [] () 1 0 [] _)
  · intro t ht
    simp only [List.mem_cons, List.not_mem_nil, or_false, or_self] at ht
    subst ht
    exact ⟨rfl, rfl⟩
  · simp [write]

/-- C26 (cells): the additions of one transition in cell `k` all go to elements of cell `k`, so giving each cell to one
thread satisfies the hypothesis of `C26_plain`. -/
theorem C26_cells {n : Nat} (i j : Fin n) (k : Nat) (a : Accum K) : ∀ o ∈ addOps i j k a, o.1.2.2 = k := by
  intro o ho
  simp only [addOps, List.mem_cons, List.not_mem_nil, or_false] at ho
  rcases ho with rfl | rfl <;> rfl

/-- C26 (ranks): for every number of ranks and every distribution of the contributions over ranks, the reduced matrix
is the collisional rates plus all contributions. -/
theorem C26_ranks (coll : α → K) (all : List (AddOp α K)) (ranks : List (List (AddOp α K))) (hne : ranks ≠ [])
    (hp : ranks.flatten.Perm all) :
    reduceRanks (ranks.mapIdx fun r ops => Summed (initialMem coll r) ops) = Summed coll all := by
  funext l
  have h1 : (all.map fun o => if o.1 = l then o.2 else 0).sum = (ranks.map fun o => total o l).sum := by
    rw [← total_flatten]
    exact (total_perm hp l).symm
  unfold reduceRanks Summed
  rw [h1]
  cases ranks with
  | nil => exact absurd rfl hne
  | cons r rs =>
    have h2 : ∀ (rs : List (List (AddOp α K))), ((rs.mapIdx fun i ops => fun l => initialMem coll (i + 1) l +
        (ops.map fun o => if o.1 = l then o.2 else 0).sum).map fun m => m l).sum = (rs.map fun o => total o l).sum := by
      intro rs
      congr 1
      apply List.ext_getElem
      · simp
      · intro i h1 h2
        simp [initialMem, total]
    rw [List.mapIdx_cons, List.map_cons, List.sum_cons, h2 rs, List.map_cons, List.sum_cons]
    simp only [initialMem, if_true, total]
    ring

/-- Non-vacuity: two threads with their own cells, one schedule. -/
example : ∃ d : Cfg Nat ℚ, Relation.ReflTransGen StepPlain
    ⟨[[(0, 1)], [(1, 2)]].map fun ops => ⟨ops, none⟩, fun _ => 5⟩ d ∧ Finished d := by
  refine ⟨⟨[⟨[], none⟩, ⟨[], none⟩], write (write (fun _ => 5) 1 (5 + 2)) 0 (5 + 1)⟩, ?_, ?_⟩
  · refine Relation.ReflTransGen.head (StepPlain.load [] [⟨[(1, 2)], none⟩] 0 1 [] _) ?_
    refine Relation.ReflTransGen.head (StepPlain.load [⟨[(0, 1)], some 5⟩] [] 1 2 [] _) ?_
    refine Relation.ReflTransGen.head (StepPlain.store [⟨[(0, 1)], some 5⟩] [] 1 2 5 [] _) ?_
    exact Relation.ReflTransGen.single (StepPlain.store [] [⟨[], none⟩] 0 1 5 [] _)
  · intro t ht
    simp only [List.mem_cons, List.not_mem_nil, or_false, or_self] at ht
    subst ht
    exact ⟨rfl, rfl⟩

/-! ### C51: preconditioning -/

/-- Net rate from `j` to `i` with the intensity itself, without the approximate operator (the definition of the
radiative rates): spontaneous and stimulated downward minus upward. -/
def NetRadiative (ni nj uji vji vij intensity w : K) : K :=
  (nj * uji + nj * vji * intensity - ni * vij * intensity) * w

omit [DecidableEq α] in
/-- C51: for all populations, intensities and approximate operators the net rate of a transition put into the rate
matrix is the net radiative rate, apart from the constant added to the opacity. -/
theorem C51_net (eps ni nj uji vji vij intensity psi w : K) :
    let a := accumOf eps ni nj uji vji vij intensity psi w
    nj * a.gij - ni * a.gji = NetRadiative ni nj uji vji vij intensity w - eps * psi * (nj * uji) * w := by
  simp only [accumOf, Accum.gij, Accum.gji, Accum.iEff, NetRadiative]
  ring

/-- C51 (no influence on the solution): with `eps = 0` the net rate of a transition does not depend on the approximate
operator; in particular it is that of plain lambda iteration (`psi = 0`), so both have the same equilibria. Partial:
with `eps = 1e-20` they differ by the amount in `C51_net`. -/
theorem C51_independent_partial (ni nj uji vji vij intensity psi psi' w : K) :
    let a := accumOf 0 ni nj uji vji vij intensity psi w
    let b := accumOf 0 ni nj uji vji vij intensity psi' w
    nj * a.gij - ni * a.gji = nj * b.gij - ni * b.gji := by
  intro a b
  rw [C51_net, C51_net]
  ring

/-- C51 (both code paths agree): dividing `U` and `V` by `hc / 4 pi` and scaling back gives the same additions. -/
theorem C51_paths (h eps ni nj uji vji vij intensity psi lambda w : K) (hh : h ≠ 0) :
    let a := accumOf eps ni nj uji vji vij intensity psi (lambda / h * w)
    let b := accumOfDivided h eps ni nj uji vji vij intensity psi lambda w
    a.gij = b.gij ∧ a.gji = b.gji := by
  simp only [accumOf, accumOfDivided, Accum.gij, Accum.gji, Accum.iEff]
  constructor <;> field_simp

/-- C51 (sign): the additions are not negative if the intensity covers the local part, the approximate operator does not
exceed one over the opacity, and weights and coefficients are not negative. -/
theorem C51_nonneg [LinearOrder K] [IsStrictOrderedRing K] (a : Accum K) (h1 : a.psiStar * a.eta ≤ a.intensity)
    (h2 : a.chi * a.psiStar ≤ 1) (hu : 0 ≤ a.uji) (hv : 0 ≤ a.vji) (hv' : 0 ≤ a.vij) (hw : 0 ≤ a.wlamu) :
    0 ≤ a.gij ∧ 0 ≤ a.gji := by
  have hi : 0 ≤ a.iEff := sub_nonneg.mpr h1
  have hc : 0 ≤ 1 - a.chi * a.psiStar := sub_nonneg.mpr h2
  exact ⟨mul_nonneg (add_nonneg (mul_nonneg hc hu) (mul_nonneg hv hi)) hw, mul_nonneg (mul_nonneg hv' hi) hw⟩

example : let a := accumOf (0 : ℚ) 10 1 2 1 1 3 (1 / 10) 1
    a.gij = 3 ∧ a.gji = 14 / 5 ∧ a.psiStar * a.eta ≤ a.intensity ∧ a.chi * a.psiStar ≤ 1 := by
  simp only [accumOf, Accum.gij, Accum.gji, Accum.iEff]; norm_num

/-! ### C48: which matrix belongs to which atom -/

/-- Specification: the matrix of every atom with a rate matrix holds this atom's collisional rates. -/
def OwnCollisions {M : Type} (coll : Nat → M) (ts : List Treatment) (mats : List M) : Prop :=
  ∀ ia t, ts[ia]? = some t → t.hasGamma → mats[ia]? = some (coll ia)

/-- C48: if no atom with a rate matrix comes after one without, each matrix holds its own atom's rates. Partial: see the
refutation. -/
theorem C48_collisions_partial {M : Type} (zero : M) (coll : Nat → M) (ts : List Treatment) (m : Nat) (hm : m ≤ ts.length)
    (h1 : ∀ ia < m, ∃ t, ts[ia]? = some t ∧ t.hasGamma) (h2 : ∀ ia t, m ≤ ia → ts[ia]? = some t → t.hasGamma = false) :
    OwnCollisions coll ts (collisionsToGamma zero coll ts) := by
  intro ia t ht hg
  have hia : ia < m := by
    rcases Nat.lt_or_ge ia m with h | h
    · exact h
    · rw [h2 ia t h ht] at hg; cases hg
  unfold collisionsToGamma
  rw [mapping_prefix ts m hm h1 h2, List.getElem?_map, List.getElem?_range (by omega)]
  simp [List.getElem?_range hia]

/-- C48 is **false** in general: with a light atom in detailed treatment before an active one, the active atom's
collisional rates are put into the matrix of the detailed atom, and its own matrix stays empty, whatever the rates. -/
theorem C48_refuted {M : Type} (zero : M) (coll : Nat → M) (hz : coll 1 ≠ zero) :
    collisionsToGamma zero coll [.Detailed, .Active] = [coll 1, zero] ∧
      ¬ OwnCollisions coll [.Detailed, .Active] (collisionsToGamma zero coll [.Detailed, .Active]) := by
  have e : collisionsToGamma zero coll [.Detailed, .Active] = [coll 1, zero] := rfl
  refine ⟨e, fun h => ?_⟩
  have := h 1 .Active rfl rfl
  rw [e] at this
  simp only [List.getElem?_cons_succ, List.getElem?_cons_zero, Option.some.injEq] at this
  exact hz this.symm

/-- C48 is **false** also for the populations: statistical equilibrium replaces the populations of every atom, including
those in detailed treatment. -/
theorem C48_refuted_detailed (ts : List Treatment) (ia : Nat) (h : ia < ts.length) : ia ∈ statEqAtoms ts none := by
  simp [statEqAtoms, h]

/-- With `only_atom` exactly this atom is updated. -/
theorem C48_only (ts : List Treatment) (o ia : Nat) : ia ∈ statEqAtoms ts (some o) ↔ ia = o ∧ ia < ts.length := by
  unfold statEqAtoms
  rw [List.mem_filter, List.mem_range]
  simp only [beq_iff_eq]
  constructor
  · rintro ⟨h1, h2⟩; exact ⟨h2.symm, h1⟩
  · rintro ⟨h1, h2⟩; exact ⟨h2, h1.symm⟩

/-- Non-vacuity: two active atoms and a detailed one after them. -/
example : OwnCollisions (fun ia => ia + 10) [.Active, .Golding, .Detailed]
    (collisionsToGamma 0 (fun ia => ia + 10) [.Active, .Golding, .Detailed]) := by
  refine C48_collisions_partial _ _ _ 2 (by decide) (fun ia h => ?_) (fun ia t h ht => ?_)
  · match ia, h with
    | 0, _ => exact ⟨_, rfl, rfl⟩
    | 1, _ => exact ⟨_, rfl, rfl⟩
  · match ia, h with
    | 2, _ => cases ht; rfl
    | k + 3, _ => simp at ht

end DexRT
