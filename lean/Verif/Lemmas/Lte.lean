import Verif.Model.Lte
import Mathlib.Tactic.Positivity
import Mathlib.Tactic.FieldSimp
import Mathlib.Tactic.Linarith
import Mathlib.Algebra.BigOperators.Fin
import Mathlib.Algebra.Order.BigOperators.Group.Finset
/-! Lemmas for LTE populations and collisional rates. -/
namespace DexRT
namespace Lte
open Finset

theorem divLoop_eq (saha x : ℝ) (dZ : ℤ) : divLoop saha x dZ = x / saha ^ dZ.toNat := by
  unfold divLoop
  induction dZ.toNat with
  | zero => simp
  | succ n ih => rw [List.range_succ, List.foldl_append, ih]; simp [pow_succ, div_div]

theorem relPop_zero {n : Nat} (lv : Fin (n + 1) → Level) (kbT saha : ℝ) (hg : (lv 0).g ≠ 0) : relPop lv kbT saha 0 = 1 := by
  unfold relPop
  rw [divLoop_eq]
  simp [hg]

theorem relPop_pos {n : Nat} (lv : Fin (n + 1) → Level) (kbT saha : ℝ) (hg : ∀ i, 0 < (lv i).g) (hs : 0 < saha)
    (i : Fin (n + 1)) : 0 < relPop lv kbT saha i := by
  unfold relPop
  rw [divLoop_eq]
  have := hg i; have := hg 0
  positivity

theorem pop0_pos {n : Nat} (lv : Fin (n + 1) → Level) (kbT saha ntot : ℝ) (hg : ∀ i, 0 < (lv i).g) (hs : 0 < saha)
    (hn : 0 < ntot) : 0 < pop0 lv kbT saha ntot := by
  unfold pop0
  have : 0 ≤ ∑ i : Fin n, relPop lv kbT saha i.succ := sum_nonneg fun i _ => (relPop_pos lv kbT saha hg hs _).le
  positivity

theorem pop0_sum {n : Nat} (lv : Fin (n + 1) → Level) (kbT saha ntot : ℝ) (hg : ∀ i, 0 < (lv i).g) (hs : 0 < saha) :
    ∑ i, relPop lv kbT saha i * pop0 lv kbT saha ntot = ntot := by
  rw [← sum_mul, Fin.sum_univ_succ, relPop_zero lv kbT saha (hg 0).ne']
  unfold pop0
  have : 0 ≤ ∑ i : Fin n, relPop lv kbT saha i.succ := sum_nonneg fun i _ => (relPop_pos lv kbT saha hg hs _).le
  field_simp

theorem sahaTerm_pos (dbc T ne : ℝ) (hd : 0 < dbc) (hT : 0 < T) (hn : 0 < ne) : 0 < sahaTerm dbc T ne := by
  unfold sahaTerm
  have := Real.rpow_pos_of_pos (div_pos hd hT) (3 / 2)
  positivity

theorem ltePops_eq {n : Nat} (kB dbc fmin : ℝ) (lv : Fin (n + 1) → Level) (T ne ntot : ℝ) (hg : (lv 0).g ≠ 0)
    (i : Fin (n + 1)) : ltePops kB dbc fmin lv T ne ntot i =
      if i = 0 then relPop lv (T * kB) (sahaTerm dbc T ne) i * pop0 lv (T * kB) (sahaTerm dbc T ne) ntot
      else max (relPop lv (T * kB) (sahaTerm dbc T ne) i * pop0 lv (T * kB) (sahaTerm dbc T ne) ntot) fmin := by
  unfold ltePops
  by_cases h : i = 0
  · subst h; simp [relPop_zero lv _ _ hg]
  · simp [h]

/-! ### Rates -/

theorem store_apply {n : Nat} (i j : Fin n) (C : Fin n → Fin n → ℝ) (cup cdown : ℝ) (a b : Fin n) :
    store i j C cup cdown a b = C a b + store i j (fun _ _ => 0) cup cdown a b := by
  simp [store, add_assoc]

/-- Total rate matrix of the transitions: what is added to `C`. -/
theorem compute_eq {n : Nat} (k : Consts) (lv : Fin n → Level) (c : Cell) (nStar : Fin n → ℝ) (r : Coll n → ℝ × ℝ)
    (colls : List (Coll n)) (h : ∀ coll ∈ colls, collRates k lv c nStar coll = .ok (r coll)) : ∀ C,
    computeCollisions k lv c nStar colls C = .ok fun a b => C a b +
      (colls.map fun coll => store coll.i coll.j (fun _ _ => 0) (r coll).1 (r coll).2 a b).sum := by
  induction colls with
  | nil => intro C; simp [computeCollisions]
  | cons coll rest ih =>
    intro C
    unfold computeCollisions
    rw [h coll (by simp), Outcome.ok_bind, ih (fun c hc => h c (by simp [hc]))]
    congr 1
    funext a b
    rw [store_apply]
    simp [add_assoc]

end Lte
end DexRT
