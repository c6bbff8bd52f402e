import Verif.Model.RcInterp
import Verif.Lemmas.Rc
import Mathlib.Algebra.Order.Field.Rat
import Mathlib.Tactic.Linarith
import Mathlib.Tactic.FieldSimp
import Mathlib.Tactic.Positivity
import Mathlib.Tactic.IntervalCases
/-! Helper lemmas for intervals, interpolation and buffers. -/
namespace DexRT

/-- buffer used by cascade `n` -/
def bufOf (pp : Bool) (n : Nat) : Nat := if pp then n % 2 else n

theorem cascadeIndices_eq (pp : Bool) (num n : Nat) :
    cascadeIndices pp num n = (bufOf pp n, if n = num then none else some (bufOf pp (n + 1))) := by
  cases pp <;> simp only [cascadeIndices, bufOf]
  · simp
  · rcases Nat.mod_two_eq_zero_or_one n with h | h
    · have h2 : (n + 1) % 2 = 1 := by omega
      simp [h, h2]
    · have h2 : (n + 1) % 2 = 0 := by omega
      simp [h, h2]

theorem bufOf_ne (pp : Bool) (n : Nat) : bufOf pp n ≠ bufOf pp (n + 1) := by
  cases pp <;> simp [bufOf]; omega

theorem cascadeStep_ok {pp : Bool} {sizes : List Nat} {entries : Nat → Nat} {num n : Nat} {b : BufState}
    (hn : n ≤ num)
    (hs : ∀ m, m ≤ num → ∃ s, sizes[bufOf pp m]? = some s ∧ entries m ≤ s)
    (hb : n < num → b[bufOf pp (n + 1)]? = some (some (n + 1))) :
    cascadeStep pp sizes entries num n b =
      .ok (b.set (bufOf pp n) (some n), if n = num then none else some (some (n + 1))) := by
  obtain ⟨s, h1, h2⟩ := hs n hn
  have h2' : ¬ s < entries n := by omega
  by_cases he : n = num
  · simp only [cascadeStep, cascadeIndices_eq, h1, h2', if_false]
    rw [if_pos he, if_pos he]
  · obtain ⟨s', h3, h4⟩ := hs (n + 1) (by omega)
    have h4' : ¬ s' < entries (n + 1) := by omega
    have hb' := hb (by omega)
    simp only [cascadeStep, cascadeIndices_eq, h1, h2', if_false]
    rw [if_neg he, if_neg he]
    simp [h3, h4', hb']

/-- reads expected from a correct pass over cascades `k-1, ..., 0` -/
def goodReads (num : Nat) : Nat → List (Nat × Option Nat)
  | 0 => []
  | k + 1 => if k = num then goodReads num k else (k, some (k + 1)) :: goodReads num k

theorem cascadePass_ok {pp : Bool} {sizes : List Nat} {entries : Nat → Nat} {num : Nat}
    (hs : ∀ m, m ≤ num → ∃ s, sizes[bufOf pp m]? = some s ∧ entries m ≤ s) :
    ∀ (k : Nat) (b : BufState), b.length = sizes.length → k ≤ num + 1 →
      (k ≤ num → b[bufOf pp k]? = some (some k)) →
      ∃ f, cascadePass pp sizes entries num k b = .ok (f, goodReads num k) ∧
        f.length = sizes.length ∧
        (∀ n, n < k → (∀ m, m < n → bufOf pp m ≠ bufOf pp n) → f[bufOf pp n]? = some (some n)) ∧
        (∀ x, (∀ m, m < k → bufOf pp m ≠ x) → f[x]? = b[x]?)
  | 0, b, hl, _, _ => ⟨b, rfl, hl, by intro n h; omega, fun _ _ => rfl⟩
  | k + 1, b, hl, hk, hb => by
    have hstep := cascadeStep_ok (pp := pp) (entries := entries) (show k ≤ num by omega) hs
      (fun h => hb (by omega))
    obtain ⟨s, h1, _⟩ := hs k (by omega)
    have hlt : bufOf pp k < b.length := by
      rw [hl]; exact (List.getElem?_eq_some_iff.1 h1).1
    obtain ⟨f, hf, hfl, hf1, hf2⟩ := cascadePass_ok hs k (b.set (bufOf pp k) (some k)) (by simpa using hl)
      (by omega) (fun _ => by rw [List.getElem?_set_self hlt])
    refine ⟨f, ?_, hfl, ?_, ?_⟩
    · by_cases he : k = num
      · simp only [cascadePass, hstep, Outcome.ok_bind, hf, goodReads]
        simp [he]
      · simp only [cascadePass, hstep, Outcome.ok_bind, hf, goodReads]
        simp [he]
    · intro n hn hm
      rcases Nat.lt_or_ge n k with h | h
      · exact hf1 n h hm
      · have : n = k := by omega
        subst this
        rw [hf2 _ hm, List.getElem?_set_self hlt]
    · intro x hx
      rw [hf2 x (fun m hm => hx m (by omega)), List.getElem?_set_ne (hx k (by omega))]

theorem mem_goodReads {num : Nat} : ∀ {k n : Nat} {r : Option Nat}, k ≤ num + 1 →
    ((n, r) ∈ goodReads num k ↔ n < k ∧ n < num ∧ r = some (n + 1))
  | 0, n, r, _ => by simp [goodReads]
  | k + 1, n, r, hk => by
    have ih := mem_goodReads (num := num) (k := k) (n := n) (r := r) (by omega)
    simp only [goodReads]
    split
    · rw [ih]; constructor
      · rintro ⟨h1, h2, h3⟩; exact ⟨by omega, h2, h3⟩
      · rintro ⟨h1, h2, h3⟩; exact ⟨by omega, h2, h3⟩
    · rw [List.mem_cons, ih, Prod.mk.injEq]
      constructor
      · rintro (⟨h1, h2⟩ | ⟨h1, h2, h3⟩)
        · subst h1; exact ⟨by omega, by omega, h2⟩
        · exact ⟨by omega, h2, h3⟩
      · rintro ⟨h1, h2, h3⟩
        rcases Nat.lt_or_ge n k with h | h
        · right; exact ⟨h, h2, h3⟩
        · left; have : n = k := by omega
          subst this; exact ⟨rfl, h3⟩

theorem foldl_max_le (entries : Nat → Nat) (l : List Nat) (a : Nat) :
    a ≤ l.foldl (fun acc i => max acc (entries i)) a ∧
    ∀ i ∈ l, entries i ≤ l.foldl (fun acc i => max acc (entries i)) a := by
  induction l generalizing a with
  | nil => simp
  | cons x xs ih =>
    obtain ⟨h1, h2⟩ := ih (max a (entries x))
    simp only [List.foldl_cons]
    refine ⟨by omega, ?_⟩
    intro i hi
    rcases List.mem_cons.1 hi with h | h
    · subst h; omega
    · exact h2 i h

theorem bufferSizes_ok (pp : Bool) (entries : Nat → Nat) (num m : Nat) (hm : m ≤ num) :
    ∃ s, (bufferSizes pp entries num)[bufOf pp m]? = some s ∧ entries m ≤ s := by
  cases pp
  · refine ⟨entries m, ?_, Nat.le_refl _⟩
    simp [bufferSizes, bufOf, List.getElem?_range (show m < num + 1 by omega)]
  · have := (foldl_max_le entries (List.range (num + 1)) 0).2 m (by simp; omega)
    refine ⟨_, ?_, this⟩
    simp only [bufferSizes, bufOf, if_true]
    rcases Nat.mod_two_eq_zero_or_one m with h | h <;> simp [h]

theorem cornerAxis_pos {p : Int} (hp : 0 < p) : (cornerAxis p).1 = (p - 1) / 2 ∧
    (cornerAxis p).2 = 1 / 4 + 1 / 2 * ((p % 2 : Int) : ℚ) := by
  have h1 : (p - 1).tdiv 2 = (p - 1) / 2 := Int.tdiv_eq_ediv_of_nonneg (by omega)
  have h2 : p.tmod 2 = p % 2 := Int.tmod_eq_emod_of_nonneg (by omega)
  constructor
  · simp only [cornerAxis, h1]; omega
  · simp only [cornerAxis, h2]; rw [if_neg (by omega)]

theorem cornerAxis_zero : cornerAxis 0 = (0, 1) := by
  decide +kernel

/-- one-axis facts: corner range, frac range -/
theorem cornerAxis_facts {p : Int} (hp : 0 ≤ p) :
    0 ≤ (cornerAxis p).1 ∧ 2 * (cornerAxis p).1 ≤ max (p - 1) 0 ∧
    0 < (cornerAxis p).2 ∧ (cornerAxis p).2 ≤ 1 := by
  rcases eq_or_lt_of_le hp with h | h
  · subst h; rw [cornerAxis_zero]; norm_num
  · obtain ⟨h1, h2⟩ := cornerAxis_pos h
    refine ⟨by omega, by omega, ?_⟩
    rw [h2]
    rcases Int.emod_two_eq_zero_or_one p with h3 | h3 <;> rw [h3] <;> norm_num

end DexRT
