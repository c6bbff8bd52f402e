import Verif.Model.Mipmap
import Verif.Lemmas.MultiLevel
import Mathlib.Data.List.Perm.Basic
/-! Lemmas for C35. -/
namespace DexRT

theorem countPassed_eq {ι : Type} (passed : ι → Bool) (l : List ι) :
    countPassed passed l = l.countP passed := by
  unfold countPassed
  suffices h : ∀ n, l.foldl (fun n i => if passed i then n + 1 else n) n = n + l.countP passed by
    rw [h 0, Nat.zero_add]
  induction l with
  | nil => intro n; rfl
  | cons a l ih =>
    intro n
    rw [List.foldl_cons, ih, List.countP_cons]
    split <;> omega

theorem levelLoop_spec (expected count : Nat → Nat) : ∀ n,
    (∀ l, 1 ≤ l → l ≤ n → 0 < expected l ∧ count l ≤ expected l) →
    ∃ e, levelLoop expected count n 1 = .ok e ∧ 1 ≤ e ∧ e ≤ n + 1 ∧
      (∀ l, 1 ≤ l → l < e → count l = expected l) ∧ (e ≤ n → count e < expected e) := by
  intro n
  induction n with
  | zero => intro _; exact ⟨1, rfl, by omega, by omega, fun l h1 h2 => by omega, fun h => by omega⟩
  | succ n ih =>
    intro h
    obtain ⟨e, he, h1, h2, h3, h4⟩ := ih (fun l a b => h l a (by omega))
    show ∃ e, (levelLoop expected count n 1 >>= _) = _ ∧ _
    rw [he]
    simp only [Outcome.ok_bind]
    by_cases hen : e = n + 1
    · subst hen
      obtain ⟨g1, g2⟩ := h (n + 1) (by omega) (by omega)
      rw [if_pos rfl, if_neg (by omega)]
      by_cases hc : count (n + 1) = expected (n + 1)
      · refine ⟨n + 1 + 1, by rw [hc, Nat.div_self g1], by omega, by omega, ?_, fun h => by omega⟩
        intro l a b
        by_cases hl : l = n + 1
        · rw [hl]; exact hc
        · exact h3 l a (by omega)
      · refine ⟨n + 1, by rw [Nat.div_eq_of_lt (by omega), Nat.add_zero], by omega, by omega, h3, fun _ => by omega⟩
    · rw [if_neg hen]
      exact ⟨e, rfl, h1, by omega, h3, fun _ => h4 (by omega)⟩

theorem tileIters_length (k D waves l : Nat) (hD : 0 < D) :
    (tileIters (2 ^ k) D waves l).length = mipExpected (2 ^ k) D waves l := by
  unfold tileIters mipExpected
  rw [List.length_flatMap]
  simp only [List.length_map, List.length_range, List.map_const', List.sum_replicate, smul_eq_mul]
  rw [cells_level k D l hD]

theorem mem_tileIters (B D waves l : Nat) (p : Nat × Nat) :
    p ∈ tileIters B D waves l ↔ p.1 < B ^ D / (2 ^ l) ^ D ∧ p.2 < waves := by
  unfold tileIters
  simp only [List.mem_flatMap, List.mem_range, List.mem_map]
  constructor
  · rintro ⟨a, ha, b, hb, rfl⟩; exact ⟨ha, hb⟩
  · rintro ⟨h1, h2⟩; exact ⟨p.1, h1, p.2, h2, rfl⟩

end DexRT
