import Verif.Model.Voigt
import Mathlib.Tactic.Linarith
import Mathlib.Tactic.Ring
import Mathlib.Tactic.NormNum
import Mathlib.Data.Rat.Floor
/-!
C61: the tabulated Voigt function.
-/
namespace DexRT
open Voigt
variable {K : Type} [Field K] [LinearOrder K] [IsStrictOrderedRing K] [FloorRing K]

/-- Position of `x` in units of grid steps, clamped to the grid. -/
def gridPos (l : Lin K) (x : K) : K := max 0 (min ((l.n : K) - 1) ((x - l.min) / ((l.max - l.min) / ((l.n : K) - 1))))

/-- Bilinear interpolation in the table `S`, `i + s` and `j + t` the position. -/
def bilinear (S : Nat → Nat → K) (i j : Nat) (s t : K) : K :=
  (1 - s) * ((1 - t) * S i j + t * S i (j + 1)) + s * ((1 - t) * S (i + 1) j + t * S (i + 1) (j + 1))

theorem axis_spec (l : Lin K) (x : K) (hn : 2 ≤ l.n) (h1 : -2147483648 ≤ (x - l.min) / l.step) (h2 : (x - l.min) / l.step < 2147483648) :
    ∃ (i ip : Nat) (s : K), axis l x = .ok ((i : Int), (ip : Int), 1 - s, s) ∧ i < l.n ∧ ip < l.n ∧ 0 ≤ s ∧ s < 1 ∧
      (i : K) + s = gridPos l x ∧ (s = 0 ∨ ip = i + 1) := by
  have hnk : (2 : K) ≤ (l.n : K) := by exact_mod_cast hn
  have hgp : gridPos l x = max 0 (min ((l.n : K) - 1) ((x - l.min) / l.step)) := rfl
  rw [hgp]
  unfold axis floorInt
  generalize hf : (x - l.min) / l.step = f at *
  have hfit : -2147483648 ≤ ⌊f⌋ ∧ ⌊f⌋ ≤ 2147483647 := by
    constructor
    · apply Int.le_floor.mpr; push_cast; exact h1
    · have : ⌊f⌋ < 2147483648 := Int.floor_lt.mpr (by push_cast; exact h2)
      omega
  simp only [if_pos hfit, Outcome.ok_bind]
  by_cases hlo : f < 0
  · rw [if_pos (Or.inl hlo)]
    have : ⌊f⌋ < 0 := Int.floor_lt.mpr (by push_cast; exact hlo)
    refine ⟨0, 0, 0, ?_, by omega, by omega, le_refl _, one_pos, ?_, Or.inl rfl⟩
    · rw [show min (max ⌊f⌋ 0) ((l.n : Int) - 1) = 0 by omega]
      simp
    · rw [min_eq_right (by linarith), max_eq_left hlo.le]; simp
  by_cases hhi : f ≥ (l.n : K) - 1
  · rw [if_pos (Or.inr hhi)]
    have : (l.n : Int) - 1 ≤ ⌊f⌋ := Int.le_floor.mpr (by push_cast; exact hhi)
    refine ⟨l.n - 1, l.n - 1, 0, ?_, by omega, by omega, le_refl _, one_pos, ?_, Or.inl rfl⟩
    · rw [show min (max ⌊f⌋ 0) ((l.n : Int) - 1) = ((l.n - 1 : Nat) : Int) by omega]
      simp
    · rw [min_eq_left hhi, max_eq_right (by linarith), Nat.cast_sub (by omega)]; simp
  · rw [if_neg (by push Not; exact ⟨not_lt.mp hlo, not_le.mp hhi⟩)]
    have hf0 : 0 ≤ ⌊f⌋ := Int.floor_nonneg.mpr (not_lt.mp hlo)
    have hlt : ⌊f⌋ < (l.n : Int) - 1 := Int.floor_lt.mpr (by push_cast; exact not_le.mp hhi)
    obtain ⟨i, hi⟩ := Int.eq_ofNat_of_zero_le hf0
    have hif : ((⌊f⌋ : Int) : K) = (i : K) := by rw [hi]; simp
    have e1 := Int.floor_le f
    have e2 := Int.lt_floor_add_one f
    rw [hif] at e1 e2
    refine ⟨i, i + 1, f - i, ?_, by omega, by omega, by linarith, by linarith, ?_, Or.inr rfl⟩
    · rw [hi]; simp
    · rw [min_eq_right (not_le.mp hhi).le, max_eq_right (not_lt.mp hlo)]; ring

/-- C61: for every table of at least two by two points and all arguments whose distance from the table is below 2^31 steps,
no access is out of bounds and the result is the bilinear interpolant at the position clamped to the table. -/
theorem C61_table_partial (al vl : Lin K) (S : Nat → Nat → K) (a v : K) (ha : 2 ≤ al.n) (hv : 2 ≤ vl.n)
    (a1 : -2147483648 ≤ (a - al.min) / al.step) (a2 : (a - al.min) / al.step < 2147483648)
    (v1 : -2147483648 ≤ (|v| - vl.min) / vl.step) (v2 : (|v| - vl.min) / vl.step < 2147483648) :
    ∃ i j s t, i < al.n ∧ j < vl.n ∧ 0 ≤ s ∧ s < 1 ∧ 0 ≤ t ∧ t < 1 ∧ (i : K) + s = gridPos al a ∧ (j : K) + t = gridPos vl |v| ∧
      lut al vl S a v = .ok (bilinear S i j s t) := by
  obtain ⟨i, ip, s, e1, h1, h2, h3, h4, h5, h6⟩ := axis_spec al a ha a1 a2
  obtain ⟨j, jp, t, f1, g1, g2, g3, g4, g5, g6⟩ := axis_spec vl |v| hv v1 v2
  refine ⟨i, j, s, t, h1, g1, h3, h4, g3, g4, h5, g5, ?_⟩
  have rd : ∀ p q : Nat, p < al.n → q < vl.n → sampleAt al.n vl.n S (p : Int) (q : Int) = .ok (S p q) := fun p q hp hq => by
    unfold sampleAt
    rw [if_pos (by omega)]; simp
  unfold lut
  simp only [e1, f1, Outcome.ok_bind, rd i j h1 g1, rd i jp h1 g2, rd ip j h2 g1, rd ip jp h2 g2]
  congr 1
  unfold bilinear
  rcases h6 with rfl | rfl <;> rcases g6 with rfl | rfl <;> ring

/-- C61 fails far outside: the conversion to an index overflows before the clamp. -/
theorem C61_refuted : lut (⟨0, 1, 2⟩ : Lin ℚ) ⟨0, 1, 2⟩ (fun _ _ => 0) 0 2147483648 = .ub := by
  have h : (⌊(0 : ℚ)⌋ : Int) = 0 := by simp
  have hv : |(2147483648 : ℚ)| = 2147483648 := abs_of_pos (by norm_num)
  have hfl : ⌊(2147483648 : ℚ)⌋ = 2147483648 := by
    rw [show (2147483648 : ℚ) = ((2147483648 : Int) : ℚ) by norm_num, Int.floor_intCast]
  simp [lut, axis, floorInt, Lin.step, hv]
  norm_num [hfl, hv]

/-- Non-vacuity: inside and outside a table of three by two points. -/
example : lut (⟨0, 2, 3⟩ : Lin ℚ) ⟨0, 4, 2⟩ (fun i j => 10 * i + j) (1 / 2) (-1) = .ok (21 / 4) ∧
    lut (⟨0, 2, 3⟩ : Lin ℚ) ⟨0, 4, 2⟩ (fun i j => 10 * i + j) 7 1 = .ok (81 / 4) := by
  refine ⟨by decide +kernel, by decide +kernel⟩

end DexRT
