import Verif.Model.Ray
import Verif.Spec.Ray
import Mathlib.Tactic.Linarith
import Mathlib.Tactic.Ring
import Mathlib.Tactic.FieldSimp
import Mathlib.Tactic.NormNum
import Mathlib.Tactic.Positivity
import Mathlib.Tactic.LinearCombination
/-! Lemmas on the ray tracers. -/
namespace DexRT
namespace Ray
open Boundary (V3)

theorem reduce_max (c p q : ℝ) :
    reduce4 max (-p + q + c) (p + q + c) (-p - q + c) (p - q + c) = |p| + |q| + c := by
  unfold reduce4
  apply le_antisymm
  · simp only [max_le_iff]
    have h1 := le_abs_self p; have h2 := neg_le_abs p; have h3 := le_abs_self q; have h4 := neg_le_abs q
    refine ⟨⟨⟨?_, ?_⟩, ?_⟩, ?_⟩ <;> linarith
  · rcases le_total 0 p with hp | hp <;> rcases le_total 0 q with hq | hq
    · rw [abs_of_nonneg hp, abs_of_nonneg hq]
      exact le_max_of_le_left (le_max_of_le_left (le_max_right _ _))
    · rw [abs_of_nonneg hp, abs_of_nonpos hq, ← sub_eq_add_neg]
      exact le_max_right _ _
    · rw [abs_of_nonpos hp, abs_of_nonneg hq]
      exact le_max_of_le_left (le_max_of_le_left (le_max_left _ _))
    · rw [abs_of_nonpos hp, abs_of_nonpos hq, ← sub_eq_add_neg]
      exact le_max_of_le_left (le_max_right _ _)

theorem reduce_min (c p q : ℝ) :
    reduce4 min (-p + q + c) (p + q + c) (-p - q + c) (p - q + c) = -(|p| + |q|) + c := by
  unfold reduce4
  apply le_antisymm
  · rcases le_total 0 p with hp | hp <;> rcases le_total 0 q with hq | hq
    · rw [abs_of_nonneg hp, abs_of_nonneg hq, neg_add, ← sub_eq_add_neg]
      exact min_le_of_left_le (min_le_right _ _)
    · rw [abs_of_nonneg hp, abs_of_nonpos hq, neg_add, neg_neg]
      exact min_le_of_left_le (min_le_of_left_le (min_le_left _ _))
    · rw [abs_of_nonpos hp, abs_of_nonneg hq, neg_add, neg_neg, ← sub_eq_add_neg]
      exact min_le_right _ _
    · rw [abs_of_nonpos hp, abs_of_nonpos hq, neg_add, neg_neg, neg_neg]
      exact min_le_of_left_le (min_le_of_left_le (min_le_right _ _))
  · simp only [le_min_iff]
    have h1 := le_abs_self p; have h2 := neg_le_abs p; have h3 := le_abs_self q; have h4 := neg_le_abs q
    refine ⟨⟨⟨?_, ?_⟩, ?_⟩, ?_⟩ <;> linarith

theorem norm_pos' (a b : ℝ) (h : a ≠ 0 ∨ b ≠ 0) : 0 < Real.sqrt (b ^ 2 + a ^ 2) := by
  apply Real.sqrt_pos.mpr
  rcases h with h | h
  · have := sq_pos_of_ne_zero h; have := sq_nonneg b; linarith
  · have := sq_pos_of_ne_zero h; have := sq_nonneg a; linarith

/-- The unit vector towards the observer in the x-z plane. -/
noncomputable def los (mux muz : ℝ) : V2 := ⟨mux / Real.sqrt (muz ^ 2 + mux ^ 2), muz / Real.sqrt (muz ^ 2 + mux ^ 2)⟩

theorem los_unit (mux muz : ℝ) (h : mux ≠ 0 ∨ muz ≠ 0) : (los mux muz).x ^ 2 + (los mux muz).z ^ 2 = 1 := by
  have hp := norm_pos' mux muz h
  have hs : Real.sqrt (muz ^ 2 + mux ^ 2) ^ 2 = muz ^ 2 + mux ^ 2 := Real.sq_sqrt (by positivity)
  unfold los
  simp only [div_pow]
  rw [← add_div, hs, add_comm, div_self]
  rw [← hs]; positivity

theorem angle_cos_sin (x z : ℝ) (neg : Bool) (h : x ^ 2 + z ^ 2 = 1) :
    Real.cos (Real.arccos z * copysign1 x neg) = z ∧ Real.sin (Real.arccos z * copysign1 x neg) = x := by
  have hz1 : -1 ≤ z := by nlinarith [sq_nonneg x]
  have hz2 : z ≤ 1 := by nlinarith [sq_nonneg x]
  have hs : Real.sin (Real.arccos z) = |x| := by
    rw [Real.sin_arccos, show 1 - z ^ 2 = x ^ 2 by linarith, Real.sqrt_sq_eq_abs]
  unfold copysign1
  by_cases hc : x < 0 ∨ (x = 0 ∧ neg = true)
  · rw [if_pos hc, mul_neg_one, Real.cos_neg, Real.sin_neg, Real.cos_arccos hz1 hz2, hs]
    refine ⟨rfl, ?_⟩
    have : x ≤ 0 := by rcases hc with h | h; exact h.le; exact h.1.le
    rw [abs_of_nonpos this]; ring
  · rw [if_neg hc, mul_one, Real.cos_arccos hz1 hz2, hs]
    refine ⟨rfl, ?_⟩
    have : 0 ≤ x := by
      by_contra h'
      exact hc (Or.inl (not_le.mp h'))
    rw [abs_of_nonneg this]

/-- Half width of the image plane. -/
noncomputable def halfW (nx nz : ℕ) (m : V2) : ℝ := |m.z| * (nx / 2) + |m.x| * (nz / 2) + 1
/-- Height of the image plane above the centre. -/
noncomputable def height (nx nz : ℕ) (m : V2) : ℝ := |m.x| * (nx / 2) + |m.z| * (nz / 2) + 1

theorem imagePlane_eq (nx nz : ℕ) (mux muz : ℝ) (neg : Bool) (h : mux ≠ 0 ∨ muz ≠ 0) :
    let m := los mux muz
    imagePlane nx nz mux muz neg =
      (⟨nx / 2 - halfW nx nz m * m.z + height nx nz m * m.x, nz / 2 + halfW nx nz m * m.x + height nx nz m * m.z⟩,
       ⟨nx / 2 + halfW nx nz m * m.z + height nx nz m * m.x, nz / 2 - halfW nx nz m * m.x + height nx nz m * m.z⟩) := by
  intro m
  have hu := los_unit mux muz h
  obtain ⟨hc, hs⟩ := angle_cos_sin m.x m.z neg hu
  unfold imagePlane
  simp only
  have e1 : muz / Real.sqrt (muz ^ 2 + mux ^ 2) = m.z := rfl
  have e2 : mux / Real.sqrt (muz ^ 2 + mux ^ 2) = m.x := rfl
  rw [e1, e2, Real.cos_neg, Real.sin_neg, hc, hs]
  have hnx : (0 : ℝ) ≤ nx := Nat.cast_nonneg nx
  have hnz : (0 : ℝ) ≤ nz := Nat.cast_nonneg nz
  generalize hx : m.x = a at *
  generalize hz : m.z = b at *
  simp only [rotate]
  have r1 := reduce_max (1 / 2 * (0 + (nx : ℝ))) (b * (nx / 2)) (a * (nz / 2))
  have r2 := reduce_min (1 / 2 * (0 + (nx : ℝ))) (b * (nx / 2)) (a * (nz / 2))
  have r3 := reduce_max (1 / 2 * (0 + (nz : ℝ))) (a * (nx / 2)) (-(b * (nz / 2)))
  rw [abs_mul, abs_mul, abs_of_nonneg (by positivity : (0 : ℝ) ≤ nx / 2), abs_of_nonneg (by positivity : (0 : ℝ) ≤ nz / 2)] at r1 r2
  rw [abs_neg, abs_mul, abs_mul, abs_of_nonneg (by positivity : (0 : ℝ) ≤ nx / 2), abs_of_nonneg (by positivity : (0 : ℝ) ≤ nz / 2)] at r3
  have q1 : b * (0 - 1 / 2 * (0 + (nx : ℝ))) + -a * (0 - 1 / 2 * (0 + (nz : ℝ))) + 1 / 2 * (0 + (nx : ℝ)) = -(b * (nx / 2)) + a * (nz / 2) + 1 / 2 * (0 + (nx : ℝ)) := by ring
  have q2 : b * ((nx : ℝ) - 1 / 2 * (0 + (nx : ℝ))) + -a * (0 - 1 / 2 * (0 + (nz : ℝ))) + 1 / 2 * (0 + (nx : ℝ)) = (b * (nx / 2)) + a * (nz / 2) + 1 / 2 * (0 + (nx : ℝ)) := by ring
  have q3 : b * (0 - 1 / 2 * (0 + (nx : ℝ))) + -a * ((nz : ℝ) - 1 / 2 * (0 + (nz : ℝ))) + 1 / 2 * (0 + (nx : ℝ)) = -(b * (nx / 2)) - a * (nz / 2) + 1 / 2 * (0 + (nx : ℝ)) := by ring
  have q4 : b * ((nx : ℝ) - 1 / 2 * (0 + (nx : ℝ))) + -a * ((nz : ℝ) - 1 / 2 * (0 + (nz : ℝ))) + 1 / 2 * (0 + (nx : ℝ)) = (b * (nx / 2)) - a * (nz / 2) + 1 / 2 * (0 + (nx : ℝ)) := by ring
  have p1 : a * (0 - 1 / 2 * (0 + (nx : ℝ))) + b * (0 - 1 / 2 * (0 + (nz : ℝ))) + 1 / 2 * (0 + (nz : ℝ)) = -(a * (nx / 2)) + -(b * (nz / 2)) + 1 / 2 * (0 + (nz : ℝ)) := by ring
  have p2 : a * ((nx : ℝ) - 1 / 2 * (0 + (nx : ℝ))) + b * (0 - 1 / 2 * (0 + (nz : ℝ))) + 1 / 2 * (0 + (nz : ℝ)) = (a * (nx / 2)) + -(b * (nz / 2)) + 1 / 2 * (0 + (nz : ℝ)) := by ring
  have p3 : a * (0 - 1 / 2 * (0 + (nx : ℝ))) + b * ((nz : ℝ) - 1 / 2 * (0 + (nz : ℝ))) + 1 / 2 * (0 + (nz : ℝ)) = -(a * (nx / 2)) - -(b * (nz / 2)) + 1 / 2 * (0 + (nz : ℝ)) := by ring
  have p4 : a * ((nx : ℝ) - 1 / 2 * (0 + (nx : ℝ))) + b * ((nz : ℝ) - 1 / 2 * (0 + (nz : ℝ))) + 1 / 2 * (0 + (nz : ℝ)) = (a * (nx / 2)) - -(b * (nz / 2)) + 1 / 2 * (0 + (nz : ℝ)) := by ring
  rw [q1, q2, q3, q4, p1, p2, p3, p4, r1, r2, r3]
  simp only [halfW, height, Prod.mk.injEq, V2.mk.injEq, hx, hz]
  refine ⟨⟨?_, ?_⟩, ⟨?_, ?_⟩⟩ <;> ring

theorem halfW_pos (nx nz : ℕ) (m : V2) : 1 ≤ halfW nx nz m := by
  unfold halfW
  have h1 : (0 : ℝ) ≤ |m.z| * (nx / 2) := by positivity
  have h2 : (0 : ℝ) ≤ |m.x| * (nz / 2) := by positivity
  linarith

theorem segLength_eq (nx nz : ℕ) (mux muz : ℝ) (neg : Bool) (h : mux ≠ 0 ∨ muz ≠ 0) :
    segLength (imagePlane nx nz mux muz neg) = 2 * halfW nx nz (los mux muz) := by
  have hu := los_unit mux muz h
  rw [imagePlane_eq nx nz mux muz neg h]
  unfold segLength
  simp only
  have hw := halfW_pos nx nz (los mux muz)
  rw [Real.sqrt_eq_iff_mul_self_eq (by positivity) (by linarith)]
  linear_combination 4 * halfW nx nz (los mux muz) ^ 2 * hu

theorem startRot_eq (nx nz : ℕ) (mux muz : ℝ) (neg : Bool) (h : mux ≠ 0 ∨ muz ≠ 0) (i : ℕ) :
    let m := los mux muz
    startRot nx nz mux muz neg i =
      ⟨nx / 2 + (-halfW nx nz m + 1 / 2 + i) * m.z + height nx nz m * m.x,
       nz / 2 - (-halfW nx nz m + 1 / 2 + i) * m.x + height nx nz m * m.z⟩ := by
  intro m
  have hw := halfW_pos nx nz m
  unfold startRot
  simp only [segLength_eq nx nz mux muz neg h]
  simp only [imagePlane_eq nx nz mux muz neg h]
  have hne : 2 * halfW nx nz m ≠ 0 := by linarith
  change _ = (⟨nx / 2 + (-halfW nx nz m + 1 / 2 + i) * m.z + height nx nz m * m.x,
       nz / 2 - (-halfW nx nz m + 1 / 2 + i) * m.x + height nx nz m * m.z⟩ : V2)
  simp only [show los mux muz = m from rfl]
  have q1 : (nx / 2 + halfW nx nz m * m.z + height nx nz m * m.x - (nx / 2 - halfW nx nz m * m.z + height nx nz m * m.x)) /
        (2 * halfW nx nz m) = m.z := by
    rw [div_eq_iff hne]; ring
  have q2 : (nz / 2 - halfW nx nz m * m.x + height nx nz m * m.z - (nz / 2 + halfW nx nz m * m.x + height nx nz m * m.z)) /
        (2 * halfW nx nz m) = -m.x := by
    rw [div_eq_iff hne]; ring
  rw [q1, q2, V2.mk.injEq]
  constructor <;> ring

theorem numRaysRot_eq (nx nz : ℕ) (mux muz : ℝ) (neg : Bool) (h : mux ≠ 0 ∨ muz ≠ 0) :
    numRaysRot nx nz mux muz neg = ⌈2 * halfW nx nz (los mux muz)⌉₊ := by
  unfold numRaysRot; rw [segLength_eq nx nz mux muz neg h]

theorem flatMu_viewMu (mux muz : ℝ) (h : mux ≠ 0 ∨ muz ≠ 0) :
    flatMu (viewMu mux muz) = ⟨-(los mux muz).x, -(los mux muz).z⟩ := by
  have hp := norm_pos' mux muz h
  have hsq : Real.sqrt (muz ^ 2 + mux ^ 2) ^ 2 = muz ^ 2 + mux ^ 2 := Real.sq_sqrt (by positivity)
  unfold viewMu los
  simp only
  by_cases hc : (-mux) ^ 2 + (-muz) ^ 2 ≥ 1
  · rw [if_pos hc]
    unfold flatMu
    simp only
    set n := (-mux) ^ 2 + (-muz) ^ 2 with hn
    have hn0 : 0 < n := by linarith
    have e : Real.sqrt ((-mux / n) ^ 2 + (-muz / n) ^ 2) = Real.sqrt (muz ^ 2 + mux ^ 2) / n := by
      rw [div_pow, div_pow, ← add_div, Real.sqrt_div (by positivity), Real.sqrt_sq hn0.le]
      congr 2; ring
    rw [e, V2.mk.injEq]
    constructor <;> field_simp
  · rw [if_neg hc]
    unfold flatMu
    simp only
    rw [show (-mux) ^ 2 + (-muz) ^ 2 = muz ^ 2 + mux ^ 2 by ring, neg_div, neg_div]

end Ray
end DexRT
