import Verif.Lemmas.Interp
/-!
# C37: table interpolation
-/
namespace DexRT
variable {K : Type} [Field K] [LinearOrder K] [IsStrictOrderedRing K]

/-- The value at `a` of the piecewise linear curve through the nodes `(x i, y i)`, extended by the end
values. -/
def PiecewiseLinear (x y : List K) (h : x.length = y.length) (a v : K) : Prop :=
  (∀ h0 : 0 < x.length, a ≤ x[0] → v = y[0]) ∧
  (∀ h0 : 0 < x.length, x[x.length - 1] ≤ a → v = y[x.length - 1]) ∧
  ∀ i (hi : i + 1 < x.length), x[i] ≤ a → a ≤ x[i + 1] →
    v = y[i] + (a - x[i]) / (x[i + 1] - x[i]) * (y[i + 1] - y[i])

omit [Field K] [IsStrictOrderedRing K] in
theorem strictly_mono {x : List K} (hx : x.Pairwise (· < ·)) {i j : Nat} (hi : i < x.length) (hj : j < x.length)
    (h : i < j) : x[i] < x[j] := List.pairwise_iff_getElem.mp hx i j hi hj h

/-- C37 (search): for every sorted table and every number the binary search terminates, reads only table
entries, and returns the number of entries not above the sample. -/
theorem C37_upper_bound (x : List K) (hx : x.Pairwise (· ≤ ·)) (a : K) :
    ∃ k, upperBound x (some a) = .ok k ∧ k ≤ x.length ∧
      (∀ i (h : i < x.length), i < k → x[i] ≤ a) ∧ (∀ i (h : i < x.length), k ≤ i → a < x[i]) :=
  ub_loop x hx a x.length 0 (by omega) (fun _ _ h => absurd h (by omega)) (fun i h hi => absurd h (by omega))

/-- C37: for every strictly increasing table of at least one point and every number, interpolation reads only
table entries and returns the piecewise linear curve: end values outside, node values at nodes. -/
theorem C37_interp_partial (x y : List K) (hl : x.length = y.length) (hx : x.Pairwise (· < ·)) (hn : 0 < x.length) (a : K) :
    ∃ v, interp (some a) x y = .ok v ∧ PiecewiseLinear x y hl a v := by
  have hlast : x.length - 1 < x.length := by omega
  have e0 : readAt x 0 = .ok x[0] := readAt_lt hn
  have el : readAt x (x.length - 1) = .ok x[x.length - 1] := readAt_lt hlast
  have y0 : readAt y 0 = .ok y[0] := readAt_lt (by omega)
  have yl : readAt y (y.length - 1) = .ok (y[x.length - 1]'(by omega)) := by
    rw [readAt_lt (by omega)]; simp only [hl]
  unfold interp
  simp only [e0, el, y0, yl, Outcome.ok_bind]
  by_cases h1 : a ≤ x[0]
  · simp only [h1, decide_true, if_true]
    refine ⟨_, rfl, fun _ _ => rfl, fun h0 hr => ?_, fun i hi h3 h4 => ?_⟩
    · -- a single node, or a contradiction
      rcases Nat.eq_zero_or_pos (x.length - 1) with h | h
      · simp only [h]
      · exact absurd (lt_of_lt_of_le (strictly_mono hx hn hlast h) (le_trans hr h1)) (lt_irrefl _)
    · rcases Nat.eq_zero_or_pos i with h | h
      · subst h
        have : a = x[0] := le_antisymm h1 h3
        rw [this]; simp
      · exact absurd (lt_of_lt_of_le (strictly_mono hx hn (by omega) h) (le_trans h3 h1)) (lt_irrefl _)
  · simp only [h1, decide_false, Bool.false_eq_true, if_false]
    by_cases h2 : x[x.length - 1] ≤ a
    · simp only [ge_iff_le, h2, decide_true, if_true]
      refine ⟨_, rfl, fun _ h => absurd h h1, fun _ _ => rfl, fun i hi h3 h4 => ?_⟩
      rcases Nat.lt_or_ge (i + 1) (x.length - 1) with h | h
      · exact absurd (lt_of_lt_of_le (strictly_mono hx (by omega) hlast h) (le_trans h2 h4)) (lt_irrefl _)
      · have hi1 : i + 1 = x.length - 1 := by omega
        have ha : a = x[i + 1] := le_antisymm h4 (by simpa only [hi1] using h2)
        have hd : x[i + 1] - x[i] ≠ 0 := by
          have := strictly_mono hx (i := i) (j := i + 1) (by omega) (by omega) (by omega)
          exact (sub_pos.mpr this).ne'
        rw [ha, div_self hd]
        simp only [← hi1]
        ring
    · simp only [ge_iff_le, h2, decide_false, Bool.false_eq_true, if_false]
      obtain ⟨k, hk, hkl, hbelow, habove⟩ := C37_upper_bound x (hx.imp le_of_lt) a
      have hk0 : 0 < k := by
        rcases Nat.eq_zero_or_pos k with h | h
        · exact absurd (habove 0 hn (by omega)).le h1
        · exact h
      have hkn : k < x.length := by
        rcases Nat.lt_or_ge k x.length with h | h
        · exact h
        · exact absurd (hbelow _ hlast (by omega)) h2
      simp only [hk, Outcome.ok_bind, readAt_lt hkn, readAt_lt (show k - 1 < x.length by omega),
        readAt_lt (show k < y.length by omega), readAt_lt (show k - 1 < y.length by omega)]
      refine ⟨_, rfl, fun _ h => absurd h h1, fun _ h => absurd h h2, fun i hi h3 h4 => ?_⟩
      have hlo := hbelow (k - 1) (by omega) (by omega)
      have hhi := habove k hkn (le_refl _)
      have hd : x[k] - x[k - 1] ≠ 0 := (sub_pos.mpr (lt_of_le_of_lt hlo hhi)).ne'
      -- either the same segment, or the sample is the node below
      rcases Nat.lt_trichotomy i (k - 1) with h | h | h
      · -- then a ≤ x[i+1] ≤ x[k-1] ≤ a, so i + 1 = k - 1
        have hik : i + 1 = k - 1 := by
          rcases Nat.lt_or_ge (i + 1) (k - 1) with h' | h'
          · exact absurd (lt_of_lt_of_le (strictly_mono hx (by omega) (by omega) h') (le_trans hlo h4)) (lt_irrefl _)
          · omega
        have ha : a = x[i + 1] := le_antisymm h4 (by simpa only [hik] using hlo)
        have hd' : x[i + 1] - x[i] ≠ 0 :=
          (sub_pos.mpr (strictly_mono hx (i := i) (j := i + 1) (by omega) (by omega) (by omega))).ne'
        have e1 : (x[k] - a) / (x[k] - x[k - 1]) = 1 := by
          have : a = x[k - 1] := by simpa only [← hik] using ha
          rw [this, div_self hd]
        rw [e1, ha, div_self hd']
        simp only [hik]
        ring
      · subst h
        have hk1 : k - 1 + 1 = k := by omega
        simp only [hk1]
        field_simp
        ring
      · exact absurd (lt_of_lt_of_le (habove i (by omega) (by omega)) h3) (lt_irrefl _)

/-- C37 (bounds): inside the table the value is between the two neighbouring nodes' values. -/
theorem C37_between (x y : List K) (hl : x.length = y.length) (hx : x.Pairwise (· < ·)) (a v : K)
    (hv : PiecewiseLinear x y hl a v) (i : Nat) (hi : i + 1 < x.length) (h1 : x[i] ≤ a) (h2 : a ≤ x[i + 1]) :
    min y[i] y[i + 1] ≤ v ∧ v ≤ max y[i] y[i + 1] := by
  rw [hv.2.2 i hi h1 h2]
  have hpos : 0 < x[i + 1] - x[i] := sub_pos.mpr (strictly_mono hx (by omega) hi (by omega))
  generalize ht : (a - x[i]) / (x[i + 1] - x[i]) = t
  have t0 : 0 ≤ t := ht ▸ div_nonneg (sub_nonneg.mpr h1) hpos.le
  have t1 : t ≤ 1 := ht ▸ (div_le_one hpos).mpr (by linarith)
  have m1 := min_le_left y[i] y[i + 1]
  have m2 := min_le_right y[i] y[i + 1]
  have m3 := le_max_left y[i] y[i + 1]
  have m4 := le_max_right y[i] y[i + 1]
  constructor <;> nlinarith

/-- C37 is **false** for a sample that is not a number: the search then returns the length of the table, and the
entry past the end is read, for every table. -/
theorem C37_refuted_nan (x y : List K) : interp none x y = .ub := by
  unfold interp
  cases h : x with
  | nil => rfl
  | cons b bs =>
    have hn : 0 < x.length := by rw [h]; simp
    rw [← h]
    simp only [readAt_lt hn, readAt_lt (show x.length - 1 < x.length by omega), Outcome.ok_bind, Bool.false_eq_true,
      if_false, upperBound, ub_loop_nan x x.length 0 (by omega)]
    have : readAt x x.length = .ub := by simp [readAt]
    rw [this]
    rfl

/-- So is an empty table. -/
theorem C37_refuted_empty (a : Option K) (y : List K) : interp a [] y = .ub := rfl

/-- Non-vacuity: a three-point table, below, at a node, inside and above. -/
example : interp (some (0 : ℚ)) [1, 2, 4] [10, 20, 0] = .ok 10 ∧ interp (some (2 : ℚ)) [1, 2, 4] [10, 20, 0] = .ok 20 ∧
    interp (some (3 : ℚ)) [1, 2, 4] [10, 20, 0] = .ok 10 ∧ interp (some (9 : ℚ)) [1, 2, 4] [10, 20, 0] = .ok 0 := by
  refine ⟨?_, ?_, ?_, ?_⟩ <;> decide +kernel

end DexRT
