import Verif.Spec.LineSweep
import Verif.Lemmas.VelInterp
/-! Lemmas about the lines of line sweeping: clipping and the search on both sides. -/
namespace DexRT.LineSweep
open DexRT
open DexRT.VelInterp (truncInt fits_iff)

/-- Where a line enters and leaves the slab of one axis. -/
noncomputable def ent (b : Box) (o d : Fin 2 → ℝ) (i : Fin 2) : ℝ := if 0 < d i then (b.lo i - o i) / d i else (b.hi i - o i) / d i
noncomputable def ext (b : Box) (o d : Fin 2 → ℝ) (i : Fin 2) : ℝ := if 0 < d i then (b.hi i - o i) / d i else (b.lo i - o i) / d i

noncomputable def T0 (b : Box) (o d : Fin 2 → ℝ) : ℝ := max (max 0 (ent b o d 0)) (ent b o d 1)
noncomputable def T1 (b : Box) (o d : Fin 2 → ℝ) : ℝ := min (min 1e24 (ext b o d 0)) (ext b o d 1)

theorem slab_iff (b : Box) (o d : Fin 2 → ℝ) (i : Fin 2) (hd : d i ≠ 0) (t : ℝ) :
    ((b.lo i : ℝ) ≤ o i + t * d i ∧ o i + t * d i ≤ b.hi i) ↔ ent b o d i ≤ t ∧ t ≤ ext b o d i := by
  unfold ent ext
  by_cases h : 0 < d i
  · rw [if_pos h, if_pos h, div_le_iff₀ h, le_div_iff₀ h]
    constructor <;> rintro ⟨a, c⟩ <;> constructor <;> linarith
  · have h' : d i < 0 := lt_of_le_of_ne (not_lt.1 h) hd
    rw [if_neg h, if_neg h, div_le_iff_of_neg h', le_div_iff_of_neg h']
    constructor <;> rintro ⟨a, c⟩ <;> constructor <;> linarith

theorem axisClip_eq (b : Box) (o d : Fin 2 → ℝ) (i : Fin 2) (hd : d i ≠ 0) (hb : b.lo i < b.hi i) (t : ℝ × ℝ) :
    axisClip (b.lo i) (b.hi i) (o i) (d i) t =
      (decide (max t.1 (ent b o d i) ≤ min t.2 (ext b o d i)), max t.1 (ent b o d i), min t.2 (ext b o d i)) := by
  have hbR : (b.lo i : ℝ) < b.hi i := by exact_mod_cast hb
  have hpair : (if ((b.hi i : ℝ) - o i) / d i < ((b.lo i : ℝ) - o i) / d i then
      ((((b.hi i : ℝ) - o i) / d i, ((b.lo i : ℝ) - o i) / d i) : ℝ × ℝ) else (((b.lo i : ℝ) - o i) / d i, ((b.hi i : ℝ) - o i) / d i)) =
      (ent b o d i, ext b o d i) := by
    unfold ent ext
    by_cases h : 0 < d i
    · rw [if_pos h, if_pos h, if_neg (not_lt.2 (div_le_div_of_nonneg_right (by linarith) h.le))]
    · have h' : d i < 0 := lt_of_le_of_ne (not_lt.1 h) hd
      rw [if_neg h, if_neg h, if_pos (div_lt_div_of_neg_of_lt h' (by linarith))]
  unfold axisClip
  rw [if_neg (not_le.2 hb)]
  simp only
  have hp := hpair
  have e1 : ∀ x y : ℝ, (if x < y then y else x) = max x y := fun x y => by
    split
    · exact (max_eq_right (by linarith)).symm
    · exact (max_eq_left (by linarith)).symm
  have e2 : ∀ x y : ℝ, (if y < x then y else x) = min x y := fun x y => by
    split
    · exact (min_eq_right (by linarith)).symm
    · exact (min_eq_left (by linarith)).symm
  have hp' := hpair
  simp only [e1, e2] at hp' ⊢
  by_cases hc : ((b.hi i : ℝ) - o i) / d i < ((b.lo i : ℝ) - o i) / d i
  · simp only [if_pos hc] at hp' ⊢
    rw [Prod.mk.injEq] at hp'
    rw [hp'.1, hp'.2]
  · simp only [if_neg hc] at hp' ⊢
    rw [Prod.mk.injEq] at hp'
    rw [hp'.1, hp'.2]

theorem intersects_eq (b : Box) (o d : Fin 2 → ℝ) (hd : ∀ i, d i ≠ 0) (hb : ∀ i, b.lo i < b.hi i) :
    ((intersects b d o (0, 1e24)).1 = true ↔ T0 b o d ≤ T1 b o d) ∧
    (T0 b o d ≤ T1 b o d → (intersects b d o (0, 1e24)).2 = (T0 b o d, T1 b o d)) := by
  unfold intersects
  simp only [axisClip_eq b o d 0 (hd 0) (hb 0), axisClip_eq b o d 1 (hd 1) (hb 1)]
  have key : T0 b o d ≤ T1 b o d → max 0 (ent b o d 0) ≤ min 1e24 (ext b o d 0) := fun h =>
    le_trans (le_max_left _ _) (le_trans h (min_le_left _ _))
  constructor
  · constructor
    · intro h
      split at h
      · exact of_decide_eq_true h
      · rename_i h1; exact absurd h h1
    · intro h
      rw [if_pos (decide_eq_true (key h))]
      exact decide_eq_true h
  · intro h
    rw [if_pos (decide_eq_true (key h))]
    rfl

theorem trunc_nonneg (x : ℝ) (h0 : 0 ≤ x) (h1 : x < 2147483647) : truncInt x = .ok ⌊x⌋ := by
  unfold truncInt
  have a : 0 ≤ ⌊x⌋ := Int.floor_nonneg.2 h0
  have c : ⌊x⌋ < 2147483647 := Int.floor_lt.2 (by push_cast; exact h1)
  rw [if_pos h0, if_pos ((fits_iff _).2 (by omega))]

theorem trunc_small_neg (x : ℝ) (h0 : x < 0) (h1 : -1 < x) : truncInt x = .ok 0 := by
  unfold truncInt
  have : ⌈x⌉ = 0 := by
    rw [Int.ceil_eq_iff]; push_cast; constructor <;> linarith
  have hn : ¬ (0 ≤ x) := by linarith
  rw [if_neg hn, this]
  rfl

theorem clip_none (b : Box) (o d : Fin 2 → ℝ) (step : ℝ) (hd : ∀ i, d i ≠ 0) (hb : ∀ i, b.lo i < b.hi i) (h : T1 b o d < T0 b o d) :
    clip b d step o = .ok none := by
  unfold clip
  simp only
  rw [if_neg (fun hc => absurd ((intersects_eq b o d hd hb).1.1 hc) (not_le.2 h))]

/-- What `clip` makes of a line that meets the box. -/
structure Clipped (b : Box) (o d : Fin 2 → ℝ) (step : ℝ) (l : Line) : Prop where
  o_eq : l.o = o
  t0_eq : l.t0 = T0 b o d
  t1_eq : l.t1 = T1 b o d
  first_lo : l.t0 ≤ l.first
  first_hi : l.first ≤ l.t0 + step / 2
  num_pos : 1 ≤ l.num
  last_in : l.first ≤ l.t1 → l.first + (l.num - 1) * step ≤ l.t1
  last_out : l.t1 < l.first + l.num * step

theorem clip_some (b : Box) (o d : Fin 2 → ℝ) (step : ℝ) (hd : ∀ i, d i ≠ 0) (hb : ∀ i, b.lo i < b.hi i) (hs : 2 ≤ step)
    (h : T0 b o d ≤ T1 b o d) (hT : T1 b o d < 2 ^ 30) : ∃ l, clip b d step o = .ok (some l) ∧ Clipped b o d step l := by
  have z0 : 0 ≤ T0 b o d := le_trans (le_max_left _ _) (le_max_left _ _)
  obtain ⟨a, hpair⟩ := intersects_eq b o d hd hb
  have hp := hpair h
  have tr := trunc_nonneg (T0 b o d) z0 (by norm_num at hT; linarith)
  have fl := Int.floor_le (T0 b o d)
  have fu := Int.lt_floor_add_one (T0 b o d)
  obtain ⟨first, hf⟩ : ∃ first : ℝ, first = (⌊T0 b o d⌋ : ℝ) + 1 / 2 * step := ⟨_, rfl⟩
  have hnf : ¬ (first < T0 b o d) := by rw [hf]; linarith
  obtain ⟨q, hq⟩ : ∃ q, q = (T1 b o d - first) / step := ⟨_, rfl⟩
  have hqs : q * step = T1 b o d - first := by rw [hq]; field_simp
  have q1 : q < 2 ^ 30 := by
    have : first ≥ 0 := by linarith
    by_contra hc
    push Not at hc
    nlinarith
  have hex : ∃ n : ℤ, truncInt q = .ok n ∧ 0 ≤ n ∧ n < 2147483647 ∧ (0 ≤ q → (n : ℝ) ≤ q) ∧ q < n + 1 := by
    by_cases hq0 : 0 ≤ q
    · refine ⟨⌊q⌋, trunc_nonneg q hq0 (by norm_num at q1; linarith), Int.floor_nonneg.2 hq0, Int.floor_lt.2 (by push_cast; norm_num at q1; linarith),
        fun _ => Int.floor_le q, Int.lt_floor_add_one q⟩
    · push Not at hq0
      have : -1 < q := by
        by_contra hc
        push Not at hc
        nlinarith
      exact ⟨0, trunc_small_neg q hq0 this, le_refl _, by norm_num, fun h => absurd h (not_le.2 hq0), by push_cast; linarith⟩
  obtain ⟨n, hn, n0, n1, nq, qn⟩ := hex
  refine ⟨⟨o, T0 b o d, T1 b o d, first, n + 1⟩, ?_, ?_⟩
  · unfold clip
    simp only
    rw [if_pos (a.2 h), hp]
    simp only
    rw [tr, Outcome.ok_bind, ← hf, if_neg hnf, ← hq, hn, Outcome.ok_bind, if_pos ((fits_iff _).2 (by omega))]
  · refine ⟨rfl, rfl, rfl, by simp only; linarith, by simp only; linarith, by simp only; omega, ?_, ?_⟩
    · intro hle
      simp only at hle ⊢
      have : 0 ≤ q := by rw [hq]; apply div_nonneg <;> linarith
      have := nq this
      push_cast
      nlinarith
    · simp only
      push_cast
      nlinarith

/-- The length of the part of a line in the box is concave in the position of the line. -/
theorem chord_concave (b : Box) (o o1 o2 d : Fin 2 → ℝ) (w : ℝ) (h0 : 0 ≤ w) (h1 : w ≤ 1)
    (ho : ∀ i, o i = (1 - w) * o1 i + w * o2 i) :
    min (T1 b o1 d - T0 b o1 d) (T1 b o2 d - T0 b o2 d) ≤ T1 b o d - T0 b o d := by
  have he : ∀ i, ent b o d i = (1 - w) * ent b o1 d i + w * ent b o2 d i := by
    intro i; unfold ent; rw [ho i]; split <;> ring
  have hx : ∀ i, ext b o d i = (1 - w) * ext b o1 d i + w * ext b o2 d i := by
    intro i; unfold ext; rw [ho i]; split <;> ring
  have hw : 0 ≤ 1 - w := by linarith
  have t0 : T0 b o d ≤ (1 - w) * T0 b o1 d + w * T0 b o2 d := by
    have a1 : 0 ≤ T0 b o1 d := le_trans (le_max_left _ _) (le_max_left _ _)
    have a2 : 0 ≤ T0 b o2 d := le_trans (le_max_left _ _) (le_max_left _ _)
    have b1 : ent b o1 d 0 ≤ T0 b o1 d := le_trans (le_max_right _ _) (le_max_left _ _)
    have b2 : ent b o2 d 0 ≤ T0 b o2 d := le_trans (le_max_right _ _) (le_max_left _ _)
    have c1 : ent b o1 d 1 ≤ T0 b o1 d := le_max_right _ _
    have c2 : ent b o2 d 1 ≤ T0 b o2 d := le_max_right _ _
    refine max_le (max_le (by positivity) ?_) ?_
    · rw [he 0]; exact add_le_add (mul_le_mul_of_nonneg_left b1 hw) (mul_le_mul_of_nonneg_left b2 h0)
    · rw [he 1]; exact add_le_add (mul_le_mul_of_nonneg_left c1 hw) (mul_le_mul_of_nonneg_left c2 h0)
  have t1 : (1 - w) * T1 b o1 d + w * T1 b o2 d ≤ T1 b o d := by
    have a1 : T1 b o1 d ≤ 1e24 := le_trans (min_le_left _ _) (min_le_left _ _)
    have a2 : T1 b o2 d ≤ 1e24 := le_trans (min_le_left _ _) (min_le_left _ _)
    have b1 : T1 b o1 d ≤ ext b o1 d 0 := le_trans (min_le_left _ _) (min_le_right _ _)
    have b2 : T1 b o2 d ≤ ext b o2 d 0 := le_trans (min_le_left _ _) (min_le_right _ _)
    have c1 : T1 b o1 d ≤ ext b o1 d 1 := min_le_right _ _
    have c2 : T1 b o2 d ≤ ext b o2 d 1 := min_le_right _ _
    refine le_min (le_min ?_ ?_) ?_
    · have := add_le_add (mul_le_mul_of_nonneg_left a1 hw) (mul_le_mul_of_nonneg_left a2 h0)
      linarith
    · rw [hx 0]; exact add_le_add (mul_le_mul_of_nonneg_left b1 hw) (mul_le_mul_of_nonneg_left b2 h0)
    · rw [hx 1]; exact add_le_add (mul_le_mul_of_nonneg_left c1 hw) (mul_le_mul_of_nonneg_left c2 h0)
  have hm1 := min_le_left (T1 b o1 d - T0 b o1 d) (T1 b o2 d - T0 b o2 d)
  have hm2 := min_le_right (T1 b o1 d - T0 b o1 d) (T1 b o2 d - T0 b o2 d)
  nlinarith [mul_le_mul_of_nonneg_left hm1 hw, mul_le_mul_of_nonneg_left hm2 h0]

theorem selectOrigin_eq (b : Box) (d : Fin 2 → ℝ) (hd : ∀ i, d i ≠ 0) (i : Fin 2) :
    selectOrigin d b i = if 0 < d i then (b.lo i : ℝ) else b.hi i := by
  have c0 : ∀ i, 0 < d i ∨ d i < 0 := fun i => by
    rcases lt_trichotomy (d i) 0 with h | h | h
    · exact Or.inr h
    · exact absurd h (hd i)
    · exact Or.inl h
  unfold selectOrigin
  rcases c0 0 with h0 | h0 <;> rcases c0 1 with h1 | h1
  · rw [if_pos h1.le, if_neg (by linarith)]
    fin_cases i <;> simp [h0, h1]
  · rw [if_neg (by linarith), if_pos h0.le]
    fin_cases i <;> simp [h0, not_lt.2 h1.le]
  · rw [if_pos h1.le, if_pos h0]
    fin_cases i <;> simp [h1, not_lt.2 h0.le]
  · rw [if_neg (by linarith), if_neg (by linarith)]
    fin_cases i <;> simp [not_lt.2 h0.le, not_lt.2 h1.le]

end DexRT.LineSweep
