import Verif.Lemmas.VelInterp
/-! Lemmas about the range of projected velocities, `compute_min_max_vel`. -/
namespace DexRT.VelInterp
open DexRT DexRT.Dir Real

theorem dot_angs (u : Fin 3 → ℝ) (th ph : ℝ) :
    dot3 u (angsToDir th ph) = u 0 * (cos ph * sin th) + u 1 * cos th + u 2 * (sin ph * sin th) := by
  simp [dot3, angsToDir]

theorem dot_angs_mu (u : Fin 3 → ℝ) (mu ph : ℝ) (h0 : -1 ≤ mu) (h1 : mu ≤ 1) :
    dot3 u (angsToDir (arccos mu) ph) = u 0 * (cos ph * √(1 - mu ^ 2)) + u 1 * mu + u 2 * (sin ph * √(1 - mu ^ 2)) := by
  rw [dot_angs, sin_arccos, cos_arccos h0 h1]

/-- The fold of the code finds a lower and an upper bound of what it looks at, and nothing beyond. -/
theorem fold_bounds (l : List ℝ) : ∀ (m : ℝ × ℝ),
    let r := l.foldl (fun m x => (min m.1 x, max m.2 x)) m
    (r.1 ≤ m.1 ∧ m.2 ≤ r.2) ∧ (∀ x ∈ l, r.1 ≤ x ∧ x ≤ r.2) ∧
    ∀ c, (∀ x ∈ l, -c ≤ x ∧ x ≤ c) → (-c ≤ m.1 → -c ≤ r.1) ∧ (m.2 ≤ c → r.2 ≤ c) := by
  induction l with
  | nil => intro m; simp
  | cons a l ih =>
    intro m
    obtain ⟨⟨h1, h2⟩, h3, h4⟩ := ih (min m.1 a, max m.2 a)
    simp only [List.foldl_cons]
    refine ⟨⟨h1.trans (min_le_left _ _), (le_max_left _ _).trans h2⟩, ?_, ?_⟩
    · intro x hx
      rcases List.mem_cons.1 hx with rfl | hx
      · exact ⟨h1.trans (min_le_right _ _), (le_max_right _ _).trans h2⟩
      · exact h3 x hx
    · intro c hc
      have h4' := h4 c (fun x hx => hc x (List.mem_cons_of_mem _ hx))
      have ha := hc a List.mem_cons_self
      exact ⟨fun h => h4'.1 (le_min h ha.1), fun h => h4'.2 (max_le h ha.2)⟩

theorem cos_le_ends (x x0 x1 : ℝ) (h0 : 0 ≤ x0) (h : x0 ≤ x) (h' : x ≤ x1) (h1 : x1 ≤ 2 * π) :
    cos x ≤ max (cos x0) (cos x1) := by
  by_cases hx : x ≤ π
  · exact (cos_le_cos_of_nonneg_of_le_pi h0 hx h).trans (le_max_left _ _)
  · push Not at hx
    have e : ∀ y, cos y = cos (2 * π - y) := fun y => by rw [cos_two_pi_sub]
    refine le_trans ?_ (le_max_right _ _)
    rw [e x, e x1]
    exact cos_le_cos_of_nonneg_of_le_pi (by linarith) (by linarith) (by linarith)

/-- The cosine of the distance from an angle outside of the range is largest at an end of the range. -/
theorem cos_le_range (p pv p0 p1 : ℝ) (h0 : 0 ≤ p0) (h : p0 ≤ p) (h' : p ≤ p1) (h1 : p1 ≤ 2 * π) (hv0 : 0 ≤ pv) (hv1 : pv ≤ 2 * π)
    (hout : ¬ (p0 ≤ pv ∧ pv ≤ p1)) : cos (p - pv) ≤ max (cos (p0 - pv)) (cos (p1 - pv)) := by
  by_cases hc : pv < p0
  · exact cos_le_ends _ _ _ (by linarith) (by linarith) (by linarith) (by linarith)
  · have : p1 < pv := by
      by_contra h2
      exact hout ⟨by linarith, by linarith⟩
    have e : ∀ y, cos (y - pv) = cos (pv - y) := fun y => by rw [← cos_neg]; ring_nf
    rw [e p, e p0, e p1, max_comm]
    exact cos_le_ends _ _ _ (by linarith) (by linarith) (by linarith) (by linarith)

/-- Angles of a velocity in the plane. -/
theorem velAngs_plane (u : Fin 3 → ℝ) (h1 : u 1 = 0) (hu : u 0 ≠ 0 ∨ u 2 ≠ 0) :
    ∃ pv, 0 ≤ pv ∧ pv < 2 * π ∧ velAngs u = (some (π / 2), some pv) ∧ u 0 = speed u * cos pv ∧ u 2 = speed u * sin pv ∧ 0 < speed u := by
  have hpos : 0 < u 0 ^ 2 + u 1 ^ 2 + u 2 ^ 2 := by
    rcases hu with h | h
    · have := sq_pos_of_ne_zero (R := ℝ) h; nlinarith [sq_nonneg (u 2)]
    · have := sq_pos_of_ne_zero (R := ℝ) h; nlinarith [sq_nonneg (u 0)]
  have hsp : 0 < speed u := Real.sqrt_pos.2 hpos
  have hsq : speed u ^ 2 = u 0 ^ 2 + u 2 ^ 2 := by
    unfold speed
    rw [Real.sq_sqrt hpos.le, h1]; ring
  obtain ⟨z, hz⟩ : ∃ z : ℂ, z = ⟨u 0 / speed u, u 2 / speed u⟩ := ⟨_, rfl⟩
  have hn : ‖z‖ = 1 := by
    have : ‖z‖ ^ 2 = 1 := by
      rw [Complex.sq_norm, Complex.normSq_apply, hz]
      simp only
      field_simp
      linarith
    nlinarith [norm_nonneg z]
  have hz0 : z ≠ 0 := by
    intro h; rw [h] at hn; simp at hn
  have hcos : cos (Complex.arg z) = u 0 / speed u := by rw [Complex.cos_arg hz0, hn, hz]; simp
  have hsin : sin (Complex.arg z) = u 2 / speed u := by rw [Complex.sin_arg, hn, hz]; simp
  have hlo := Complex.neg_pi_lt_arg z
  have hhi := Complex.arg_le_pi z
  have hpi := Real.pi_pos
  refine ⟨if Complex.arg z < 0 then Complex.arg z + 2 * π else Complex.arg z, ?_, ?_, ?_, ?_, ?_, hsp⟩
  · split <;> linarith
  · split <;> linarith
  · have hnz : ¬ (√(u 0 ^ 2 + u 1 ^ 2 + u 2 ^ 2) = 0) := ne_of_gt hsp
    unfold velAngs
    simp only [if_neg hnz]
    unfold dirToAngs
    simp only [h1, zero_div]
    rw [if_neg (by norm_num)]
    have : √(1 - (0 : ℝ) ^ 2) = 1 := by norm_num
    simp only [this, div_one, arccos_zero]
    have hq : √(u 0 ^ 2 + 0 ^ 2 + u 2 ^ 2) = speed u := by unfold speed; rw [h1]
    rw [hq, ← hz]
  · split
    · rw [cos_add_two_pi, hcos]; field_simp
    · rw [hcos]; field_simp
  · split
    · rw [sin_add_two_pi, hsin]; field_simp
    · rw [hsin]; field_simp

theorem plane_dot (u : Fin 3 → ℝ) (h1 : u 1 = 0) (pv th p : ℝ) (h0 : u 0 = speed u * cos pv) (h2 : u 2 = speed u * sin pv) :
    dot3 u (angsToDir th p) = sin th * (speed u * cos (p - pv)) := by
  rw [dot_angs, h1, cos_sub]
  nth_rw 1 [h0]
  nth_rw 1 [h2]
  ring

/-- The upper side of the search in the plane. -/
theorem plane_upper (u : Fin 3 → ℝ) (h1 : u 1 = 0) (r : AngRange) (ht0 : 0 ≤ r.theta0) (ht2 : r.theta1 ≤ π / 2)
    (hp0 : 0 ≤ r.phi0) (hp1 : r.phi1 ≤ 2 * π) (th p : ℝ) (ha : r.theta0 ≤ th) (hb : th ≤ r.theta1) (hc : r.phi0 ≤ p) (hd : p ≤ r.phi1) :
    ∃ x ∈ corners u r ++ extraTests u (velAngs u) r, dot3 u (angsToDir th p) ≤ x := by
  have hpi := Real.pi_pos
  by_cases hu : u 0 ≠ 0 ∨ u 2 ≠ 0
  swap
  · push Not at hu
    refine ⟨dot3 u (angsToDir r.theta0 r.phi0), by simp [corners], ?_⟩
    rw [dot_angs, dot_angs, hu.1, hu.2, h1]
    simp
  obtain ⟨pv, hv0, hv1, hva, e0, e2, hs⟩ := velAngs_plane u h1 hu
  have key := fun th p => plane_dot u h1 pv th p e0 e2
  have s0 : 0 ≤ sin th := sin_nonneg_of_nonneg_of_le_pi (by linarith) (by linarith)
  have sm : sin th ≤ sin r.theta1 := sin_le_sin_of_le_of_le_pi_div_two (by linarith) ht2 hb
  have sl : sin r.theta0 ≤ sin th := sin_le_sin_of_le_of_le_pi_div_two (by linarith) (by linarith) ha
  have hthv : inRange (some (π / 2)) r.theta0 r.theta1 = decide (r.theta1 = π / 2) := by
    unfold inRange
    simp only
    congr 1
    apply propext
    constructor
    · rintro ⟨_, h⟩; linarith
    · intro h; constructor <;> linarith
  by_cases hph : r.phi0 ≤ pv ∧ pv ≤ r.phi1
  · have hphb : inRange (some pv) r.phi0 r.phi1 = true := by unfold inRange; simpa using hph
    have hle : sin th * (speed u * cos (p - pv)) ≤ sin r.theta1 * (speed u * 1) := by
      have hc1 := cos_le_one (p - pv)
      calc sin th * (speed u * cos (p - pv)) ≤ sin th * (speed u * 1) :=
            mul_le_mul_of_nonneg_left (mul_le_mul_of_nonneg_left hc1 hs.le) s0
        _ ≤ _ := mul_le_mul_of_nonneg_right sm (by linarith)
    by_cases htv : r.theta1 = π / 2
    · refine ⟨dot3 u (angsToDir (π / 2) pv), ?_, ?_⟩
      · rw [hva]
        have ht' : inRange (some (π / 2)) r.theta0 r.theta1 = true := by rw [hthv]; simp [htv]
        unfold extraTests
        simp only [hphb, ht']
        simp
      · rw [key, key, sub_self, cos_zero, ← htv]; exact hle
    · refine ⟨dot3 u (angsToDir r.theta1 pv), ?_, ?_⟩
      · rw [hva]
        unfold extraTests
        simp only [hphb, hthv, htv]
        simp
      · rw [key, key, sub_self, cos_zero]; exact hle
  · have hcl := cos_le_range p pv r.phi0 r.phi1 hp0 hc hd hp1 hv0 hv1.le hph
    have fin : ∀ e, (e = r.phi0 ∨ e = r.phi1) → cos (p - pv) ≤ cos (e - pv) →
        ∃ x ∈ corners u r ++ extraTests u (velAngs u) r, dot3 u (angsToDir th p) ≤ x := by
      intro e he hce
      have step : sin th * (speed u * cos (p - pv)) ≤ sin th * (speed u * cos (e - pv)) :=
        mul_le_mul_of_nonneg_left (mul_le_mul_of_nonneg_left hce hs.le) s0
      by_cases hsgn : 0 ≤ cos (e - pv)
      · refine ⟨dot3 u (angsToDir r.theta1 e), ?_, ?_⟩
        · rcases he with rfl | rfl <;> simp [corners]
        · rw [key, key]
          exact step.trans (mul_le_mul_of_nonneg_right sm (by positivity))
      · push Not at hsgn
        refine ⟨dot3 u (angsToDir r.theta0 e), ?_, ?_⟩
        · rcases he with rfl | rfl <;> simp [corners]
        · rw [key, key]
          refine step.trans ?_
          have : speed u * cos (e - pv) ≤ 0 := mul_nonpos_of_nonneg_of_nonpos hs.le hsgn.le
          nlinarith
    rcases le_max_iff.1 hcl with h | h
    · exact fin _ (Or.inl rfl) h
    · exact fin _ (Or.inr rfl) h

theorem dot_neg (u d : Fin 3 → ℝ) : dot3 (fun i => - u i) d = - dot3 u d := by unfold dot3; ring

theorem corners_neg (u : Fin 3 → ℝ) (r : AngRange) : corners (fun i => - u i) r = (corners u r).map fun x => -x := by
  simp [corners, dot_neg]

theorem extra_neg (u : Fin 3 → ℝ) (a : Option ℝ × Option ℝ) (r : AngRange) :
    extraTests (fun i => - u i) a r = (extraTests u a r).map fun x => -x := by
  unfold extraTests
  simp only [dot_neg]
  split
  · simp
  · split
    · simp
    · split <;> simp

theorem opp_eq (u : Fin 3 → ℝ) : oppAngs u = velAngs fun i => - u i := by
  unfold oppAngs velAngs
  simp only [neg_sq]
  simp only [neg_div]

/-- Both sides in the plane. -/
theorem plane_both (u : Fin 3 → ℝ) (h1 : u 1 = 0) (r : AngRange) (ht0 : 0 ≤ r.theta0) (ht2 : r.theta1 ≤ π / 2)
    (hp0 : 0 ≤ r.phi0) (hp1 : r.phi1 ≤ 2 * π) (th p : ℝ) (ha : r.theta0 ≤ th) (hb : th ≤ r.theta1) (hc : r.phi0 ≤ p) (hd : p ≤ r.phi1) :
    (∃ x ∈ corners u r ++ extraTests u (velAngs u) r ++ extraTests u (oppAngs u) r, dot3 u (angsToDir th p) ≤ x) ∧
    (∃ x ∈ corners u r ++ extraTests u (velAngs u) r ++ extraTests u (oppAngs u) r, x ≤ dot3 u (angsToDir th p)) := by
  constructor
  · obtain ⟨x, hx, h⟩ := plane_upper u h1 r ht0 ht2 hp0 hp1 th p ha hb hc hd
    exact ⟨x, List.mem_append_left _ hx, h⟩
  · obtain ⟨x, hx, h⟩ := plane_upper (fun i => - u i) (by simp [h1]) r ht0 ht2 hp0 hp1 th p ha hb hc hd
    rw [dot_neg] at h
    rw [corners_neg, extra_neg, ← opp_eq] at hx
    refine ⟨-x, ?_, by linarith⟩
    rcases List.mem_append.1 hx with hx | hx
    · obtain ⟨y, hy, rfl⟩ := List.mem_map.1 hx
      rw [neg_neg]
      exact List.mem_append_left _ (List.mem_append_left _ hy)
    · obtain ⟨y, hy, rfl⟩ := List.mem_map.1 hx
      rw [neg_neg]
      exact List.mem_append_right _ hy

/-- A projection is at most the speed. -/
theorem dot_le_speed (u : Fin 3 → ℝ) (th p : ℝ) : |dot3 u (angsToDir th p)| ≤ speed u := by
  apply Real.abs_le_sqrt
  rw [dot_angs]
  have hp := Real.sin_sq_add_cos_sq p
  have ht := Real.sin_sq_add_cos_sq th
  have hd : (cos p * sin th) ^ 2 + cos th ^ 2 + (sin p * sin th) ^ 2 = 1 := by
    have : (cos p * sin th) ^ 2 + cos th ^ 2 + (sin p * sin th) ^ 2 = (sin p ^ 2 + cos p ^ 2) * sin th ^ 2 + cos th ^ 2 := by ring
    rw [this, hp]; linarith
  obtain ⟨x, hx⟩ : ∃ x, x = cos p * sin th := ⟨_, rfl⟩
  obtain ⟨y, hy⟩ : ∃ y, y = cos th := ⟨_, rfl⟩
  obtain ⟨z, hz⟩ : ∃ z, z = sin p * sin th := ⟨_, rfl⟩
  rw [← hx, ← hy, ← hz] at hd
  rw [← hx, ← hy, ← hz]
  have : (u 0 ^ 2 + u 1 ^ 2 + u 2 ^ 2) * (x ^ 2 + y ^ 2 + z ^ 2) - (u 0 * x + u 1 * y + u 2 * z) ^ 2 =
    (u 0 * y - u 1 * x) ^ 2 + (u 0 * z - u 2 * x) ^ 2 + (u 1 * z - u 2 * y) ^ 2 := by ring
  rw [hd, mul_one] at this
  nlinarith [sq_nonneg (u 0 * y - u 1 * x), sq_nonneg (u 0 * z - u 2 * x), sq_nonneg (u 1 * z - u 2 * y)]

theorem tested_le_speed (u : Fin 3 → ℝ) (nd : ℕ) (mf ml : ℝ) (start num : ℕ) :
    ∀ x ∈ tested u nd mf ml start num, -speed u ≤ x ∧ x ≤ speed u := by
  intro x hx
  rw [← abs_le]
  unfold tested at hx
  obtain ⟨i, _, hx⟩ := List.mem_flatMap.1 hx
  simp only at hx
  have hc : ∀ r, ∀ y ∈ corners u r, |y| ≤ speed u := by
    intro r y hy
    simp only [corners, List.mem_cons, List.not_mem_nil, or_false] at hy
    rcases hy with rfl | rfl | rfl | rfl <;> exact dot_le_speed _ _ _
  have he : ∀ a r, ∀ y ∈ extraTests u a r, |y| ≤ speed u := by
    intro a r y hy
    unfold extraTests at hy
    simp only at hy
    split at hy
    · simp only [List.mem_singleton] at hy; subst hy; exact dot_le_speed _ _ _
    · split at hy
      · simp only [List.mem_cons, List.not_mem_nil, or_false] at hy
        rcases hy with rfl | rfl <;> exact dot_le_speed _ _ _
      · split at hy
        · simp only [List.mem_cons, List.not_mem_nil, or_false] at hy
          rcases hy with rfl | rfl <;> exact dot_le_speed _ _ _
        · simp at hy
  rcases List.mem_append.1 hx with hx | hx
  · rcases List.mem_append.1 hx with hx | hx
    · exact hc _ x hx
    · exact he _ _ x hx
  · exact he _ _ x hx

theorem inRange_false (a lo hi : ℝ) (h : ¬ (lo ≤ a ∧ a ≤ hi)) : inRange (some a) lo hi = false := by
  simp only [inRange, decide_eq_false_iff_not]
  exact h

end DexRT.VelInterp
