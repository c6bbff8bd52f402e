import Verif.Lemmas.DdaCell
namespace DexRT
open Classical

variable {dim : DdaDim}

/-- What holds while `init` walks into the grid, for a ray that is inside the grid (away from its rim). -/
structure Walk (e : DdaEnv dim) (r : DdaRay dim) (sz : ℤ) (s : Dda dim) : Prop where
  size : s.size = sz
  t0 : 0 ≤ s.t
  mult : ∀ i, sz ∣ s.coord i
  still : ∀ i, r.d i = 0 → s.nextHit i = 1e24 ∧ 0 ≤ s.coord i ∧ s.coord i < e.max i
  near : ∀ i, r.d i ≠ 0 → |s.nextHit i - exitTime r s.coord sz i| ≤ 8e-6
  pos : ∀ i, 0 ≤ s.nextHit i
  entry : ∀ i, r.d i ≠ 0 → exitTime r s.coord sz i - (sz : ℝ) * r.deltaOf i ≤ 2e-5

/-- axes other than the given one are untouched or far away -/
def Fresh (r : DdaRay dim) (sz : ℤ) (s : Dda dim) (ax : Option (Fin dim.n)) : Prop :=
  ∀ i, some i ≠ ax → r.d i ≠ 0 → s.nextHit i = exitTime r s.coord sz i - 1e-6 ∨ 1 / 2 ≤ s.nextHit i

/-- number of axes whose face is near -/
noncomputable def nearCount (s : Dda dim) : ℕ := (Finset.univ.filter fun i => s.nextHit i < 1 / 2).card

theorem deltaOf_ge_one (r : DdaRay dim) (i : Fin dim.n) (h0 : r.d i ≠ 0) (h1 : |r.d i| ≤ 1) : 1 ≤ r.deltaOf i := by
  rw [deltaOf_abs, le_div_iff₀ (abs_pos.2 h0)]; linarith

theorem Walk.inBounds {e : DdaEnv dim} {r : DdaRay dim} {sz : ℤ} {s : Dda dim} (h : Walk e r sz s) (hsz : 1 ≤ sz)
    (hd : ∀ i, |r.d i| ≤ 1) (ho : ∀ i, 1e-4 ≤ r.o i ∧ r.o i ≤ e.max i - 1e-4) : e.inBounds s.coord := by
  intro i
  by_cases h0 : r.d i = 0
  · exact (h.still i h0).2
  · have hn := abs_le.1 (h.near i h0)
    have hp := h.pos i
    have he := h.entry i h0
    obtain ⟨o1, o2⟩ := ho i
    obtain ⟨d1, d2⟩ := abs_le.1 (hd i)
    have hex : -8e-6 ≤ exitTime r s.coord sz i := by linarith
    have key : ∀ c : ℤ, sz ∣ c → 0 < (c : ℝ) + sz → 0 ≤ c := by
      intro c ⟨k, hk⟩ hpos
      have hpos' : 0 < c + sz := by exact_mod_cast hpos
      rw [hk] at hpos' ⊢
      have : 0 < sz * (k + 1) := by linarith [mul_add sz k 1]
      have : 0 < k + 1 := (mul_pos_iff_of_pos_left (by omega : 0 < sz)).1 this
      exact mul_nonneg (by omega) (by omega)
    unfold exitTime at hex he
    rcases lt_or_gt_of_ne h0 with hneg | hpos
    · rw [if_neg (not_lt.2 hneg.le)] at hex he
      rw [deltaOf_abs, abs_of_neg hneg] at he
      have hex' : (s.coord i : ℝ) + 0 - r.o i ≤ -8e-6 * r.d i := (le_div_iff_of_neg hneg).1 hex
      have e2 : ((s.coord i : ℝ) + 0 - r.o i) / r.d i - (sz : ℝ) * (1 / -r.d i) = ((s.coord i : ℝ) + sz - r.o i) / r.d i := by
        field_simp; ring
      rw [e2] at he
      have he' : 2e-5 * r.d i ≤ (s.coord i : ℝ) + sz - r.o i := (div_le_iff_of_neg hneg).1 he
      refine ⟨key _ (h.mult i) (by nlinarith), ?_⟩
      have : (s.coord i : ℝ) < e.max i := by nlinarith
      exact_mod_cast this
    · rw [if_pos hpos] at hex he
      rw [deltaOf_abs, abs_of_pos hpos] at he
      have hex' : -8e-6 * r.d i ≤ (s.coord i : ℝ) + sz - r.o i := (le_div_iff₀ hpos).1 hex
      have e2 : ((s.coord i : ℝ) + sz - r.o i) / r.d i - (sz : ℝ) * (1 / r.d i) = ((s.coord i : ℝ) - r.o i) / r.d i := by
        field_simp; ring
      rw [e2] at he
      have he' : (s.coord i : ℝ) - r.o i ≤ 2e-5 * r.d i := (div_le_iff₀ hpos).1 he
      refine ⟨key _ (h.mult i) (by nlinarith), ?_⟩
      have : (s.coord i : ℝ) < e.max i := by nlinarith
      exact_mod_cast this

theorem dim_pos : ∀ dim : DdaDim, 0 < dim.n ∧ dim.n ≤ 3
  | .two => by decide
  | .three => by decide

/-- `compute_axis_and_dt` keeps the invariant; only the picked axis may change. -/
theorem Walk.compute {e : DdaEnv dim} {r : DdaRay dim} {sz : ℤ} {s : Dda dim} (h : Walk e r sz s) (hf : Fresh r sz s none)
    (ht : s.t ≤ 3e-6) :
    Walk e r sz (computeAxisDt r s) ∧ Fresh r sz (computeAxisDt r s) (some (computeAxisDt r s).axis) ∧
      nearCount (computeAxisDt r s) = nearCount s ∧
      (∀ i, (computeAxisDt r s).nextHit (computeAxisDt r s).axis ≤ (computeAxisDt r s).nextHit i ∨
        ((computeAxisDt r s).nextHit (computeAxisDt r s).axis < 1 / 2)) := by
  set ax := pickAxis dim s.nextHit with hax
  have hle := pickAxis_le dim s.nextHit
  have hA : (computeAxisDt r s).axis = ax := rfl
  have hN : (computeAxisDt r s).nextHit = if s.nextHit ax ≤ s.t then Function.update s.nextHit ax (pushHit s.t (s.nextHit ax)) else s.nextHit := rfl
  by_cases hp : s.nextHit ax ≤ s.t
  · rw [if_pos hp] at hN
    have hmove : r.d ax ≠ 0 := by
      intro h0
      have := (h.still ax h0).1
      rw [this] at hp
      have : (1e24 : ℝ) ≤ 3e-6 := le_trans hp ht
      norm_num at this
    have h0 := h.pos ax
    have hpv : pushHit s.t (s.nextHit ax) = s.t + 1e-6 * (s.nextHit ax + 1) := pushHit_eq _ _
    have hfr : s.nextHit ax = exitTime r s.coord sz ax - 1e-6 := by
      rcases hf ax (by simp) hmove with h1 | h1
      · exact h1
      · linarith
    have hn : ∀ i, (computeAxisDt r s).nextHit i = if i = ax then s.t + 1e-6 * (s.nextHit ax + 1) else s.nextHit i := by
      intro i; rw [hN]; by_cases hi : i = ax
      · subst hi; rw [Function.update_self, if_pos rfl, hpv]
      · rw [Function.update_of_ne hi, if_neg hi]
    refine ⟨⟨h.size, h.t0, h.mult, ?_, ?_, ?_, h.entry⟩, ?_, ?_, ?_⟩
    · intro i hi
      refine ⟨?_, (h.still i hi).2⟩
      rw [hn i, if_neg (by intro hia; subst hia; exact hmove hi)]
      exact (h.still i hi).1
    · intro i hi
      rw [hn i]
      show |_ - exitTime r s.coord sz i| ≤ _
      split
      · rename_i hia; subst hia
        have ht0 := h.t0
        rw [abs_le]; constructor <;> linarith
      · exact h.near i hi
    · intro i
      rw [hn i]
      split
      · have := h.t0; linarith
      · exact h.pos i
    · intro i hi hm
      have hia : i ≠ ax := by intro hh; apply hi; rw [hA, hh]
      rw [hn i, if_neg hia]
      exact hf i (by simp) hm
    · unfold nearCount
      congr 1
      ext i
      simp only [Finset.mem_filter, Finset.mem_univ, true_and]
      rw [hn i]
      split
      · rename_i hia; subst hia
        constructor <;> intro _ <;> linarith
      · rfl
    · intro i
      right
      rw [hA, hn ax, if_pos rfl]
      linarith
  · rw [if_neg hp] at hN
    have hn : ∀ i, (computeAxisDt r s).nextHit i = s.nextHit i := by intro i; rw [hN]
    refine ⟨⟨h.size, h.t0, h.mult, ?_, ?_, ?_, h.entry⟩, ?_, ?_, ?_⟩
    · intro i hi; rw [hn]; exact h.still i hi
    · intro i hi; rw [hn]; exact h.near i hi
    · intro i; rw [hn]; exact h.pos i
    · intro i _ hm; rw [hn]; exact hf i (by simp) hm
    · unfold nearCount; rw [hN]
    · intro i; left; rw [hn, hn]; exact hle i

/-- the length of a step near the start -/
theorem dt_small (r : DdaRay dim) (s : Dda dim) (hi : DdaInv r s) (ht1 : 1e-4 ≤ r.t1) (ht : s.t ≤ 3e-6)
    (hdt : s.dt < 1e-6) : s.nextHit s.axis < s.t + 1e-6 := by
  rw [hi.dteq] at hdt
  have := (max_lt_iff.1 hdt).1
  split at this
  · linarith
  · linarith

theorem walk_succeeds (e : DdaEnv dim) (r : DdaRay dim) (sz : ℤ) (hsz : 1 ≤ sz) (ht1 : 1e-4 ≤ r.t1)
    (hd : ∀ i, |r.d i| ≤ 1) (ho : ∀ i, 1e-4 ≤ r.o i ∧ r.o i ≤ e.max i - 1e-4) :
    ∀ (j fuel : ℕ) (s : Dda dim), Walk e r sz s → Fresh r sz s (some s.axis) → DdaInv r s → nearCount s ≤ j → j ≤ fuel →
      (∀ i, s.nextHit s.axis ≤ s.nextHit i ∨ s.nextHit s.axis < 1 / 2) →
      j ≤ 3 → s.t ≤ (3 - (j : ℝ)) * 1e-6 →
      ∃ w, walkIn e r fuel s = some w ∧ Walk e r sz w ∧ DdaInv r w ∧ w.t ≤ 3e-6 := by
  intro j
  induction j with
  | zero =>
    intro fuel s hw hf hi hc hj hax hj3 ht
    have hin := hw.inBounds hsz hd ho
    have ht' : s.t ≤ 3e-6 := by norm_num at ht ⊢; linarith
    refine ⟨s, ?_, hw, hi, ht'⟩
    unfold walkIn
    rw [if_neg]
    push Not
    refine ⟨hin, fun _ => ?_⟩
    by_contra hdt
    push Not at hdt
    have h1 := dt_small r s hi ht1 ht' hdt
    have : 0 < nearCount s := by
      unfold nearCount
      rw [Finset.card_pos]
      exact ⟨s.axis, by simp only [Finset.mem_filter, Finset.mem_univ, true_and]; linarith⟩
    omega
  | succ j ih =>
    intro fuel s hw hf hi hc hj hax hj3 ht
    have hin := hw.inBounds hsz hd ho
    have ht' : s.t ≤ 3e-6 := by
      have : (0 : ℝ) ≤ (j : ℝ) := Nat.cast_nonneg j
      push_cast at ht
      nlinarith
    by_cases hdt : s.dt < 1e-6
    · obtain ⟨f, rfl⟩ : ∃ f, fuel = f + 1 := ⟨fuel - 1, by omega⟩
      have hstep := dt_small r s hi ht1 ht' hdt
      have hunf : walkIn e r (f + 1) s = walkIn e r f (nextIntersection r s) := by
        conv_lhs => unfold walkIn
        rw [if_pos (Or.inr ⟨hin, hdt⟩)]
      rw [hunf]
      set m : Dda dim := { s with
        t := s.nextHit s.axis,
        nextHit := Function.update s.nextHit s.axis (s.nextHit s.axis + (s.size : ℝ) * r.deltaOf s.axis),
        coord := Function.update s.coord s.axis (s.coord s.axis + s.size * r.stepDir s.axis) } with hm
      have hmove : r.d s.axis ≠ 0 := by
        intro h0
        rw [(hw.still s.axis h0).1] at hstep
        have : (1e24 : ℝ) < 4e-6 := by linarith
        norm_num at this
      have hsz' : (1 : ℝ) ≤ (sz : ℝ) := by exact_mod_cast hsz
      have hδ := deltaOf_ge_one r s.axis hmove (hd s.axis)
      have hadv : (1 : ℝ) ≤ (sz : ℝ) * r.deltaOf s.axis := by nlinarith
      have hnx : nextIntersection r s = computeAxisDt r m := rfl
      have hex : ∀ i, r.d i ≠ 0 → exitTime r m.coord sz i =
          if i = s.axis then exitTime r s.coord sz i + (sz : ℝ) * r.deltaOf s.axis else exitTime r s.coord sz i := by
        intro i h0
        have := exitTime_step r s.coord s.size s.axis i h0
        rw [hw.size] at this
        rw [hm]; simp only [hw.size]
        exact this
      have hmn : ∀ i, m.nextHit i = if i = s.axis then s.nextHit s.axis + (sz : ℝ) * r.deltaOf s.axis else s.nextHit i := by
        intro i
        rw [hm]; simp only [hw.size]
        by_cases hia : i = s.axis
        · subst hia; rw [Function.update_self, if_pos rfl]
        · rw [Function.update_of_ne hia, if_neg hia]
      have hWm : Walk e r sz m := by
        refine ⟨hw.size, hw.pos _, ?_, ?_, ?_, ?_, ?_⟩
        · intro i
          rw [hm]
          simp only
          by_cases hia : i = s.axis
          · subst hia; rw [Function.update_self, hw.size]
            exact dvd_add (hw.mult _) (dvd_mul_right _ _)
          · rw [Function.update_of_ne hia]; exact hw.mult i
        · intro i h0
          have hia : i ≠ s.axis := by intro hh; subst hh; exact hmove h0
          rw [hmn i, if_neg hia]
          refine ⟨(hw.still i h0).1, ?_⟩
          have : m.coord i = s.coord i := by rw [hm]; simp only; rw [Function.update_of_ne hia]
          rw [this]; exact (hw.still i h0).2
        · intro i h0
          rw [hmn i, hex i h0]
          have := hw.near i h0
          split
          · rename_i hia; subst hia
            have e3 : s.nextHit s.axis + (sz : ℝ) * r.deltaOf s.axis - (exitTime r s.coord sz s.axis + (sz : ℝ) * r.deltaOf s.axis) =
              s.nextHit s.axis - exitTime r s.coord sz s.axis := by ring
            rw [e3]; exact this
          · exact this
        · intro i
          rw [hmn i]
          split
          · have := hw.pos s.axis; linarith
          · exact hw.pos i
        · intro i h0
          rw [hex i h0]
          split
          · rename_i hia; subst hia
            have := abs_le.1 (hw.near _ h0)
            linarith
          · exact hw.entry i h0
      have hFm : Fresh r sz m none := by
        intro i _ h0
        rw [hmn i, hex i h0]
        by_cases hia : i = s.axis
        · rw [if_pos hia, if_pos hia]
          right
          have := hw.pos s.axis
          linarith
        · rw [if_neg hia, if_neg hia]
          exact hf i (by intro hh; exact hia (Option.some.inj hh)) h0
      have htm : m.t ≤ (3 - (j : ℝ)) * 1e-6 := by
        show s.nextHit s.axis ≤ _
        push_cast at ht
        nlinarith
      have htm' : m.t ≤ 3e-6 := by
        have : (0 : ℝ) ≤ (j : ℝ) := Nat.cast_nonneg j
        nlinarith
      obtain ⟨c1, c2, c3, c4⟩ := hWm.compute hFm htm'
      have hcount : nearCount m < nearCount s := by
        unfold nearCount
        apply Finset.card_lt_card
        rw [Finset.ssubset_iff_of_subset]
        · refine ⟨s.axis, ?_, ?_⟩
          · simp only [Finset.mem_filter, Finset.mem_univ, true_and]; linarith
          · simp only [Finset.mem_filter, Finset.mem_univ, true_and]
            rw [hmn, if_pos rfl]
            have := hw.pos s.axis
            linarith
        · intro i
          simp only [Finset.mem_filter, Finset.mem_univ, true_and]
          rw [hmn i]
          split
          · have := hw.pos s.axis
            intro hh; linarith
          · exact id
      rw [hnx]
      refine ih f (computeAxisDt r m) c1 c2 ?_ ?_ (by omega) c4 (by omega) htm
      · exact nextIntersection_inv r s hi
      · rw [c3]; omega
    · refine ⟨s, ?_, hw, hi, ht'⟩
      unfold walkIn
      rw [if_neg]
      push Not
      exact ⟨hin, fun _ => not_lt.1 hdt⟩

theorem maskCoord_dvd (c size : ℤ) : size ∣ maskCoord c size := Dvd.intro_left _ rfl

/-- the state before the walk -/
theorem walk_init (e : DdaEnv dim) (r : DdaRay dim) (hb : 1 ≤ e.block)
    (ho : ∀ i, 1e-4 ≤ r.o i ∧ r.o i ≤ e.max i - 1e-4) :
    Walk e r (initState e r).size (initState e r) ∧ Fresh r (initState e r).size (initState e r) none ∧ 1 ≤ (initState e r).size := by
  have hsz : 1 ≤ (initState e r).size := by
    unfold initState; simp only; split_ifs
    · exact hb
    · exact le_rfl
  have hco : ∀ i, (initState e r).coord i = maskCoord ⌊r.pt (0 + 1e-6) i⌋ (initState e r).size := fun i => rfl
  have hex : ∀ i, r.d i ≠ 0 → (0 + 1e-6 : ℝ) ≤ exitTime r (initState e r).coord (initState e r).size i :=
    fun i h0 => exitTime_ge_floor r (0 + 1e-6) (initState e r).size hsz i h0
  have hnh : ∀ i, (initState e r).nextHit i = if r.d i = 0 then 1e24
    else if 0 < 1 / r.d i then 0 + (((initState e r).coord i : ℝ) + (initState e r).size - r.pt (0 + 1e-6) i) * (1 / r.d i)
    else 0 + (((initState e r).coord i : ℝ) - r.pt (0 + 1e-6) i) * (1 / r.d i) := fun i => rfl
  have hnh' : ∀ i, r.d i ≠ 0 → (initState e r).nextHit i = exitTime r (initState e r).coord (initState e r).size i - 1e-6 := by
    intro i h0
    rw [hnh i, if_neg h0]
    unfold exitTime DdaRay.pt
    rcases lt_or_gt_of_ne h0 with hn | hp
    · rw [if_neg (by rw [one_div, inv_pos]; exact not_lt.2 hn.le), if_neg (not_lt.2 hn.le)]
      field_simp; ring
    · rw [if_pos (by positivity), if_pos hp]
      field_simp; ring
  refine ⟨⟨rfl, le_rfl, ?_, ?_, ?_, ?_, ?_⟩, ?_, hsz⟩
  · intro i; rw [hco]; exact maskCoord_dvd _ _
  · intro i h0
    refine ⟨by rw [hnh, if_pos h0], ?_⟩
    have hpt : r.pt (0 + 1e-6) i = r.o i := by simp [DdaRay.pt, h0]
    rw [hco, hpt]
    obtain ⟨o1, o2⟩ := ho i
    have f0 : 0 ≤ ⌊r.o i⌋ := Int.floor_nonneg.2 (by linarith)
    have f1 : ⌊r.o i⌋ < e.max i := Int.floor_lt.2 (by linarith)
    obtain ⟨m1, m2⟩ := maskCoord_bounds ⌊r.o i⌋ _ hsz
    refine ⟨?_, by omega⟩
    unfold maskCoord
    exact Int.mul_nonneg (Int.ediv_nonneg f0 (by omega)) (by omega)
  · intro i h0
    rw [hnh' i h0]
    rw [abs_le]; constructor <;> linarith
  · intro i
    by_cases h0 : r.d i = 0
    · rw [hnh, if_pos h0]; norm_num
    · rw [hnh' i h0]; have := hex i h0; linarith
  · intro i h0
    obtain ⟨b1, b2⟩ := floor_inCell r (0 + 1e-6) _ hsz i
    rw [← hco i] at b1 b2
    unfold exitTime
    rw [deltaOf_abs]
    unfold DdaRay.pt at b1 b2
    rcases lt_or_gt_of_ne h0 with hn | hp
    · rw [if_neg (not_lt.2 hn.le), abs_of_neg hn]
      have e2 : (((initState e r).coord i : ℝ) + 0 - r.o i) / r.d i - ((initState e r).size : ℝ) * (1 / -r.d i) =
        (((initState e r).coord i : ℝ) + (initState e r).size - r.o i) / r.d i := by field_simp; ring
      rw [e2, div_le_iff_of_neg hn]
      nlinarith
    · rw [if_pos hp, abs_of_pos hp]
      have e2 : (((initState e r).coord i : ℝ) + (initState e r).size - r.o i) / r.d i - ((initState e r).size : ℝ) * (1 / r.d i) =
        (((initState e r).coord i : ℝ) - r.o i) / r.d i := by field_simp; ring
      rw [e2, div_le_iff₀ hp]
      nlinarith
  · intro i _ h0
    left; exact hnh' i h0

/-- `init` always succeeds in at most three steps on a ray that is inside the grid. -/
theorem ddaInit_succeeds (e : DdaEnv dim) (r : DdaRay dim) (hb : 1 ≤ e.block) (ht1 : 1e-4 ≤ r.t1)
    (hd : ∀ i, |r.d i| ≤ 1) (ho : ∀ i, 1e-4 ≤ r.o i ∧ r.o i ≤ e.max i - 1e-4) :
    ∃ s, ddaInit e r = some s ∧ 0 ≤ s.t ∧ s.t ≤ 3e-6 := by
  obtain ⟨hw, hf, hsz⟩ := walk_init e r hb ho
  obtain ⟨c1, c2, c3, c4⟩ := hw.compute hf (by show (0 : ℝ) ≤ _; norm_num)
  obtain ⟨hf0, hp0⟩ := initState_faces e r hb
  have hi := computeAxisDt_inv r _ hp0
  have hcard : nearCount (computeAxisDt r (initState e r)) ≤ 3 := by
    refine le_trans (Finset.card_le_univ _) ?_
    rw [Fintype.card_fin]; exact (dim_pos dim).2
  obtain ⟨w, h1, h2, h3, h4⟩ := walk_succeeds e r _ hsz ht1 hd ho 3 32 _ c1 c2 hi hcard (by norm_num) c4 le_rfl
    (by show (0 : ℝ) ≤ _; norm_num)
  refine ⟨updateMip e r true w, ?_, h3.t0, h4⟩
  unfold ddaInit
  rw [if_neg, h1]
  · rfl
  · rw [sub_zero, abs_of_nonneg (by linarith)]; linarith

end DexRT
