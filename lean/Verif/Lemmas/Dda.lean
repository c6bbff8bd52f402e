import Verif.Model.Dda
import Mathlib.Tactic.Linarith
import Mathlib.Tactic.FieldSimp
import Mathlib.Tactic.Positivity
import Mathlib.Tactic.Ring
import Mathlib.Tactic.NormNum
import Mathlib.Tactic.FinCases
import Mathlib.Data.Prod.Lex
import Mathlib.Algebra.Order.BigOperators.Group.Finset
/-! Lemmas for the grid traversal. -/
namespace DexRT
open Classical

variable {dim : DdaDim}

theorem pickAxis_le : ∀ (dim : DdaDim) (nh : Fin dim.n → ℝ) (i : Fin dim.n), nh (pickAxis dim nh) ≤ nh i
  | .two, nh, i => by
    show nh (if nh 1 < nh 0 then 1 else 0) ≤ nh i
    split <;> rename_i h
    · fin_cases i
      · exact h.le
      · exact le_rfl
    · fin_cases i
      · exact le_rfl
      · exact not_lt.1 h
  | .three, nh, i => by
    show nh (if nh 0 ≤ nh 1 ∧ nh 0 ≤ nh 2 then 0 else if nh 1 ≤ nh 2 then 1 else 2) ≤ nh i
    split <;> rename_i h
    · fin_cases i
      · exact le_rfl
      · exact h.1
      · exact h.2
    · split <;> rename_i h2
      · fin_cases i
        · show nh 1 ≤ nh 0
          by_contra hc
          push Not at hc h
          have := h hc.le
          linarith
        · exact le_rfl
        · exact h2
      · fin_cases i
        · show nh 2 ≤ nh 0
          by_contra hc
          push Not at hc h h2
          by_cases h3 : nh 0 ≤ nh 1
          · linarith [h h3]
          · push Not at h3; linarith
        · exact (not_le.1 h2).le
        · exact le_rfl

theorem pushHit_eq (t nt : ℝ) : pushHit t nt = t + 1e-6 * (nt + 1) := by
  unfold pushHit; ring

/-- What holds of every state of a traversal. -/
structure DdaInv (r : DdaRay dim) (s : Dda dim) : Prop where
  t0 : 0 ≤ s.t
  nh : ∀ i, -1 ≤ s.nextHit i
  still : ∀ i, r.d i = 0 → 1e24 ≤ s.nextHit i
  size : 1 ≤ s.size
  ahead : s.t ≤ s.nextHit s.axis
  dteq : s.dt = max ((if r.t1 < s.nextHit s.axis then r.t1 else s.nextHit s.axis) - s.t) 0

/-- What must hold before `compute_axis_and_dt`. -/
structure DdaPre (r : DdaRay dim) (s : Dda dim) : Prop where
  t0 : 0 ≤ s.t
  nh : ∀ i, -1 ≤ s.nextHit i
  still : ∀ i, r.d i = 0 → 1e24 ≤ s.nextHit i
  size : 1 ≤ s.size

theorem DdaInv.pre {r : DdaRay dim} {s : Dda dim} (h : DdaInv r s) : DdaPre r s := ⟨h.t0, h.nh, h.still, h.size⟩

/-- The hits only grow. -/
theorem computeAxisDt_nh_ge (r : DdaRay dim) (s : Dda dim) (h : DdaPre r s) (i : Fin dim.n) :
    s.nextHit i ≤ (computeAxisDt r s).nextHit i := by
  unfold computeAxisDt
  simp only
  split
  · rename_i hle
    by_cases hi : i = pickAxis dim s.nextHit
    · subst hi
      rw [Function.update_self, pushHit_eq]
      have := h.nh (pickAxis dim s.nextHit)
      nlinarith
    · rw [Function.update_of_ne hi]
  · exact le_rfl

theorem computeAxisDt_inv (r : DdaRay dim) (s : Dda dim) (h : DdaPre r s) : DdaInv r (computeAxisDt r s) := by
  have hge := computeAxisDt_nh_ge r s h
  refine ⟨h.t0, fun i => le_trans (h.nh i) (hge i), fun i hi => le_trans (h.still i hi) (hge i), h.size, ?_, ?_⟩
  · unfold computeAxisDt
    simp only
    split
    · rw [Function.update_self, pushHit_eq]
      have := h.nh (pickAxis dim s.nextHit)
      nlinarith
    · rename_i hle; exact (not_le.1 hle).le
  · unfold computeAxisDt
    simp only
    congr 1
    split_ifs <;> rfl

theorem deltaOf_nonneg (r : DdaRay dim) (i : Fin dim.n) : 0 ≤ r.deltaOf i := by
  unfold DdaRay.deltaOf
  split
  · positivity
  · rename_i h
    have : 1 / r.d i ≤ 0 := by
      rw [one_div]; exact inv_nonpos.2 (not_lt.1 h)
    linarith

theorem deltaOf_abs (r : DdaRay dim) (i : Fin dim.n) : r.deltaOf i = 1 / |r.d i| := by
  unfold DdaRay.deltaOf
  split
  · rename_i h; rw [abs_of_pos h]
  · rename_i h; rw [abs_of_nonpos (not_lt.1 h), div_neg]

theorem nextIntersection_pre (r : DdaRay dim) (s : Dda dim) (h : DdaInv r s) :
    DdaPre r { s with
      t := s.nextHit s.axis,
      nextHit := Function.update s.nextHit s.axis (s.nextHit s.axis + (s.size : ℝ) * r.deltaOf s.axis),
      coord := Function.update s.coord s.axis (s.coord s.axis + s.size * r.stepDir s.axis) } := by
  have hs : (1 : ℝ) ≤ (s.size : ℝ) := by exact_mod_cast h.size
  have hd := deltaOf_nonneg r s.axis
  have hge : ∀ i, s.nextHit i ≤ Function.update s.nextHit s.axis (s.nextHit s.axis + (s.size : ℝ) * r.deltaOf s.axis) i := by
    intro i
    by_cases hi : i = s.axis
    · subst hi; rw [Function.update_self]; nlinarith
    · rw [Function.update_of_ne hi]
  exact ⟨le_trans h.t0 h.ahead, fun i => le_trans (h.nh i) (hge i), fun i hi => le_trans (h.still i hi) (hge i), h.size⟩

theorem nextIntersection_inv (r : DdaRay dim) (s : Dda dim) (h : DdaInv r s) : DdaInv r (nextIntersection r s) :=
  computeAxisDt_inv r _ (nextIntersection_pre r s h)

theorem maskCoord_bounds (c size : ℤ) (h : 1 ≤ size) : maskCoord c size ≤ c ∧ c < maskCoord c size + size := by
  unfold maskCoord
  have h1 := Int.mul_ediv_add_emod c size
  have h2 := Int.emod_nonneg c (by omega : size ≠ 0)
  have h3 := Int.emod_lt_of_pos c (by omega : 0 < size)
  have h4 : c / size * size = size * (c / size) := Int.mul_comm _ _
  constructor <;> omega

theorem stepSize_pos (e : DdaEnv dim) (hb : 1 ≤ e.block) (m : ℤ) : 1 ≤ e.stepSize m := by
  unfold DdaEnv.stepSize
  split
  · exact hb
  · exact one_le_pow₀ (by norm_num : (1 : ℤ) ≤ 2)

theorem stepDir_eq_zero (r : DdaRay dim) (i : Fin dim.n) : r.stepDir i = 0 ↔ r.d i = 0 := by
  unfold DdaRay.stepDir
  split
  · simp [*]
  · split <;> simp [*]

theorem stepDir_pos (r : DdaRay dim) (i : Fin dim.n) : 0 < r.stepDir i ↔ 0 < r.d i := by
  unfold DdaRay.stepDir
  split
  · rename_i h; simp [h]
  · split <;> simp [*]

/-- The time at which the ray leaves cell `[c, c + size]` through a face of axis `i`. -/
noncomputable def exitTime (r : DdaRay dim) (c : Fin dim.n → ℤ) (size : ℤ) (i : Fin dim.n) : ℝ :=
  ((c i : ℝ) + (if 0 < r.d i then (size : ℝ) else 0) - r.o i) / r.d i

theorem hitsFrom_eq (r : DdaRay dim) (t : ℝ) (c : Fin dim.n → ℤ) (size : ℤ) (old : Fin dim.n → ℝ) (i : Fin dim.n) :
    hitsFrom r t c size old i = if r.d i = 0 then old i else exitTime r c size i := by
  unfold hitsFrom
  by_cases h0 : r.d i = 0
  · simp [(stepDir_eq_zero r i).2 h0, h0]
  · have h0' : r.stepDir i ≠ 0 := fun h => h0 ((stepDir_eq_zero r i).1 h)
    simp only [h0', if_false, h0, exitTime, DdaRay.pt, stepDir_pos]
    split
    · field_simp; ring
    · field_simp; ring

/-- An unlocked update meets the precondition: the position is in its new cell, so its faces are ahead. -/
theorem exitTime_ge_floor (r : DdaRay dim) (t : ℝ) (size : ℤ) (hs : 1 ≤ size) (i : Fin dim.n) (h0 : r.d i ≠ 0) :
    t ≤ exitTime r (fun j => maskCoord ⌊r.pt t j⌋ size) size i := by
  obtain ⟨h1, h2⟩ := maskCoord_bounds ⌊r.pt t i⌋ size hs
  unfold exitTime
  have f1 : ((⌊r.pt t i⌋ : ℤ) : ℝ) ≤ r.pt t i := Int.floor_le _
  have f2 : r.pt t i < ((⌊r.pt t i⌋ : ℤ) : ℝ) + 1 := Int.lt_floor_add_one _
  have h1' : ((maskCoord ⌊r.pt t i⌋ size : ℤ) : ℝ) ≤ (⌊r.pt t i⌋ : ℤ) := by exact_mod_cast h1
  have h2' : ((⌊r.pt t i⌋ : ℤ) : ℝ) + 1 ≤ (maskCoord ⌊r.pt t i⌋ size : ℤ) + (size : ℝ) := by
    exact_mod_cast (by omega : ⌊r.pt t i⌋ + 1 ≤ maskCoord ⌊r.pt t i⌋ size + size)
  unfold DdaRay.pt at *
  rcases lt_or_gt_of_ne h0 with hn | hp
  · rw [if_neg (not_lt.2 hn.le), le_div_iff_of_neg hn]; linarith
  · rw [if_pos hp, le_div_iff₀ hp]; linarith

theorem nudge_fields (e : DdaEnv dim) (m : ℤ) (s : Dda dim) :
    (nudge e m s).nextHit = s.nextHit ∧ (nudge e m s).coord = s.coord ∧
      (nudge e m s).t = s.t + (if m = -1 ∧ s.size ≠ e.block then 0.01 else 0) := by
  unfold nudge
  split <;> simp

/-- The cell that the traversal steps into from `s`, before any re-basing. -/
noncomputable def entered (r : DdaRay dim) (s : Dda dim) : Fin dim.n → ℤ :=
  Function.update s.coord s.axis (s.coord s.axis + s.size * r.stepDir s.axis)

/-- The part of the ray passed over without being visited after the step `s`: none when the next cell has the level
being marched, 1e-3 otherwise, and 0.01 more on entering an empty region. -/
noncomputable def gapAfter (e : DdaEnv dim) (r : DdaRay dim) (s : Dda dim) : ℝ :=
  let m := e.sampleLevel (entered r s)
  if m = s.mip ∧ 0 ≤ m then 0
  else (if m = -1 ∧ s.size ≠ e.block then 0.01 else 0) + 1e-3

theorem gapAfter_nonneg (e : DdaEnv dim) (r : DdaRay dim) (s : Dda dim) : 0 ≤ gapAfter e r s := by
  unfold gapAfter; simp only; split_ifs <;> norm_num

theorem advance_eq (e : DdaEnv dim) (r : DdaRay dim) (s : Dda dim) :
    advance e r s = if s.nextHit s.axis < r.t1 then
        (if e.sampleLevel (entered r s) = s.mip ∧ 0 ≤ e.sampleLevel (entered r s) then some (nextIntersection r s)
         else some (updateMip e r false (nudge e (e.sampleLevel (entered r s)) (nextIntersection r s))))
      else none := rfl

theorem advance_none (e : DdaEnv dim) (r : DdaRay dim) (s : Dda dim) (h : DdaInv r s) (ha : advance e r s = none) :
    s.t + s.dt = max s.t r.t1 := by
  rw [advance_eq] at ha
  by_cases hlt : s.nextHit s.axis < r.t1
  · rw [if_pos hlt] at ha; split at ha <;> simp at ha
  · push Not at hlt
    rw [h.dteq]
    have : (if r.t1 < s.nextHit s.axis then r.t1 else s.nextHit s.axis) = r.t1 := by
      split
      · rfl
      · exact le_antisymm (by linarith) hlt
    rw [this]
    rcases le_total s.t r.t1 with h1 | h1
    · rw [max_eq_left (by linarith), max_eq_right h1]; ring
    · rw [max_eq_right (by linarith), max_eq_left h1]; ring

theorem updateMip_unlocked_inv (e : DdaEnv dim) (r : DdaRay dim) (s : Dda dim) (hb : 1 ≤ e.block) (h0 : 0 ≤ s.t)
    (hnh : ∀ i, -1 ≤ s.nextHit i) (hst : ∀ i, r.d i = 0 → 1e24 ≤ s.nextHit i) : DdaInv r (updateMip e r false s) := by
  have ht : 0 ≤ s.t + 1e-3 := by linarith
  have hsz := stepSize_pos e hb (e.sampleLevel fun i => ⌊r.pt (s.t + 1e-3) i⌋)
  have : updateMip e r false s = computeAxisDt r
    { s with
      t := s.t + 1e-3,
      mip := e.sampleLevel fun i => ⌊r.pt (s.t + 1e-3) i⌋,
      size := e.stepSize (e.sampleLevel fun i => ⌊r.pt (s.t + 1e-3) i⌋),
      coord := fun i => maskCoord ⌊r.pt (s.t + 1e-3) i⌋ (e.stepSize (e.sampleLevel fun i => ⌊r.pt (s.t + 1e-3) i⌋)),
      nextHit := hitsFrom r (s.t + 1e-3) (fun i => maskCoord ⌊r.pt (s.t + 1e-3) i⌋ (e.stepSize (e.sampleLevel fun i => ⌊r.pt (s.t + 1e-3) i⌋)))
        (e.stepSize (e.sampleLevel fun i => ⌊r.pt (s.t + 1e-3) i⌋)) s.nextHit } := rfl
  rw [this]
  apply computeAxisDt_inv
  refine ⟨ht, fun i => ?_, fun i hi => ?_, hsz⟩
  · simp only [hitsFrom_eq]
    split
    · exact hnh i
    · rename_i h0'
      have := exitTime_ge_floor r (s.t + 1e-3) _ hsz i h0'
      linarith
  · simp only [hitsFrom_eq, hi, if_true]
    exact hst i hi

theorem advance_some (e : DdaEnv dim) (r : DdaRay dim) (s s' : Dda dim) (hb : 1 ≤ e.block) (h : DdaInv r s)
    (ha : advance e r s = some s') :
    DdaInv r s' ∧ s'.t = s.t + s.dt + gapAfter e r s ∧ s.nextHit s.axis < r.t1 := by
  rw [advance_eq] at ha
  by_cases hlt : s.nextHit s.axis < r.t1
  · rw [if_pos hlt] at ha
    have hend : s.t + s.dt = s.nextHit s.axis := by
      rw [h.dteq, if_neg (not_lt.2 hlt.le), max_eq_left (by linarith [h.ahead])]; ring
    have hn := nextIntersection_inv r s h
    by_cases hm : e.sampleLevel (entered r s) = s.mip ∧ 0 ≤ e.sampleLevel (entered r s)
    · rw [if_pos hm] at ha
      rw [← Option.some.inj ha]
      refine ⟨hn, ?_, hlt⟩
      unfold gapAfter
      simp only [if_pos hm, add_zero, hend]
      rfl
    · rw [if_neg hm] at ha
      rw [← Option.some.inj ha]
      obtain ⟨n1, n2, n3⟩ := nudge_fields e (e.sampleLevel (entered r s)) (nextIntersection r s)
      refine ⟨?_, ?_, hlt⟩
      · apply updateMip_unlocked_inv e r _ hb
        · rw [n3]; have := hn.t0; split_ifs <;> linarith
        · rw [n1]; exact hn.nh
        · rw [n1]; exact hn.still
      · show (nudge e (e.sampleLevel (entered r s)) (nextIntersection r s)).t + 1e-3 = _
        rw [n3, hend]
        unfold gapAfter
        simp only [if_neg hm]
        rw [add_assoc]
        rfl
  · rw [if_neg hlt] at ha; simp at ha

/-! ### The traversal stops -/

/-- Number of faces of axis `i` still to cross (rounded up). -/
noncomputable def facesLeft (r : DdaRay dim) (s : Dda dim) (i : Fin dim.n) : ℕ := ⌈(r.t1 - s.nextHit i) * |r.d i|⌉₊

/-- The measure that decreases. -/
noncomputable def ddaMeasure (r : DdaRay dim) (s : Dda dim) : ℕ ×ₗ ℕ :=
  toLex (⌈(r.t1 - s.t) * 1000⌉₊, ∑ i, facesLeft r s i)

theorem ceil_sub_lt (x y : ℝ) (hx : 0 < x) (hy : 1 ≤ y) : ⌈x - y⌉₊ < ⌈x⌉₊ := by
  rw [Nat.lt_ceil]
  by_cases h : x - y ≤ 0
  · rw [Nat.ceil_eq_zero.2 h]; simpa using hx
  · have := Nat.ceil_lt_add_one (not_le.1 h).le
    linarith

theorem advance_measure (e : DdaEnv dim) (r : DdaRay dim) (s s' : Dda dim) (hb : 1 ≤ e.block) (ht1 : r.t1 ≤ 1e24)
    (h : DdaInv r s) (ha : advance e r s = some s') : ddaMeasure r s' < ddaMeasure r s := by
  obtain ⟨hinv, ht, hlt⟩ := advance_some e r s s' hb h ha
  have hend : s.t + s.dt = s.nextHit s.axis := by
    rw [h.dteq, if_neg (not_lt.2 hlt.le), max_eq_left (by linarith [h.ahead])]; ring
  rw [advance_eq, if_pos hlt] at ha
  unfold ddaMeasure
  rw [Prod.Lex.toLex_lt_toLex]
  by_cases hm : e.sampleLevel (entered r s) = s.mip ∧ 0 ≤ e.sampleLevel (entered r s)
  · rw [if_pos hm] at ha
    have hs' := (Option.some.inj ha).symm
    have hg : gapAfter e r s = 0 := by unfold gapAfter; simp only [if_pos hm]
    have hle : ⌈(r.t1 - s'.t) * 1000⌉₊ ≤ ⌈(r.t1 - s.t) * 1000⌉₊ := by
      apply Nat.ceil_mono
      rw [ht, hg, add_zero, hend]
      have := h.ahead
      nlinarith
    have hsum : ∑ i, facesLeft r s' i < ∑ i, facesLeft r s i := by
      have hpre := nextIntersection_pre r s h
      have hge := computeAxisDt_nh_ge r _ hpre
      have hmove : r.d s.axis ≠ 0 := fun h0 => by
        have := h.still s.axis h0; linarith
      have hdp : 0 < |r.d s.axis| := abs_pos.2 hmove
      apply Finset.sum_lt_sum
      · intro i _
        apply Nat.ceil_mono
        have h1 : s.nextHit i ≤ s'.nextHit i := by
          rw [hs']
          refine le_trans ?_ (hge i)
          simp only
          by_cases hi : i = s.axis
          · subst hi
            rw [Function.update_self]
            have := deltaOf_nonneg r s.axis
            have hsz : (1 : ℝ) ≤ (s.size : ℝ) := by exact_mod_cast h.size
            nlinarith
          · rw [Function.update_of_ne hi]
        have := abs_nonneg (r.d i)
        nlinarith
      · refine ⟨s.axis, Finset.mem_univ _, ?_⟩
        have h1 : s.nextHit s.axis + (s.size : ℝ) * r.deltaOf s.axis ≤ s'.nextHit s.axis := by
          rw [hs']
          have := hge s.axis
          simp only [Function.update_self] at this
          exact this
        rw [deltaOf_abs] at h1
        unfold facesLeft
        have hsz : (1 : ℝ) ≤ (s.size : ℝ) := by exact_mod_cast h.size
        refine lt_of_le_of_lt (Nat.ceil_mono ?_) (ceil_sub_lt ((r.t1 - s.nextHit s.axis) * |r.d s.axis|) s.size
          (mul_pos (by linarith) hdp) hsz)
        have : (s.nextHit s.axis + (s.size : ℝ) * (1 / |r.d s.axis|)) * |r.d s.axis| = s.nextHit s.axis * |r.d s.axis| + s.size := by
          field_simp
        nlinarith
    rcases lt_or_eq_of_le hle with hl | hl
    · exact Or.inl hl
    · exact Or.inr ⟨hl, hsum⟩
  · left
    have hg : 1e-3 ≤ gapAfter e r s := by
      unfold gapAfter; simp only [if_neg hm]; split_ifs <;> norm_num
    refine lt_of_le_of_lt (Nat.ceil_mono ?_) (ceil_sub_lt ((r.t1 - s.t) * 1000) 1 (by nlinarith [h.ahead]) le_rfl)
    have := h.ahead
    rw [ht, hend]
    nlinarith

/-- A traversal from a state with the invariant ends: from some number of passes on, the list of states is the same
and its last state is one from which the loop stops. -/
theorem visits_terminate (e : DdaEnv dim) (r : DdaRay dim) (hb : 1 ≤ e.block) (ht1 : r.t1 ≤ 1e24) :
    ∀ s : Dda dim, DdaInv r s → ∃ N, ∃ last, (visits e r N s).getLast? = some last ∧ advance e r last = none ∧
      ∀ fuel, N ≤ fuel → visits e r fuel s = visits e r N s := by
  have wf : WellFounded (fun a b : Dda dim => ddaMeasure r a < ddaMeasure r b) :=
    InvImage.wf (ddaMeasure r) wellFounded_lt
  intro s
  induction s using wf.induction with
  | _ s ih =>
    intro h
    cases ha : advance e r s with
    | none =>
      refine ⟨0, s, rfl, ha, fun fuel _ => ?_⟩
      cases fuel with
      | zero => rfl
      | succ f => simp [visits, ha]
    | some s' =>
      obtain ⟨N, last, h1, h2, h3⟩ := ih s' (advance_measure e r s s' hb ht1 h ha) (advance_some e r s s' hb h ha).1
      refine ⟨N + 1, last, ?_, h2, ?_⟩
      · simp only [visits, ha]
        rw [List.getLast?_cons, h1]; rfl
      · intro fuel hf
        obtain ⟨f, rfl⟩ : ∃ f, fuel = f + 1 := ⟨fuel - 1, by omega⟩
        simp only [visits, ha]
        rw [h3 f (by omega)]

theorem visits_head (e : DdaEnv dim) (r : DdaRay dim) (fuel : ℕ) (s : Dda dim) :
    ∃ l, visits e r fuel s = s :: l := by
  cases fuel with
  | zero => exact ⟨[], rfl⟩
  | succ f =>
    simp only [visits]
    cases advance e r s with
    | none => exact ⟨[], rfl⟩
    | some s' => exact ⟨_, rfl⟩

/-- Every state visited has the invariant, and is at or after the first. -/
theorem visits_inv (e : DdaEnv dim) (r : DdaRay dim) (hb : 1 ≤ e.block) :
    ∀ fuel (s : Dda dim), DdaInv r s → ∀ v ∈ visits e r fuel s, DdaInv r v ∧ s.t ≤ v.t
  | 0, s, h, v, hv => by
    simp only [visits, List.mem_singleton] at hv
    subst hv; exact ⟨h, le_rfl⟩
  | fuel + 1, s, h, v, hv => by
    simp only [visits] at hv
    cases ha : advance e r s with
    | none =>
      rw [ha] at hv
      simp only [List.mem_singleton] at hv
      subst hv; exact ⟨h, le_rfl⟩
    | some s' =>
      rw [ha] at hv
      obtain ⟨h1, h2, _⟩ := advance_some e r s s' hb h ha
      rcases List.mem_cons.1 hv with rfl | hv
      · exact ⟨h, le_rfl⟩
      · obtain ⟨h3, h4⟩ := visits_inv e r hb fuel s' h1 v hv
        have hdt : 0 ≤ s.dt := by rw [h.dteq]; exact le_max_right _ _
        exact ⟨h3, by have := gapAfter_nonneg e r s; linarith⟩

/-- Consecutive states. -/
theorem visits_chain (e : DdaEnv dim) (r : DdaRay dim) (hb : 1 ≤ e.block) :
    ∀ fuel (s : Dda dim), DdaInv r s → (visits e r fuel s).IsChain (fun a b => b.t = a.t + a.dt + gapAfter e r a)
  | 0, s, h => by simp [visits]
  | fuel + 1, s, h => by
    simp only [visits]
    cases ha : advance e r s with
    | none => simp
    | some s' =>
      obtain ⟨h1, h2, _⟩ := advance_some e r s s' hb h ha
      obtain ⟨l, hl⟩ := visits_head e r fuel s'
      have ih := visits_chain e r hb fuel s' h1
      show List.IsChain _ (s :: visits e r fuel s')
      rw [hl] at ih ⊢
      exact List.isChain_cons_cons.2 ⟨h2, ih⟩

/-- Coverage. -/
theorem visits_cover (e : DdaEnv dim) (r : DdaRay dim) (hb : 1 ≤ e.block) :
    ∀ fuel (s : Dda dim), DdaInv r s → ∀ last, (visits e r fuel s).getLast? = some last → advance e r last = none →
      ∀ τ, s.t ≤ τ → τ ≤ r.t1 → ∃ v ∈ visits e r fuel s, v.t ≤ τ ∧ τ ≤ v.t + v.dt + gapAfter e r v ∧
        (advance e r v = none → τ ≤ v.t + v.dt)
  | 0, s, h, last, hl, hn, τ, h0, h1 => by
    simp only [visits, List.getLast?_singleton, Option.some.injEq] at hl
    subst hl
    have := advance_none e r s h hn
    have h2 : τ ≤ s.t + s.dt := by rw [this]; exact le_trans h1 (le_max_right _ _)
    exact ⟨s, by simp [visits], h0, by have := gapAfter_nonneg e r s; linarith, fun _ => h2⟩
  | fuel + 1, s, h, last, hl, hn, τ, h0, h1 => by
    simp only [visits] at hl ⊢
    cases ha : advance e r s with
    | none =>
      have := advance_none e r s h ha
      have h2 : τ ≤ s.t + s.dt := by rw [this]; exact le_trans h1 (le_max_right _ _)
      exact ⟨s, by simp, h0, by have := gapAfter_nonneg e r s; linarith, fun _ => h2⟩
    | some s' =>
      rw [ha] at hl
      obtain ⟨hi, h2, _⟩ := advance_some e r s s' hb h ha
      by_cases hτ : τ ≤ s.t + s.dt + gapAfter e r s
      · exact ⟨s, by simp, h0, hτ, fun hc => by rw [ha] at hc; simp at hc⟩
      · push Not at hτ
        obtain ⟨l, hll⟩ := visits_head e r fuel s'
        have hl' : (visits e r fuel s').getLast? = some last := by
          rw [List.getLast?_cons] at hl
          rw [hll] at hl ⊢
          simpa [List.getLast?_cons] using hl
        obtain ⟨v, hv, hh⟩ := visits_cover e r hb fuel s' hi last hl' hn τ (by rw [h2]; exact hτ.le) h1
        exact ⟨v, by simp [hv], hh⟩

end DexRT
