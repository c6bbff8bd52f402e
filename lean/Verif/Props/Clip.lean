import Verif.Lemmas.Clip
import Mathlib.Tactic.NormNum
import Mathlib.Tactic.Ring
import Mathlib.Tactic.FinCases
/-!
C38: clipping a ray returns exactly the part of it in the grid.
-/
namespace DexRT
open Classical

/-- The point of a ray between two ends at parameter `u`. -/
def rayAt {n : ℕ} (r : RayStartEnd n) (u : ℝ) : Fin n → ℝ := fun d => r.start d + u * (r.stop d - r.start d)

/-- A point is in a closed box. -/
def inBox {n : ℕ} (box : ClipBox n) (p : Fin n → ℝ) : Prop := ∀ d, box.lo d ≤ p d ∧ p d ≤ box.hi d

theorem clip_core {n : ℕ} (ray : RayStartEnd n) (box : ClipBox n) (hbox : ∀ d, box.lo d ≤ box.hi d) :
    let ts := (List.finRange n).foldl (fun a d => clipStart (box.lo d) (box.hi d) (ray.start d) (ray.stop d) a) (.fin 0)
    let te := (List.finRange n).foldl (fun a d => clipEnd (box.lo d) (box.hi d) (ray.start d) (ray.stop d) a) (.fin 0)
    aboveFin 0 ts ∧ aboveFin 0 te ∧ ∀ u, 0 ≤ u → u ≤ 1 → (inBox box (rayAt ray u) ↔ geB ts u ∧ geB te (1 - u)) := by
  intro ts te
  have h := fun u h0 h1 => clip_fold_iff ray box hbox u h0 h1 (List.finRange n) (.fin 0) (.fin 0)
    (show (0 : ℝ) ≤ 0 from le_refl _) (show (0 : ℝ) ≤ 0 from le_refl _)
  refine ⟨(h 0 le_rfl zero_le_one).1.1, (h 0 le_rfl zero_le_one).1.2, fun u h0 h1 => ?_⟩
  rw [(h u h0 h1).2]
  simp only [geB_fin, List.mem_finRange, forall_const]
  exact ⟨fun hb => ⟨h0, by linarith, hb⟩, fun hb => hb.2.2⟩

/-- When `clip_ray_to_box` succeeds there are `a < b` in `[0, 1]` such that the returned ends are the points of
the ray at `a` and `b`, and the ray is inside the box exactly for the parameters in `[a, b]`; the flag says
whether the start lay outside the box. For every ray, including ones parallel to a side or of length zero, and
every box. -/
theorem C38_box_success {n : ℕ} (ray : RayStartEnd n) (box : ClipBox n) (hbox : ∀ d, box.lo d ≤ box.hi d)
    (res : ClipResult n) (h : clipRayToBox ray box = some res) :
    ∃ a b : ℝ, 0 ≤ a ∧ a < b ∧ b ≤ 1 ∧ res.ray.start = rayAt ray a ∧ res.ray.stop = rayAt ray b ∧
      (∀ u, 0 ≤ u → u ≤ 1 → (inBox box (rayAt ray u) ↔ a ≤ u ∧ u ≤ b)) ∧
      (res.startClipped = true ↔ ¬ inBox box ray.start) := by
  obtain ⟨hs, he, hiff⟩ := clip_core ray box hbox
  unfold clipRayToBox at h
  set ts := (List.finRange n).foldl (fun a d => clipStart (box.lo d) (box.hi d) (ray.start d) (ray.stop d) a) (.fin 0)
  set te := (List.finRange n).foldl (fun a d => clipEnd (box.lo d) (box.hi d) (ray.start d) (ray.stop d) a) (.fin 0)
  clear_value ts te
  simp only at h
  split at h
  · simp at h
  rename_i hc
  push Not at hc
  obtain ⟨h1, h2, h3⟩ := hc
  match ts, te, hs, he with
  | .fin a, .fin b, hs, he =>
    have hs : (0 : ℝ) ≤ a := hs
    have he : (0 : ℝ) ≤ b := he
    have hab : a + b < 1 := by
      by_contra hc
      apply h3
      rcases lt_or_eq_of_le (not_lt.1 hc) with hh | hh
      · exact Or.inl hh
      · exact Or.inr ⟨by rw [show Ext.add (.fin a) (.fin b) = .fin (a + b) from rfl, hh], by simp⟩
    have hst : inBox box ray.start ↔ a ≤ 0 := by
      have := hiff 0 le_rfl zero_le_one
      have e : rayAt ray 0 = ray.start := by funext d; simp [rayAt]
      rw [e] at this
      rw [this, geB_fin, geB_fin]
      exact ⟨fun h => h.1, fun h => ⟨h, by linarith⟩⟩
    refine ⟨a, 1 - b, hs, by linarith, by linarith, ?_, ?_, ?_, ?_⟩
    · rw [← Option.some.inj h]
      by_cases hp : Ext.lt (.fin 0) (.fin a)
      · simp only [hp, if_true]; funext d; simp [rayAt, Ext.toReal]
      · have : a = 0 := le_antisymm (not_lt.1 hp) hs
        simp only [hp, if_false]; funext d; simp [rayAt, this]
    · rw [← Option.some.inj h]
      by_cases hp : Ext.lt (.fin 0) (.fin b)
      · simp only [hp, if_true]; funext d; simp only [rayAt, Ext.toReal]; ring
      · have : b = 0 := le_antisymm (not_lt.1 hp) he
        simp only [hp, if_false]; funext d; simp [rayAt, this]
    · intro u h0 h1
      rw [hiff u h0 h1, geB_fin, geB_fin]
      constructor
      · rintro ⟨x, y⟩; exact ⟨x, by linarith⟩
      · rintro ⟨x, y⟩; exact ⟨x, by linarith⟩
    · rw [← Option.some.inj h, hst]
      by_cases hp : Ext.lt (.fin 0) (.fin a)
      · simp only [hp, if_true, true_iff]; exact not_le.2 hp
      · simp only [hp, if_false, Bool.false_eq_true, false_iff, not_not]; exact not_lt.1 hp
  | .fin a, .pinf, hs, he => exact absurd (Or.inl trivial) h3
  | .pinf, .fin b, hs, he => exact absurd (Or.inl trivial) h3
  | .pinf, .pinf, hs, he => exact absurd (Or.inl trivial) h3

/-- When `clip_ray_to_box` returns nothing the ray meets the box in at most one point. -/
theorem C38_box_failure {n : ℕ} (ray : RayStartEnd n) (box : ClipBox n) (hbox : ∀ d, box.lo d ≤ box.hi d)
    (h : clipRayToBox ray box = none) (u v : ℝ) (hu : 0 ≤ u ∧ u ≤ 1) (hv : 0 ≤ v ∧ v ≤ 1)
    (hbu : inBox box (rayAt ray u)) (hbv : inBox box (rayAt ray v)) : u = v := by
  obtain ⟨hs, he, hiff⟩ := clip_core ray box hbox
  unfold clipRayToBox at h
  set ts := (List.finRange n).foldl (fun a d => clipStart (box.lo d) (box.hi d) (ray.start d) (ray.stop d) a) (.fin 0)
  set te := (List.finRange n).foldl (fun a d => clipEnd (box.lo d) (box.hi d) (ray.start d) (ray.stop d) a) (.fin 0)
  clear_value ts te
  simp only at h
  split at h
  · rename_i hc
    have h1 := (hiff u hu.1 hu.2).1 hbu
    have h2 := (hiff v hv.1 hv.2).1 hbv
    match ts, te, hs, he with
    | .fin a, .fin b, hs, he =>
      rw [geB_fin, geB_fin] at h1 h2
      have hab : 1 ≤ a + b := by
        rcases hc with hc | hc | hc
        · exact absurd hc (not_lt.2 hs)
        · exact absurd hc (not_lt.2 he)
        · rcases hc with hc | ⟨hc, _⟩
          · exact (show (1:ℝ) < a + b from hc).le
          · have : (1 : ℝ) = a + b := by
              have hc' : Ext.fin 1 = .fin (a + b) := hc
              injection hc'
            exact this.le
      linarith [h1.1, h1.2, h2.1, h2.2]
    | .fin a, .pinf, hs, he => exact ((geB_pinf _).1 h1.2).elim
    | .pinf, .fin b, hs, he => exact ((geB_pinf _).1 h1.1).elim
    | .pinf, .pinf, hs, he => exact ((geB_pinf _).1 h1.1).elim
  · simp at h

/-- A ray from (-1, 0.5) to (3, 0.5), parallel to the sides of the unit square. -/
noncomputable def demoRay : RayStartEnd 2 := { start := ![-1, 1 / 2], stop := ![3, 1 / 2] }
/-- The unit square. -/
def demoBox : ClipBox 2 := { lo := ![0, 0], hi := ![1, 1] }

/-- Non-vacuity: the demo ray is clipped (the success theorem applies) and a shifted one is rejected. -/
example : (∃ res, clipRayToBox demoRay demoBox = some res) ∧
    clipRayToBox { start := ![-1, 2], stop := ![3, 2] } demoBox = none := by
  constructor
  · by_contra hc
    push Not at hc
    have hnone : clipRayToBox demoRay demoBox = none := by
      cases h : clipRayToBox demoRay demoBox with
      | none => rfl
      | some r => exact absurd h (hc r)
    have hb : ∀ d, demoBox.lo d ≤ demoBox.hi d := by intro d; fin_cases d <;> simp [demoBox]
    have := C38_box_failure demoRay demoBox hb hnone (1 / 4) (1 / 2) ⟨by norm_num, by norm_num⟩ ⟨by norm_num, by norm_num⟩
      (by intro d; fin_cases d <;> simp [demoBox, demoRay, rayAt] <;> norm_num)
      (by intro d; fin_cases d <;> simp [demoBox, demoRay, rayAt] <;> norm_num)
    norm_num at this
  · cases h : clipRayToBox { start := ![-1, 2], stop := ![3, 2] } demoBox with
    | none => rfl
    | some r =>
      have hb : ∀ d, demoBox.lo d ≤ demoBox.hi d := by intro d; fin_cases d <;> simp [demoBox]
      obtain ⟨a, b, h1, h2, h3, _, _, h4, _⟩ := C38_box_success _ demoBox hb r h
      have := ((h4 a h1 (by linarith)).2 ⟨le_rfl, h2.le⟩ 1).2
      simp [rayAt, demoBox] at this

/-! ### The clipper of the grid traversal -/

/-- The box that `RaySegment::clip` really clips to: the grid without a rim of width `shrink`. -/
def innerBox {n : ℕ} (bbox : Bbox n) (shrink : ℝ) (p : Fin n → ℝ) : Prop :=
  ∀ i, (bbox.min i : ℝ) + shrink ≤ p i ∧ p i ≤ bbox.max i - shrink

/-- `RaySegment::clip`, unless a direction component is a negative zero and the origin lies exactly on that side of the inner
box: success returns the parameters `t` of the
segment for which the ray is in the inner box, all of them and no others; the flag is set exactly when the start of
the segment was outside; failure means no point of the segment is in the inner box (or that it is empty).
The rest of the ray is unchanged. -/
theorem C38_segment_partial {n : ℕ} (hn : 0 < n) (r : RaySeg n) (bbox : Bbox n) (shrink : ℝ)
    (hz : ∀ i, r.d i = 0 → r.negZero i = false ∨ (r.o i ≠ bbox.min i + shrink ∧ r.o i ≠ bbox.max i - shrink)) :
    match r.clip bbox shrink with
    | some (r', clipped) =>
        (r' = { r with t0 := r'.t0, t1 := r'.t1 }) ∧ r'.t0 ≤ r'.t1 ∧
        (∀ t, (r'.t0 ≤ t ∧ t ≤ r'.t1) ↔ ((r.t0 ≤ t ∧ t ≤ r.t1) ∧ innerBox bbox shrink (r.pt t))) ∧
        (clipped = true ↔ ¬ innerBox bbox shrink (r.pt r.t0))
    | none => (∃ i, (bbox.max i : ℝ) - shrink ≤ bbox.min i + shrink) ∨
        ∀ t, r.t0 ≤ t → t ≤ r.t1 → ¬ innerBox bbox shrink (r.pt t) := by
  by_cases h01 : r.t0 ≤ r.t1
  · have h := intersectsLoop_spec r bbox shrink r.t0 r.t1 hz (List.finRange n) (.fin r.t0) (.fin r.t1)
      (show r.t0 ≤ r.t0 from le_rfl) (show r.t1 ≤ r.t1 from le_rfl) (show ¬ r.t1 < r.t0 from not_lt.2 h01)
    unfold RaySeg.clip RaySeg.intersects
    revert h
    rcases intersectsLoop r bbox shrink (List.finRange n) (.fin r.t0) (.fin r.t1) with ⟨ok, a, b⟩
    cases ok
    · rintro (⟨i, _, h⟩ | h)
      · exact Or.inl ⟨i, h⟩
      · right
        intro t ht0 ht1 hin
        obtain ⟨i, _, hh⟩ := h t ((geB_fin _ _).2 ht0) ((leB_fin _ _).2 ht1)
        exact hh (hin i)
    · rintro ⟨h1, h2, h3, h4, h5⟩
      match a, b, h1, h2, h3 with
      | .fin a, .fin b, h1, h2, h3 =>
        have h1 : r.t0 ≤ a := h1
        have h3 : a ≤ b := not_lt.1 h3
        have hin : ∀ t, (a ≤ t ∧ t ≤ b) ↔ ((r.t0 ≤ t ∧ t ≤ r.t1) ∧ innerBox bbox shrink (r.pt t)) := by
          intro t
          have := h5 t
          simp only [geB_fin, leB_fin, List.mem_finRange, forall_const] at this
          rw [this, and_assoc]; rfl
        refine ⟨rfl, h3, hin, ?_⟩
        have := hin r.t0
        simp only [decide_eq_true_eq, Ext.lt_fin_fin]
        constructor
        · intro hlt hb
          have := (this.2 ⟨⟨le_rfl, h01⟩, hb⟩).1
          linarith
        · intro hb
          by_contra hc
          have e : a = r.t0 := le_antisymm (not_lt.1 hc) h1
          exact hb (this.1 ⟨e.le, e ▸ h3⟩).2
      | .fin a, .ninf, h1, h2, h3 => exact absurd trivial h3
      | .pinf, .fin b, h1, h2, h3 => exact absurd trivial h3
      | .pinf, .ninf, h1, h2, h3 => exact absurd trivial h3
  · -- an empty segment is rejected at the first axis
    have hnone : r.clip bbox shrink = none := by
      obtain ⟨m, rfl⟩ : ∃ m, n = m + 1 := ⟨n - 1, by omega⟩
      unfold RaySeg.clip RaySeg.intersects
      rw [List.finRange_succ]
      unfold intersectsLoop
      by_cases hd : (bbox.max 0 : ℝ) - shrink ≤ bbox.min 0 + shrink
      · simp [hd]
      · simp only [hd, if_false]
        rw [if_pos (lower_lt_raise _ _ (not_le.1 h01) _ _)]
    rw [hnone]
    right
    intro t ht0 ht1
    exact absurd (le_trans ht0 ht1) h01

/-- Moving the origin does not move the segment: the ray at `s` after `update_origin(t)` is the ray at `s + t`
before, and the parameter range is shifted with it. -/
theorem C38_update_origin {n : ℕ} (r : RaySeg n) (t s : ℝ) :
    (r.updateOrigin t).pt s = r.pt (s + t) ∧ (r.updateOrigin t).t0 = r.t0 - t ∧ (r.updateOrigin t).t1 = r.t1 - t ∧
      (r.updateOrigin t).d = r.d := by
  refine ⟨?_, rfl, rfl, rfl⟩
  funext i
  simp only [RaySeg.updateOrigin, RaySeg.pt]
  ring

/-- A ray along x at z = 1/2. -/
noncomputable def demoSeg : RaySeg 2 := { o := ![-1, 1 / 2], d := ![1, 0], negZero := ![false, false], t0 := 0, t1 := 100 }
/-- One cell. -/
def demoBbox : Bbox 2 := { min := ![0, 0], max := ![1, 1] }

/-- Non-vacuity: the hypotheses hold for a ray along an axis and the clip succeeds. -/
example : (∀ i, demoSeg.d i = 0 → demoSeg.negZero i = false) ∧ (demoSeg.clip demoBbox (1 / 10000)).isSome := by
  have hz : ∀ i, demoSeg.d i = 0 → demoSeg.negZero i = false := by
    intro i; fin_cases i <;> simp [demoSeg]
  refine ⟨hz, ?_⟩
  have := C38_segment_partial (by norm_num) demoSeg demoBbox (1 / 10000) (fun i h => Or.inl (hz i h))
  cases h : demoSeg.clip demoBbox (1 / 10000) with
  | some _ => rfl
  | none =>
    rw [h] at this
    rcases this with ⟨i, hi⟩ | h'
    · exfalso; revert hi; fin_cases i <;> simp [demoBbox] <;> norm_num
    · exfalso
      refine h' (3 / 2) (by simp [demoSeg]; norm_num) (by simp [demoSeg]; norm_num) ?_
      intro i; fin_cases i <;> simp [demoBbox, demoSeg, RaySeg.pt] <;> norm_num

/-- REFUTED in full, 1: the part of the ray in the rim of the grid (1e-4 of a cell by default) is thrown away; a
segment that lies in the grid, but in the rim, is rejected, for every positive rim. -/
theorem C38_rim_refuted (shrink : ℝ) (hs : 0 < shrink) (hs2 : shrink < 1 / 2) :
    let r : RaySeg 2 := { o := ![1 / 2, shrink / 2], d := ![1, 0], negZero := ![false, false], t0 := 0, t1 := 1 / 4 }
    r.clip demoBbox shrink = none ∧
      ∀ t, r.t0 ≤ t → t ≤ r.t1 → ∀ i, (demoBbox.min i : ℝ) < r.pt t i ∧ r.pt t i < demoBbox.max i := by
  intro r
  constructor
  · have hz : ∀ i, r.d i = 0 → r.negZero i = false := by intro i; fin_cases i <;> simp [r]
    have := C38_segment_partial (by norm_num) r demoBbox shrink (fun i h => Or.inl (hz i h))
    cases h : r.clip demoBbox shrink with
    | none => rfl
    | some x =>
      rw [h] at this
      obtain ⟨_, h1, h2, _⟩ := this
      have := ((h2 x.1.t0).1 ⟨le_rfl, h1⟩).2 1
      simp [r, demoBbox, RaySeg.pt] at this
      exfalso; linarith [this.1]
  · intro t h0 h1 i
    simp only [r] at h0 h1
    fin_cases i <;> simp [r, demoBbox, RaySeg.pt] <;> constructor <;> linarith

/-- REFUTED in full, 2: with a direction component equal to negative zero a ray on the inner boundary is rejected,
although it is in the inner box and the same ray with a positive zero is accepted. -/
theorem C38_negative_zero_refuted :
    let r : Bool → RaySeg 2 := fun z => { o := ![1 / 2, 1 / 10000], d := ![1, 0], negZero := ![false, z], t0 := 0, t1 := 1 / 4 }
    (r true).clip demoBbox (1 / 10000) = none ∧ ((r false).clip demoBbox (1 / 10000)).isSome ∧
      ∀ z t, 0 ≤ t → t ≤ 1 / 4 → innerBox demoBbox (1 / 10000) ((r z).pt t) := by
  intro r
  have hin : ∀ z t, 0 ≤ t → t ≤ 1 / 4 → innerBox demoBbox (1 / 10000) ((r z).pt t) := by
    intro z t h0 h1 i
    fin_cases i <;> simp [r, demoBbox, RaySeg.pt] <;> norm_num <;> constructor <;> linarith
  refine ⟨?_, ?_, hin⟩
  · have hlr : List.finRange 2 = [0, 1] := by decide
    have e0a : Ext.smul ((demoBbox.min 0 : ℝ) + 1 / 10000 - (r true).o 0) ((r true).invD 0) = .fin (-4999 / 10000) := by
      simp [RaySeg.invD, r, Ext.div, Ext.smul, demoBbox]; norm_num
    have e0b : Ext.smul ((demoBbox.max 0 : ℝ) - 1 / 10000 - (r true).o 0) ((r true).invD 0) = .fin (4999 / 10000) := by
      simp [RaySeg.invD, r, Ext.div, Ext.smul, demoBbox]; norm_num
    have e1a : Ext.smul ((demoBbox.min 1 : ℝ) + 1 / 10000 - (r true).o 1) ((r true).invD 1) = .nan := by
      simp [RaySeg.invD, r, Ext.div, Ext.smul, demoBbox]
    have e1b : Ext.smul ((demoBbox.max 1 : ℝ) - 1 / 10000 - (r true).o 1) ((r true).invD 1) = .ninf := by
      simp [RaySeg.invD, r, Ext.div, Ext.smul, demoBbox]; norm_num
    have c0 : ¬ ((demoBbox.max 0 : ℝ) - 1 / 10000 ≤ demoBbox.min 0 + 1 / 10000) := by simp [demoBbox]; norm_num
    have c1 : ¬ ((demoBbox.max 1 : ℝ) - 1 / 10000 ≤ demoBbox.min 1 + 1 / 10000) := by simp [demoBbox]; norm_num
    have l1 : ¬ Ext.lt (.fin (4999 / 10000)) (.fin (-4999 / 10000)) := by rw [Ext.lt_fin_fin]; norm_num
    have l2 : ¬ Ext.lt (.fin (min (1 / 4) (4999 / 10000))) (.fin (max 0 (-4999 / 10000))) := by
      rw [Ext.lt_fin_fin]; norm_num
    have l3 : ¬ Ext.lt .ninf .nan := fun h => h
    have m1 : Ext.raise (.fin (max 0 (-4999 / 10000))) .nan = .fin (max 0 (-4999 / 10000)) := by
      unfold Ext.raise; exact if_neg (fun h => h)
    have m2 : Ext.lower (.fin (min (1 / 4) (4999 / 10000))) .ninf = .ninf := by
      unfold Ext.lower; exact if_pos trivial
    have l4 : Ext.lt .ninf (.fin (max 0 (-4999 / 10000))) := trivial
    have t0 : (r true).t0 = 0 := rfl
    have t1 : (r true).t1 = 1 / 4 := rfl
    unfold RaySeg.clip RaySeg.intersects
    rw [hlr]
    simp only [intersectsLoop, e0a, e0b, e1a, e1b, c0, c1, if_false, l1, raise_fin, lower_fin, t0, t1, l2, l3, m1, m2, l4, if_true]
  · have hz : ∀ i, (r false).d i = 0 → (r false).negZero i = false := by intro i; fin_cases i <;> simp [r]
    have := C38_segment_partial (by norm_num) (r false) demoBbox (1 / 10000) (fun i h => Or.inl (hz i h))
    cases h : (r false).clip demoBbox (1 / 10000) with
    | some _ => rfl
    | none =>
      rw [h] at this
      rcases this with ⟨i, hi⟩ | h'
      · exfalso; revert hi; fin_cases i <;> simp [demoBbox] <;> norm_num
      · exact absurd (hin false 0 le_rfl (by norm_num)) (h' 0 le_rfl (by simp [r]))

end DexRT
