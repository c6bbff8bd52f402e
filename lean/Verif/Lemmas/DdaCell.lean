import Verif.Lemmas.Dda
/-! Lemmas for the grid traversal: the start, and which cell a step is in. -/
namespace DexRT
open Classical

variable {dim : DdaDim}

theorem exitTime_mono (r : DdaRay dim) (c : Fin dim.n → ℤ) (size : ℤ) (hs : 1 ≤ size) (i : Fin dim.n)
    (h0 : r.d i ≠ 0) : exitTime r c 1 i ≤ exitTime r (fun j => maskCoord (c j) size) size i := by
  obtain ⟨h1, h2⟩ := maskCoord_bounds (c i) size hs
  have h1' : ((maskCoord (c i) size : ℤ) : ℝ) ≤ (c i : ℝ) := by exact_mod_cast h1
  have h2' : (c i : ℝ) + 1 ≤ (maskCoord (c i) size : ℤ) + (size : ℝ) := by
    exact_mod_cast (by omega : c i + 1 ≤ maskCoord (c i) size + size)
  unfold exitTime
  rcases lt_or_gt_of_ne h0 with hn | hp
  · rw [if_neg (not_lt.2 hn.le), if_neg (not_lt.2 hn.le), div_le_div_right_of_neg hn]; linarith
  · rw [if_pos hp, if_pos hp]
    apply div_le_div_of_nonneg_right _ hp.le
    push_cast
    linarith

theorem exitTime_step (r : DdaRay dim) (c : Fin dim.n → ℤ) (size : ℤ) (ax i : Fin dim.n) (h0 : r.d i ≠ 0) :
    exitTime r (Function.update c ax (c ax + size * r.stepDir ax)) size i =
      if i = ax then exitTime r c size i + (size : ℝ) * r.deltaOf ax else exitTime r c size i := by
  by_cases hi : i = ax
  · subst hi
    rw [if_pos rfl]
    unfold exitTime DdaRay.stepDir DdaRay.deltaOf
    rw [Function.update_self, if_neg h0]
    rcases lt_or_gt_of_ne h0 with hn | hp
    · simp only [if_neg (not_lt.2 hn.le)]
      push_cast
      field_simp
      ring
    · simp only [if_pos hp]
      push_cast
      field_simp
      ring
  · rw [if_neg hi]
    unfold exitTime
    rw [Function.update_of_ne hi]

/-- The faces of the current cell are not behind the origin of the ray. -/
def FacesAhead (r : DdaRay dim) (s : Dda dim) : Prop := ∀ i, r.d i ≠ 0 → 0 ≤ exitTime r s.coord s.size i

theorem nextIntersection_faces (r : DdaRay dim) (s : Dda dim) (hs : 1 ≤ s.size) (h : FacesAhead r s) :
    FacesAhead r (nextIntersection r s) := by
  intro i h0
  show 0 ≤ exitTime r (Function.update s.coord s.axis (s.coord s.axis + s.size * r.stepDir s.axis)) s.size i
  rw [exitTime_step r s.coord s.size s.axis i h0]
  have := h i h0
  split
  · have hd := deltaOf_nonneg r s.axis
    have : (1 : ℝ) ≤ (s.size : ℝ) := by exact_mod_cast hs
    nlinarith
  · exact this

theorem initState_faces (e : DdaEnv dim) (r : DdaRay dim) (hb : 1 ≤ e.block) :
    FacesAhead r (initState e r) ∧ DdaPre r (initState e r) := by
  have hsz : 1 ≤ (initState e r).size := by
    unfold initState; simp only; split_ifs
    · exact hb
    · exact le_rfl
  have hex : ∀ i, r.d i ≠ 0 → (0 + 1e-6 : ℝ) ≤ exitTime r (initState e r).coord (initState e r).size i :=
    fun i h0 => exitTime_ge_floor r (0 + 1e-6) (initState e r).size hsz i h0
  refine ⟨fun i h0 => by have := hex i h0; linarith, ⟨le_rfl, fun i => ?_, fun i hi => ?_, hsz⟩⟩
  · by_cases h0 : r.d i = 0
    · show (-1 : ℝ) ≤ (if r.d i = 0 then 1e24 else _)
      rw [if_pos h0]; norm_num
    · have h1 := hex i h0
      have h2 : (initState e r).nextHit i = exitTime r (initState e r).coord (initState e r).size i - 1e-6 := by
        show (if r.d i = 0 then (1e24 : ℝ) else if 0 < 1 / r.d i then 0 + (((initState e r).coord i : ℝ) + ((initState e r).size : ℝ) - r.pt (0 + 1e-6) i) * (1 / r.d i)
          else 0 + (((initState e r).coord i : ℝ) - r.pt (0 + 1e-6) i) * (1 / r.d i)) = _
        rw [if_neg h0]
        unfold exitTime DdaRay.pt
        simp only [one_div_pos]
        split
        · field_simp; ring
        · field_simp; ring
      rw [h2]; linarith
  · show (1e24 : ℝ) ≤ (if r.d i = 0 then 1e24 else _)
    rw [if_pos hi]

theorem walkIn_spec (e : DdaEnv dim) (r : DdaRay dim) : ∀ fuel (s s' : Dda dim), DdaInv r s → FacesAhead r s →
    walkIn e r fuel s = some s' →
    DdaInv r s' ∧ FacesAhead r s' ∧ s'.size = s.size ∧ e.inBounds s'.coord ∧ ¬ s'.dt < 1e-6
  | fuel, s, s', h, hf, hw => by
    unfold walkIn at hw
    by_cases hc : ¬ e.inBounds s.coord ∨ (e.inBounds s.coord ∧ s.dt < 1e-6)
    · rw [if_pos hc] at hw
      cases fuel with
      | zero => simp at hw
      | succ f =>
        obtain ⟨a, b, c, d⟩ := walkIn_spec e r f (nextIntersection r s) s' (nextIntersection_inv r s h)
          (nextIntersection_faces r s h.size hf) hw
        exact ⟨a, b, c, d⟩
    · rw [if_neg hc] at hw
      push Not at hc
      rw [← Option.some.inj hw]
      exact ⟨h, hf, rfl, hc.1, not_lt.2 (hc.2 hc.1)⟩

theorem updateMip_locked_inv (e : DdaEnv dim) (r : DdaRay dim) (s : Dda dim) (hb : 1 ≤ e.block) (h : DdaInv r s)
    (hf : ∀ i, r.d i ≠ 0 → 0 ≤ exitTime r (fun j => maskCoord (s.coord j) (e.stepSize (e.sampleLevel s.coord)))
      (e.stepSize (e.sampleLevel s.coord)) i) : DdaInv r (updateMip e r true s) := by
  have hsz := stepSize_pos e hb (e.sampleLevel s.coord)
  have : updateMip e r true s = computeAxisDt r
    { s with
      mip := e.sampleLevel s.coord,
      size := e.stepSize (e.sampleLevel s.coord),
      coord := fun i => maskCoord (s.coord i) (e.stepSize (e.sampleLevel s.coord)),
      nextHit := hitsFrom r s.t (fun i => maskCoord (s.coord i) (e.stepSize (e.sampleLevel s.coord)))
        (e.stepSize (e.sampleLevel s.coord)) s.nextHit } := rfl
  rw [this]
  apply computeAxisDt_inv
  refine ⟨h.t0, fun i => ?_, fun i hi => ?_, hsz⟩
  · simp only [hitsFrom_eq]
    split
    · exact h.nh i
    · rename_i h0; have := hf i h0; linarith
  · simp only [hitsFrom_eq, hi, if_true]
    exact h.still i hi

/-- `init` establishes the invariant when the start cell holds data, or when the ray starts in an empty block and
no step was needed to walk in. -/
theorem ddaInit_inv (e : DdaEnv dim) (r : DdaRay dim) (s : Dda dim) (hb : 1 ≤ e.block) (h : ddaInit e r = some s)
    (hstart : (initState e r).size = 1 ∨
      ((initState e r).size = e.block ∧ e.sampleLevel (initState e r).coord < 0 ∧ e.inBounds (initState e r).coord ∧
        ¬ (computeAxisDt r (initState e r)).dt < 1e-6)) : DdaInv r s := by
  obtain ⟨hf0, hp0⟩ := initState_faces e r hb
  have hi0 := computeAxisDt_inv r _ hp0
  have hfc : FacesAhead r (computeAxisDt r (initState e r)) := hf0
  unfold ddaInit at h
  split at h
  · simp at h
  · obtain ⟨w, hw, hs⟩ := Option.map_eq_some_iff.1 h
    rw [← hs]
    rcases hstart with h1 | ⟨h1, h2, h3, h4⟩
    · obtain ⟨hi, hf, hsz, _⟩ := walkIn_spec e r 32 _ w hi0 hfc hw
      have hsz1 : w.size = 1 := hsz.trans h1
      apply updateMip_locked_inv e r w hb hi
      intro i h0
      refine le_trans (hf i h0) ?_
      rw [hsz1]
      exact exitTime_mono r w.coord _ (stepSize_pos e hb _) i h0
    · have hwe : w = computeAxisDt r (initState e r) := by
        unfold walkIn at hw
        rw [if_neg] at hw
        · exact (Option.some.inj hw).symm
        · push Not
          exact ⟨h3, fun _ => not_lt.1 h4⟩
      subst hwe
      apply updateMip_locked_inv e r _ hb hi0
      intro i h0
      have hst : e.stepSize (e.sampleLevel (computeAxisDt r (initState e r)).coord) = e.block := if_pos h2
      rw [hst]
      have hm : ∀ j, maskCoord ((computeAxisDt r (initState e r)).coord j) e.block = (initState e r).coord j := by
        intro j
        have hsz : (initState e r).coord j = maskCoord ⌊r.pt (0 + 1e-6) j⌋ (initState e r).size := rfl
        show maskCoord ((initState e r).coord j) e.block = (initState e r).coord j
        rw [hsz, h1]
        unfold maskCoord
        rw [Int.mul_ediv_cancel _ (by omega)]
      simp only [hm]
      rw [← h1]
      exact hf0 i h0

/-! ### Which cell -/

/-- The ray at `τ` is in the closed cell of `s`. -/
def InCell (r : DdaRay dim) (s : Dda dim) (τ : ℝ) : Prop :=
  ∀ i, (s.coord i : ℝ) ≤ r.pt τ i ∧ r.pt τ i ≤ (s.coord i : ℝ) + s.size

/-- Strictly before the ray leaves the cell through any face: `s.t` is not itself the time of a crossing. -/
def NoTie (r : DdaRay dim) (s : Dda dim) : Prop := ∀ i, r.d i ≠ 0 → s.t < exitTime r s.coord s.size i

/-- The hits are the exit times, the position is in the cell, and the step ends no later than the cell. -/
structure DdaExact (r : DdaRay dim) (s : Dda dim) : Prop where
  hits : ∀ i, r.d i ≠ 0 → s.nextHit i = exitTime r s.coord s.size i
  cell : InCell r s s.t
  bound : ∀ i, r.d i ≠ 0 → s.t + s.dt ≤ exitTime r s.coord s.size i

theorem computeAxisDt_exact (r : DdaRay dim) (s : Dda dim) (ht1 : r.t1 ≤ 1e24) (hpre : DdaPre r s)
    (hh : ∀ i, r.d i ≠ 0 → s.nextHit i = exitTime r s.coord s.size i) (hc : InCell r s s.t) (hn : NoTie r s) :
    DdaExact r (computeAxisDt r s) := by
  have hinv := computeAxisDt_inv r s hpre
  have hkeep : ∀ i, r.d i ≠ 0 → (computeAxisDt r s).nextHit i = s.nextHit i := by
    intro i h0
    unfold computeAxisDt
    simp only
    split
    · rename_i hle
      by_cases hi : i = pickAxis dim s.nextHit
      · exfalso
        have := hn i h0
        rw [← hh i h0, hi] at this
        linarith
      · rw [Function.update_of_ne hi]
    · rfl
  refine ⟨fun i h0 => (hkeep i h0).trans (hh i h0), hc, fun i h0 => ?_⟩
  have hti : s.t < s.nextHit i := by rw [hh i h0]; exact hn i h0
  show s.t + (computeAxisDt r s).dt ≤ exitTime r s.coord s.size i
  rw [← hh i h0, hinv.dteq]
  have e1 : (computeAxisDt r s).t = s.t := rfl
  rw [e1]
  by_cases hm : r.d (computeAxisDt r s).axis = 0
  · have h1 : 1e24 ≤ s.nextHit i :=
      le_trans (hpre.still _ hm) (pickAxis_le dim s.nextHit i)
    have h2 : (if r.t1 < (computeAxisDt r s).nextHit (computeAxisDt r s).axis then r.t1
        else (computeAxisDt r s).nextHit (computeAxisDt r s).axis) ≤ r.t1 := by
      split
      · exact le_rfl
      · rename_i h; exact not_lt.1 h
    rcases max_cases ((if r.t1 < (computeAxisDt r s).nextHit (computeAxisDt r s).axis then r.t1
        else (computeAxisDt r s).nextHit (computeAxisDt r s).axis) - s.t) 0 with ⟨hx, _⟩ | ⟨hx, _⟩ <;> rw [hx] <;> linarith
  · have h2 : (if r.t1 < (computeAxisDt r s).nextHit (computeAxisDt r s).axis then r.t1
        else (computeAxisDt r s).nextHit (computeAxisDt r s).axis) ≤ s.nextHit i := by
      rw [hkeep _ hm]
      have : s.nextHit (computeAxisDt r s).axis ≤ s.nextHit i := pickAxis_le dim s.nextHit i
      split
      · linarith
      · exact this
    rcases max_cases ((if r.t1 < (computeAxisDt r s).nextHit (computeAxisDt r s).axis then r.t1
        else (computeAxisDt r s).nextHit (computeAxisDt r s).axis) - s.t) 0 with ⟨hx, _⟩ | ⟨hx, _⟩ <;> rw [hx] <;> linarith

/-- The whole step is in the cell. -/
theorem DdaExact.segment {r : DdaRay dim} {s : Dda dim} (h : DdaExact r s) (τ : ℝ) (h0 : s.t ≤ τ) (h1 : τ ≤ s.t + s.dt) :
    InCell r s τ := by
  intro i
  obtain ⟨c1, c2⟩ := h.cell i
  by_cases hd : r.d i = 0
  · unfold DdaRay.pt at *
    rw [hd] at c1 c2 ⊢
    constructor <;> linarith
  · have hb := le_trans h1 (h.bound i hd)
    unfold exitTime at hb
    unfold DdaRay.pt at *
    rcases lt_or_gt_of_ne hd with hn | hp
    · rw [if_neg (not_lt.2 hn.le), le_div_iff_of_neg hn] at hb
      constructor
      · linarith
      · nlinarith
    · rw [if_pos hp, le_div_iff₀ hp] at hb
      constructor
      · nlinarith
      · linarith

theorem floor_inCell (r : DdaRay dim) (t : ℝ) (size : ℤ) (hs : 1 ≤ size) (i : Fin dim.n) :
    ((maskCoord ⌊r.pt t i⌋ size : ℤ) : ℝ) ≤ r.pt t i ∧ r.pt t i ≤ (maskCoord ⌊r.pt t i⌋ size : ℤ) + (size : ℝ) := by
  obtain ⟨h1, h2⟩ := maskCoord_bounds ⌊r.pt t i⌋ size hs
  have f1 : ((⌊r.pt t i⌋ : ℤ) : ℝ) ≤ r.pt t i := Int.floor_le _
  have f2 : r.pt t i < ((⌊r.pt t i⌋ : ℤ) : ℝ) + 1 := Int.lt_floor_add_one _
  have h1' : ((maskCoord ⌊r.pt t i⌋ size : ℤ) : ℝ) ≤ (⌊r.pt t i⌋ : ℤ) := by exact_mod_cast h1
  have h2' : ((⌊r.pt t i⌋ : ℤ) : ℝ) + 1 ≤ (maskCoord ⌊r.pt t i⌋ size : ℤ) + (size : ℝ) := by
    exact_mod_cast (by omega : ⌊r.pt t i⌋ + 1 ≤ maskCoord ⌊r.pt t i⌋ size + size)
  constructor <;> linarith

theorem nextIntersection_exact (e : DdaEnv dim) (r : DdaRay dim) (s : Dda dim) (ht1 : r.t1 ≤ 1e24) (h : DdaInv r s)
    (hx : DdaExact r s) (hlt : s.nextHit s.axis < r.t1) (hn : NoTie r (nextIntersection r s)) :
    DdaExact r (nextIntersection r s) := by
  have hmove : r.d s.axis ≠ 0 := fun h0 => by have := h.still s.axis h0; linarith
  have hend : s.t + s.dt = s.nextHit s.axis := by
    rw [h.dteq, if_neg (not_lt.2 hlt.le), max_eq_left (by linarith [h.ahead])]; ring
  refine computeAxisDt_exact r _ ht1 (nextIntersection_pre r s h) ?_ ?_ hn
  · intro i h0
    show Function.update s.nextHit s.axis _ i = exitTime r (Function.update s.coord s.axis _) s.size i
    rw [exitTime_step r s.coord s.size s.axis i h0]
    by_cases hi : i = s.axis
    · subst hi
      rw [Function.update_self, if_pos rfl, hx.hits s.axis h0]
    · rw [Function.update_of_ne hi, if_neg hi, hx.hits i h0]
  · intro i
    show ((Function.update s.coord s.axis _ i : ℤ) : ℝ) ≤ r.pt (s.nextHit s.axis) i ∧
      r.pt (s.nextHit s.axis) i ≤ ((Function.update s.coord s.axis _ i : ℤ) : ℝ) + s.size
    have hseg := hx.segment (s.nextHit s.axis) h.ahead hend.ge i
    by_cases hi : i = s.axis
    · subst hi
      rw [Function.update_self]
      have hsz : (1 : ℝ) ≤ (s.size : ℝ) := by exact_mod_cast h.size
      have hface : r.pt (s.nextHit s.axis) s.axis = (s.coord s.axis : ℝ) + (if 0 < r.d s.axis then (s.size : ℝ) else 0) := by
        rw [hx.hits s.axis hmove]
        unfold exitTime DdaRay.pt
        field_simp
        ring
      rw [hface]
      unfold DdaRay.stepDir
      rw [if_neg hmove]
      split
      · push_cast; constructor <;> linarith
      · push_cast; constructor <;> linarith
    · rw [Function.update_of_ne hi]
      exact hseg

theorem advance_exact (e : DdaEnv dim) (r : DdaRay dim) (s s' : Dda dim) (hb : 1 ≤ e.block) (ht1 : r.t1 ≤ 1e24)
    (h : DdaInv r s) (hx : DdaExact r s) (ha : advance e r s = some s') (hn : NoTie r s') : DdaExact r s' := by
  have hlt := (advance_some e r s s' hb h ha).2.2
  rw [advance_eq, if_pos hlt] at ha
  by_cases hm : e.sampleLevel (entered r s) = s.mip ∧ 0 ≤ e.sampleLevel (entered r s)
  · rw [if_pos hm] at ha
    rw [← Option.some.inj ha] at hn ⊢
    exact nextIntersection_exact e r s ht1 h hx hlt hn
  · rw [if_neg hm] at ha
    rw [← Option.some.inj ha] at hn ⊢
    have hi := nextIntersection_inv r s h
    obtain ⟨n1, n2, n3⟩ := nudge_fields e (e.sampleLevel (entered r s)) (nextIntersection r s)
    generalize hS : nudge e (e.sampleLevel (entered r s)) (nextIntersection r s) = S at *
    have hS0 : 0 ≤ S.t := by rw [n3]; have := hi.t0; split_ifs <;> linarith
    have hsz := stepSize_pos e hb (e.sampleLevel fun i => ⌊r.pt (S.t + 1e-3) i⌋)
    have heq : updateMip e r false S = computeAxisDt r
      { S with
        t := S.t + 1e-3,
        mip := e.sampleLevel fun i => ⌊r.pt (S.t + 1e-3) i⌋,
        size := e.stepSize (e.sampleLevel fun i => ⌊r.pt (S.t + 1e-3) i⌋),
        coord := fun i => maskCoord ⌊r.pt (S.t + 1e-3) i⌋ (e.stepSize (e.sampleLevel fun i => ⌊r.pt (S.t + 1e-3) i⌋)),
        nextHit := hitsFrom r (S.t + 1e-3) (fun i => maskCoord ⌊r.pt (S.t + 1e-3) i⌋ (e.stepSize (e.sampleLevel fun i => ⌊r.pt (S.t + 1e-3) i⌋)))
          (e.stepSize (e.sampleLevel fun i => ⌊r.pt (S.t + 1e-3) i⌋)) S.nextHit } := rfl
    rw [heq] at hn ⊢
    refine computeAxisDt_exact r _ ht1 ⟨by simp only; linarith, fun i => ?_, fun i hi' => ?_, hsz⟩ ?_ ?_ hn
    · simp only [hitsFrom_eq]
      split
      · rw [n1]; exact hi.nh i
      · rename_i h0
        have := exitTime_ge_floor r (S.t + 1e-3) _ hsz i h0
        linarith
    · simp only [hitsFrom_eq, hi', if_true]
      rw [n1]; exact hi.still i hi'
    · intro i h0
      simp only [hitsFrom_eq, h0, if_false]
    · intro i
      exact floor_inCell r (S.t + 1e-3) _ hsz i

theorem visits_exact (e : DdaEnv dim) (r : DdaRay dim) (hb : 1 ≤ e.block) (ht1 : r.t1 ≤ 1e24) :
    ∀ fuel (s : Dda dim), DdaInv r s → DdaExact r s → (∀ v ∈ visits e r fuel s, NoTie r v) →
      ∀ v ∈ visits e r fuel s, DdaExact r v
  | 0, s, _, hx, _, v, hv => by
    simp only [visits, List.mem_singleton] at hv
    subst hv; exact hx
  | fuel + 1, s, h, hx, hn, v, hv => by
    simp only [visits] at hv hn
    cases ha : advance e r s with
    | none =>
      rw [ha] at hv
      simp only [List.mem_singleton] at hv
      subst hv; exact hx
    | some s' =>
      rw [ha] at hv hn
      have hn' : ∀ v ∈ visits e r fuel s', NoTie r v := fun v hv => hn v (by simp [hv])
      obtain ⟨l, hl⟩ := visits_head e r fuel s'
      have hx' := advance_exact e r s s' hb ht1 h hx ha (hn' s' (by rw [hl]; simp))
      rcases List.mem_cons.1 hv with rfl | hv
      · exact hx
      · exact visits_exact e r hb ht1 fuel s' (advance_some e r s s' hb h ha).1 hx' hn' v hv

/-! ### Which level -/

/-- The level marched is the level of the cell. -/
def LevelOk (e : DdaEnv dim) (s : Dda dim) : Prop := s.mip = e.sampleLevel s.coord ∧ s.size = e.stepSize s.mip

theorem updateMip_level (e : DdaEnv dim) (r : DdaRay dim) (lock : Bool) (s : Dda dim)
    (hblk : ∀ c m, (m < 0 ∨ m ≤ e.maxMip) → e.lvl (fun i => maskCoord (c i) (e.stepSize m)) = e.lvl c) :
    LevelOk e (updateMip e r lock s) := by
  constructor
  · show e.sampleLevel _ = e.sampleLevel (fun i => maskCoord _ _)
    unfold DdaEnv.sampleLevel
    rw [hblk _ _ (Or.inr (min_le_right _ _))]
  · rfl

theorem visits_level (e : DdaEnv dim) (r : DdaRay dim)
    (hblk : ∀ c m, (m < 0 ∨ m ≤ e.maxMip) → e.lvl (fun i => maskCoord (c i) (e.stepSize m)) = e.lvl c) :
    ∀ fuel (s : Dda dim), LevelOk e s → ∀ v ∈ visits e r fuel s, LevelOk e v
  | 0, s, h, v, hv => by
    simp only [visits, List.mem_singleton] at hv
    subst hv; exact h
  | fuel + 1, s, h, v, hv => by
    simp only [visits] at hv
    cases ha : advance e r s with
    | none =>
      rw [ha] at hv
      simp only [List.mem_singleton] at hv
      subst hv; exact h
    | some s' =>
      rw [ha] at hv
      rcases List.mem_cons.1 hv with rfl | hv
      · exact h
      · refine visits_level e r hblk fuel s' ?_ v hv
        rw [advance_eq] at ha
        split at ha
        · split at ha
          · rename_i hm
            rw [← Option.some.inj ha]
            exact ⟨hm.1.symm, h.2⟩
          · rw [← Option.some.inj ha]
            exact updateMip_level e r false _ hblk
        · simp at ha

/-- Every state has a non-negative step length, whatever the start. -/
theorem computeAxisDt_dt (r : DdaRay dim) (s : Dda dim) : 0 ≤ (computeAxisDt r s).dt := le_max_right _ _

theorem visits_dt (e : DdaEnv dim) (r : DdaRay dim) : ∀ fuel (s : Dda dim), 0 ≤ s.dt → ∀ v ∈ visits e r fuel s, 0 ≤ v.dt
  | 0, s, h, v, hv => by
    simp only [visits, List.mem_singleton] at hv
    subst hv; exact h
  | fuel + 1, s, h, v, hv => by
    simp only [visits] at hv
    cases ha : advance e r s with
    | none =>
      rw [ha] at hv
      simp only [List.mem_singleton] at hv
      subst hv; exact h
    | some s' =>
      rw [ha] at hv
      rcases List.mem_cons.1 hv with rfl | hv
      · exact h
      · refine visits_dt e r fuel s' ?_ v hv
        rw [advance_eq] at ha
        split at ha
        · split at ha
          · rw [← Option.some.inj ha]; exact computeAxisDt_dt r _
          · rw [← Option.some.inj ha]; exact computeAxisDt_dt r _
        · simp at ha

end DexRT
