import Verif.Lemmas.DdaStart
namespace DexRT
open Classical

variable {dim : DdaDim}

theorem mask_one (c : ℤ) : maskCoord c 1 = c := by simp [maskCoord]

/-- What holds of every state when all cells of the grid have level `m` and the ray is inside the grid. -/
structure Uni (e : DdaEnv dim) (r : DdaRay dim) (m sz : ℤ) (s : Dda dim) : Prop where
  inv : DdaInv r s
  mip : s.mip = m
  size : s.size = sz
  mult : ∀ i, sz ∣ s.coord i
  inb : e.inBounds s.coord
  hits : ∀ i, r.d i ≠ 0 → exitTime r s.coord sz i ≤ s.nextHit i
  lt : s.t < r.t1

theorem exitTime_pt (r : DdaRay dim) (c : Fin dim.n → ℤ) (sz : ℤ) (i : Fin dim.n) (h0 : r.d i ≠ 0) :
    r.pt (exitTime r c sz i) i = (c i : ℝ) + (if 0 < r.d i then (sz : ℝ) else 0) := by
  unfold exitTime DdaRay.pt; field_simp; ring

theorem Uni.entered {e : DdaEnv dim} {r : DdaRay dim} {m sz : ℤ} {s : Dda dim} (h : Uni e r m sz s)
    (hin : ∀ τ, 0 ≤ τ → τ ≤ r.t1 → ∀ i, 0 < r.pt τ i ∧ r.pt τ i < e.max i) (hlt : s.nextHit s.axis < r.t1)
    (hmove : r.d s.axis ≠ 0) : e.inBounds (entered r s) := by
  have hsz : 1 ≤ sz := by rw [← h.size]; exact h.inv.size
  intro i
  unfold DexRT.entered
  by_cases hia : i = s.axis
  · subst hia
    rw [Function.update_self, h.size]
    have hx := h.hits _ hmove
    have hp := exitTime_pt r s.coord sz s.axis hmove
    obtain ⟨p1, p2⟩ := hin (s.nextHit s.axis) (by linarith [h.inv.t0, h.inv.ahead]) hlt.le s.axis
    obtain ⟨b1, b2⟩ := h.inb s.axis
    unfold DdaRay.stepDir
    rw [if_neg hmove]
    unfold DdaRay.pt at *
    rcases lt_or_gt_of_ne hmove with hn | hpos
    · rw [if_neg (not_lt.2 hn.le)] at hp ⊢
      have hc : (0 : ℝ) < s.coord s.axis := by nlinarith
      have hc' : 0 < s.coord s.axis := by exact_mod_cast hc
      obtain ⟨k, hk⟩ := h.mult s.axis
      have hk' : 0 < k := (mul_pos_iff_of_pos_left (by omega : 0 < sz)).1 (hk ▸ hc')
      have : sz * 1 ≤ sz * k := mul_le_mul_of_nonneg_left (by omega) (by omega)
      rw [← hk] at this
      omega
    · rw [if_pos hpos] at hp ⊢
      have hc : (s.coord s.axis : ℝ) + sz < e.max s.axis := by nlinarith
      have hc' : s.coord s.axis + sz < e.max s.axis := by exact_mod_cast hc
      omega
  · rw [Function.update_of_ne hia]; exact h.inb i

theorem Uni.next {e : DdaEnv dim} {r : DdaRay dim} {m sz : ℤ} {s s' : Dda dim} (h : Uni e r m sz s) (hb : 1 ≤ e.block)
    (ht1 : r.t1 ≤ 1e24) (hin : ∀ τ, 0 ≤ τ → τ ≤ r.t1 → ∀ i, 0 < r.pt τ i ∧ r.pt τ i < e.max i)
    (hm : 0 ≤ m) (hl : ∀ c, e.inBounds c → e.sampleLevel c = m) (ha : advance e r s = some s') :
    Uni e r m sz s' ∧ s' = nextIntersection r s ∧ gapAfter e r s = 0 ∧ r.d s.axis ≠ 0 ∧ s.nextHit s.axis < r.t1 := by
  obtain ⟨hi', _, hlt⟩ := advance_some e r s s' hb h.inv ha
  have hmove : r.d s.axis ≠ 0 := fun h0 => by have := h.inv.still s.axis h0; linarith
  have hen := h.entered hin hlt hmove
  have hlev := hl _ hen
  rw [advance_eq, if_pos hlt, hlev, if_pos ⟨h.mip.symm, hm⟩] at ha
  have hs' := (Option.some.inj ha).symm
  have hco : s'.coord = DexRT.entered r s := by rw [hs']; rfl
  refine ⟨⟨hi', by rw [hs']; exact h.mip, by rw [hs']; exact h.size, ?_, by rw [hco]; exact hen, ?_, by rw [hs']; exact hlt⟩, hs', ?_, hmove, hlt⟩
  · intro i
    rw [hco]
    unfold DexRT.entered
    by_cases hia : i = s.axis
    · subst hia; rw [Function.update_self, h.size]; exact dvd_add (h.mult _) (dvd_mul_right _ _)
    · rw [Function.update_of_ne hia]; exact h.mult i
  · intro i h0
    have hge := computeAxisDt_nh_ge r _ (nextIntersection_pre r s h.inv) i
    rw [hco, hs']
    refine le_trans ?_ hge
    show exitTime r (Function.update s.coord s.axis (s.coord s.axis + s.size * r.stepDir s.axis)) sz i ≤
      Function.update s.nextHit s.axis (s.nextHit s.axis + (s.size : ℝ) * r.deltaOf s.axis) i
    rw [h.size, exitTime_step r s.coord sz s.axis i h0]
    have hx := h.hits i h0
    split
    · rename_i hia; subst hia
      rw [Function.update_self]; linarith
    · rename_i hia
      rw [Function.update_of_ne hia]; exact hx
  · unfold gapAfter
    simp only
    rw [hlev, if_pos ⟨h.mip.symm, hm⟩]

theorem visits_uni {e : DdaEnv dim} {r : DdaRay dim} {m sz : ℤ} (hb : 1 ≤ e.block)
    (ht1 : r.t1 ≤ 1e24) (hin : ∀ τ, 0 ≤ τ → τ ≤ r.t1 → ∀ i, 0 < r.pt τ i ∧ r.pt τ i < e.max i)
    (hm : 0 ≤ m) (hl : ∀ c, e.inBounds c → e.sampleLevel c = m) :
    ∀ fuel (s : Dda dim), Uni e r m sz s → (∀ v ∈ visits e r fuel s, Uni e r m sz v) ∧
      (visits e r fuel s).IsChain (fun a b => b.t = a.t + a.dt)
  | 0, s, h => by
    simp only [visits, List.mem_singleton]
    exact ⟨fun v hv => hv ▸ h, by simp⟩
  | f + 1, s, h => by
    simp only [visits]
    cases ha : advance e r s with
    | none =>
      simp only [List.mem_singleton]
      exact ⟨fun v hv => hv ▸ h, by simp⟩
    | some s' =>
      obtain ⟨hn, -, hg, -, -⟩ := h.next hb ht1 hin hm hl ha
      obtain ⟨h1, h2⟩ := visits_uni hb ht1 hin hm hl f s' hn
      refine ⟨?_, ?_⟩
      · intro v hv
        rcases List.mem_cons.1 hv with rfl | hv
        · exact h
        · exact h1 v hv
      · obtain ⟨l, hl'⟩ := visits_head e r f s'
        simp only
        rw [hl'] at h2 ⊢
        rw [List.isChain_cons_cons]
        refine ⟨?_, h2⟩
        have := (advance_some e r s s' hb h.inv ha).2.1
        rw [hg, add_zero] at this
        exact this

/-- the start in a grid of one level -/
theorem uni_start {e : DdaEnv dim} {r : DdaRay dim} {m : ℤ} (hb : 1 ≤ e.block)
    (hm : 0 ≤ m) (hl : ∀ c, e.inBounds c → e.sampleLevel c = m) (s : Dda dim) (h : ddaInit e r = some s) :
    Uni e r m (2 ^ m.toNat) s := by
  have hs1 : (initState e r).size = 1 := by
    have : (initState e r).size = if e.inBounds (fun i => ⌊r.pt (0 + 1e-6) i⌋) ∧ e.sampleLevel (fun i => ⌊r.pt (0 + 1e-6) i⌋) < 0 then e.block else 1 := rfl
    rw [this, if_neg]
    rintro ⟨h1, h2⟩
    rw [hl _ h1] at h2; omega
  have hinv := ddaInit_inv e r s hb h (Or.inl hs1)
  obtain ⟨hf0, hp0⟩ := initState_faces e r hb
  unfold ddaInit at h
  split at h
  · simp at h
  · obtain ⟨w, hw, hs⟩ := Option.map_eq_some_iff.1 h
    obtain ⟨hwi, hwf, hwsz, hwin, hwdt⟩ := walkIn_spec e r 32 _ w (computeAxisDt_inv r _ hp0) hf0 hw
    have hlev := hl _ hwin
    have hsz1 : (1 : ℤ) ≤ 2 ^ m.toNat := one_le_pow₀ (by norm_num : (1 : ℤ) ≤ 2)
    have hst : e.stepSize m = 2 ^ m.toNat := by unfold DdaEnv.stepSize; rw [if_neg (by omega)]
    have heq : s = computeAxisDt r
      { w with
        mip := m, size := 2 ^ m.toNat, coord := fun i => maskCoord (w.coord i) (2 ^ m.toNat),
        nextHit := hitsFrom r w.t (fun i => maskCoord (w.coord i) (2 ^ m.toNat)) (2 ^ m.toNat) w.nextHit } := by
      have h2 : s = computeAxisDt r
        { w with
          mip := e.sampleLevel w.coord, size := e.stepSize (e.sampleLevel w.coord),
          coord := fun i => maskCoord (w.coord i) (e.stepSize (e.sampleLevel w.coord)),
          nextHit := hitsFrom r w.t (fun i => maskCoord (w.coord i) (e.stepSize (e.sampleLevel w.coord))) (e.stepSize (e.sampleLevel w.coord)) w.nextHit } := hs.symm
      rw [h2, hlev, hst]
    refine ⟨hinv, by rw [heq]; rfl, by rw [heq]; rfl, ?_, ?_, ?_, ?_⟩
    · intro i; rw [heq]; exact maskCoord_dvd _ _
    · intro i
      rw [heq]
      show 0 ≤ maskCoord (w.coord i) (2 ^ m.toNat) ∧ maskCoord (w.coord i) (2 ^ m.toNat) < e.max i
      obtain ⟨m1, m2⟩ := maskCoord_bounds (w.coord i) (2 ^ m.toNat) hsz1
      obtain ⟨b1, b2⟩ := hwin i
      refine ⟨?_, by omega⟩
      unfold maskCoord
      exact Int.mul_nonneg (Int.ediv_nonneg b1 (by omega)) (by omega)
    · intro i h0
      rw [heq]
      refine le_trans ?_ (computeAxisDt_nh_ge r _ ?_ i)
      · show exitTime r (fun i => maskCoord (w.coord i) (2 ^ m.toNat)) (2 ^ m.toNat) i ≤
          hitsFrom r w.t (fun i => maskCoord (w.coord i) (2 ^ m.toNat)) (2 ^ m.toNat) w.nextHit i
        rw [hitsFrom_eq, if_neg h0]
      · refine ⟨hwi.t0, fun i => ?_, fun i hi' => ?_, hsz1⟩
        · simp only [hitsFrom_eq]
          split
          · exact hwi.nh i
          · rename_i h0
            have h1 := hwf i h0
            have h2 : w.size = 1 := hwsz.trans hs1
            rw [h2] at h1
            have h3 := exitTime_mono r w.coord (2 ^ m.toNat) hsz1 i h0
            linarith
        · simp only [hitsFrom_eq, hi', if_true]
          exact hwi.still i hi'
    · have ht : s.t = w.t := by rw [heq]; rfl
      rw [ht]
      by_contra hc
      push Not at hc
      apply hwdt
      rw [hwi.dteq]
      rw [max_lt_iff]
      refine ⟨?_, by norm_num⟩
      split
      · linarith
      · rename_i h5
        have := hwi.ahead
        push Not at h5
        linarith

/-- `init` never starts past the end of the ray -/
theorem start_lt (e : DdaEnv dim) (r : DdaRay dim) (hb : 1 ≤ e.block) (s : Dda dim) (h : ddaInit e r = some s) : 0 ≤ s.t ∧ s.t < r.t1 := by
  obtain ⟨hf0, hp0⟩ := initState_faces e r hb
  unfold ddaInit at h
  split at h
  · simp at h
  · obtain ⟨w, hw, hs⟩ := Option.map_eq_some_iff.1 h
    obtain ⟨hwi, hwf, hwsz, hwin, hwdt⟩ := walkIn_spec e r 32 _ w (computeAxisDt_inv r _ hp0) hf0 hw
    have ht : s.t = w.t := by rw [← hs]; rfl
    rw [ht]
    refine ⟨hwi.t0, ?_⟩
    by_contra hc
    push Not at hc
    apply hwdt
    rw [hwi.dteq, max_lt_iff]
    refine ⟨?_, by norm_num⟩
    split
    · linarith
    · rename_i h5
      have := hwi.ahead
      push Not at h5
      linarith

/-- the lengths of contiguous steps add up -/
theorem chain_sum : ∀ (s : Dda dim) (l : List (Dda dim)) (last : Dda dim), (s :: l).IsChain (fun a b => b.t = a.t + a.dt) →
    (s :: l).getLast? = some last → ((s :: l).map (·.dt)).sum = last.t + last.dt - s.t := by
  intro s l
  induction l generalizing s with
  | nil =>
    intro last _ hl
    simp only [List.getLast?_singleton, Option.some.injEq] at hl
    subst hl
    simp
  | cons y l ih =>
    intro last hc hl
    rw [List.isChain_cons_cons] at hc
    rw [List.getLast?_cons_cons] at hl
    rw [List.map_cons, List.sum_cons, ih y last hc.2 hl, hc.1]; ring

end DexRT
