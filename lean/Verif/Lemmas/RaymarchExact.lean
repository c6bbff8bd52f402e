import Verif.Lemmas.Raymarch
namespace DexRT
open Classical Set

variable {dim : DdaDim}

theorem visits_chain_le (e : DdaEnv dim) (r : DdaRay dim) (hb : 1 ≤ e.block) (fuel : ℕ) (s : Dda dim) (h : DdaInv r s) :
    (visits e r fuel s).IsChain (fun x y => x.t + x.dt ≤ y.t) :=
  (visits_chain e r hb fuel s h).imp (fun a b hab => by rw [hab]; linarith [gapAfter_nonneg e r a])

theorem visits_bound (e : DdaEnv dim) (r : DdaRay dim) (hb : 1 ≤ e.block) (fuel : ℕ) (s : Dda dim) (h : DdaInv r s) :
    ∀ v ∈ visits e r fuel s, 0 ≤ v.dt ∧ v.t + v.dt ≤ max v.t r.t1 := by
  intro v hv
  have hv' := (visits_inv e r hb fuel s h v hv).1
  rw [hv'.dteq]
  refine ⟨le_max_right _ _, ?_⟩
  have : (if r.t1 < v.nextHit v.axis then r.t1 else v.nextHit v.axis) ≤ r.t1 := by
    split
    · exact le_rfl
    · rename_i h; exact not_lt.1 h
  rcases max_cases ((if r.t1 < v.nextHit v.axis then r.t1 else v.nextHit v.axis) - v.t) 0 with ⟨hx, _⟩ | ⟨hx, _⟩ <;> rw [hx]
  · exact le_trans (by linarith) (le_max_right _ _)
  · rw [add_zero]; exact le_max_left _ _

/-- The parameter is on a face of the cells of size `sz` of axis `i`. -/
def OnFace (r : DdaRay dim) (sz : ℤ) (τ : ℝ) (i : Fin dim.n) : Prop := ∃ k : ℤ, r.pt τ i = (k * sz : ℤ)

/-- what holds of every state when all cells have the same level and the ray avoids edges and corners -/
structure Flat (e : DdaEnv dim) (r : DdaRay dim) (m sz : ℤ) (s : Dda dim) : Prop extends Uni e r m sz s where
  exact : DdaExact r s
  still : ∀ i, r.d i = 0 → s.coord i = maskCoord ⌊r.o i⌋ sz
  tie : NoTie r s

theorem exitTime_face (r : DdaRay dim) (c : Fin dim.n → ℤ) (sz : ℤ) (i : Fin dim.n) (h0 : r.d i ≠ 0) (hm : sz ∣ c i) :
    OnFace r sz (exitTime r c sz i) i := by
  obtain ⟨k, hk⟩ := hm
  have hp := exitTime_pt r c sz i h0
  split at hp
  · exact ⟨k + 1, by rw [hp, hk]; push_cast; ring⟩
  · exact ⟨k, by rw [hp, hk]; push_cast; ring⟩

theorem Flat.next {e : DdaEnv dim} {r : DdaRay dim} {m sz : ℤ} {s s' : Dda dim} (h : Flat e r m sz s) (hb : 1 ≤ e.block)
    (hm : 0 ≤ m) (hl : ∀ c, e.inBounds c → e.sampleLevel c = m) (ht1 : r.t1 ≤ 1e24)
    (hin : ∀ τ, 0 ≤ τ → τ ≤ r.t1 → ∀ i, 0 < r.pt τ i ∧ r.pt τ i < e.max i)
    (hcorner : ∀ τ, 0 ≤ τ → τ ≤ r.t1 → ∀ i j, r.d i ≠ 0 → r.d j ≠ 0 → OnFace r sz τ i → OnFace r sz τ j → i = j)
    (ha : advance e r s = some s') : Flat e r m sz s' := by
  obtain ⟨hu, hs', -, hmove, hlt⟩ := h.toUni.next hb ht1 hin hm hl ha
  have hsz1 : (1 : ℝ) ≤ (s.size : ℝ) := by exact_mod_cast h.inv.size
  have hco : s'.coord = Function.update s.coord s.axis (s.coord s.axis + s.size * r.stepDir s.axis) := by rw [hs']; rfl
  have ht : s'.t = s.nextHit s.axis := by rw [hs']; rfl
  have hsz : s'.size = s.size := by rw [hs']; rfl
  have hmin : ∀ i, r.d i ≠ 0 → s.nextHit s.axis ≤ exitTime r s.coord s.size i := by
    intro i h0
    have hend : s.t + s.dt = s.nextHit s.axis := by
      rw [h.inv.dteq, if_neg (not_lt.2 hlt.le), max_eq_left (by linarith [h.inv.ahead])]; ring
    rw [← hend]; exact h.exact.bound i h0
  have htie : NoTie r s' := by
    intro i h0
    rw [hco, ht, hsz, exitTime_step r s.coord s.size s.axis i h0]
    split
    · rename_i hia; subst hia
      rw [h.exact.hits _ h0]
      have : 0 < r.deltaOf s.axis := by rw [deltaOf_abs]; have := abs_pos.2 h0; positivity
      nlinarith
    · rename_i hia
      refine lt_of_le_of_ne (hmin i h0) ?_
      intro heq
      have f1 : OnFace r sz (s.nextHit s.axis) s.axis := by
        have := exitTime_face r s.coord sz s.axis hmove (h.mult _)
        rw [← h.size, ← h.exact.hits _ hmove, h.size] at this
        exact this
      have f2 : OnFace r sz (s.nextHit s.axis) i := by
        rw [heq, h.size]; exact exitTime_face r s.coord sz i h0 (h.mult _)
      exact hia (hcorner _ (by linarith [h.inv.t0, h.inv.ahead]) hlt.le i s.axis h0 hmove f2 f1)
  refine ⟨hu, ?_, ?_, htie⟩
  · rw [hs'] at htie ⊢
    exact nextIntersection_exact e r s ht1 h.inv h.exact hlt htie
  · intro i h0
    have hia : i ≠ s.axis := by intro hh; subst hh; exact hmove h0
    rw [hco, Function.update_of_ne hia]; exact h.still i h0

theorem visits_flat {e : DdaEnv dim} {r : DdaRay dim} {m sz : ℤ} (hb : 1 ≤ e.block)
    (hm : 0 ≤ m) (hl : ∀ c, e.inBounds c → e.sampleLevel c = m) (ht1 : r.t1 ≤ 1e24)
    (hin : ∀ τ, 0 ≤ τ → τ ≤ r.t1 → ∀ i, 0 < r.pt τ i ∧ r.pt τ i < e.max i)
    (hcorner : ∀ τ, 0 ≤ τ → τ ≤ r.t1 → ∀ i j, r.d i ≠ 0 → r.d j ≠ 0 → OnFace r sz τ i → OnFace r sz τ j → i = j) :
    ∀ fuel (s : Dda dim), Flat e r m sz s → ∀ v ∈ visits e r fuel s, Flat e r m sz v
  | 0, s, h, v, hv => by
    simp only [visits, List.mem_singleton] at hv
    subst hv; exact h
  | f + 1, s, h, v, hv => by
    simp only [visits] at hv
    cases ha : advance e r s with
    | none =>
      rw [ha] at hv
      simp only [List.mem_singleton] at hv
      subst hv; exact h
    | some s' =>
      rw [ha] at hv
      rcases List.mem_cons.1 hv with rfl | hv
      · exact h
      · exact visits_flat hb hm hl ht1 hin hcorner f s' (h.next hb hm hl ht1 hin hcorner ha) v hv

theorem maskCoord_of_bounds (x : ℝ) (c sz : ℤ) (hsz : 1 ≤ sz) (hd : sz ∣ c) (h1 : (c : ℝ) ≤ x) (h2 : x < (c : ℝ) + sz) :
    maskCoord ⌊x⌋ sz = c := by
  obtain ⟨k, rfl⟩ := hd
  have f1 : sz * k ≤ ⌊x⌋ := Int.le_floor.2 h1
  have f2 : ⌊x⌋ < sz * k + sz := Int.floor_lt.2 (by push_cast at h2 ⊢; exact h2)
  unfold maskCoord
  have : ⌊x⌋ / sz = k := by
    rw [Int.ediv_eq_iff_of_pos (by omega)]
    constructor
    · linarith
    · linarith [mul_add k 1 sz]
  rw [this, mul_comm]

/-- inside a step the ray is strictly inside the cell of that step along the axes on which it moves -/
theorem Flat.inside {e : DdaEnv dim} {r : DdaRay dim} {m sz : ℤ} {v : Dda dim} (h : Flat e r m sz v) (x : ℝ)
    (hx : x ∈ Ioo v.t (v.t + v.dt)) (i : Fin dim.n) (h0 : r.d i ≠ 0) :
    (v.coord i : ℝ) < r.pt x i ∧ r.pt x i < (v.coord i : ℝ) + sz := by
  obtain ⟨a1, a2⟩ := h.exact.segment v.t le_rfl (by linarith [hx.1, hx.2]) i
  obtain ⟨b1, b2⟩ := h.exact.segment (v.t + v.dt) (by linarith [hx.1, hx.2]) le_rfl i
  obtain ⟨x1, x2⟩ := hx
  rw [h.size] at a2 b2
  unfold DdaRay.pt at *
  rcases lt_or_gt_of_ne h0 with hn | hp <;> constructor <;> nlinarith

theorem Flat.noFace {e : DdaEnv dim} {r : DdaRay dim} {m sz : ℤ} {v : Dda dim} (h : Flat e r m sz v) (x : ℝ)
    (hx : x ∈ Ioo v.t (v.t + v.dt)) (i : Fin dim.n) (h0 : r.d i ≠ 0) : ¬ OnFace r sz x i := by
  rintro ⟨k, hk⟩
  obtain ⟨a, b⟩ := h.inside x hx i h0
  have hsz : 1 ≤ sz := by rw [← h.size]; exact h.inv.size
  obtain ⟨j, hj⟩ := h.mult i
  rw [hk] at a b
  have a' : v.coord i < k * sz := by exact_mod_cast a
  have b' : k * sz < v.coord i + sz := by exact_mod_cast b
  rw [hj] at a' b'
  have a2 : sz * j < sz * k := by linarith [mul_comm k sz]
  have b2 : sz * k < sz * (j + 1) := by linarith [mul_comm k sz, mul_add sz j 1]
  have a3 := lt_of_mul_lt_mul_left a2 (by omega)
  have b3 := lt_of_mul_lt_mul_left b2 (by omega)
  omega

/-- inside a step the ray is in the cell of that step -/
theorem Flat.cell {e : DdaEnv dim} {r : DdaRay dim} {m sz : ℤ} {v : Dda dim} (h : Flat e r m sz v) (x : ℝ) (hx : x ∈ Ioo v.t (v.t + v.dt)) :
    v.coord = fun i => maskCoord ⌊r.pt x i⌋ sz := by
  have hsz : 1 ≤ sz := by rw [← h.size]; exact h.inv.size
  funext i
  by_cases h0 : r.d i = 0
  · rw [h.still i h0]
    simp [DdaRay.pt, h0]
  · symm
    obtain ⟨a, b⟩ := h.inside x hx i h0
    exact maskCoord_of_bounds _ _ _ hsz (h.mult i) a.le b

/-- the start -/
theorem flat_start {e : DdaEnv dim} {r : DdaRay dim} {m : ℤ} (hb : 1 ≤ e.block)
    (hm : 0 ≤ m) (hl : ∀ c, e.inBounds c → e.sampleLevel c = m) (ht1 : r.t1 ≤ 1e24) (h1e4 : 1e-4 ≤ r.t1)
    (ho : ∀ i, 1e-4 ≤ r.o i ∧ r.o i ≤ e.max i - 1e-4) (hd : ∀ i, |r.d i| ≤ 1)
    (hstart : ∀ τ, 0 ≤ τ → τ ≤ 2e-6 → ∀ i, r.d i ≠ 0 → ¬ OnFace r 1 τ i) :
    ∃ s, ddaInit e r = some s ∧ s.t = 0 ∧ Flat e r m (2 ^ m.toNat) s := by
  obtain ⟨hw, hf, hsz⟩ := walk_init e r hb ho
  obtain ⟨hf0, hp0⟩ := initState_faces e r hb
  have hi := computeAxisDt_inv r _ hp0
  have hs1 : (initState e r).size = 1 := by
    have : (initState e r).size = if e.inBounds (fun i => ⌊r.pt (0 + 1e-6) i⌋) ∧ e.sampleLevel (fun i => ⌊r.pt (0 + 1e-6) i⌋) < 0 then e.block else 1 := rfl
    rw [this, if_neg]
    rintro ⟨h1, h2⟩
    rw [hl _ h1] at h2; omega
  rw [hs1] at hw hf
  -- no face within 2e-6: the start is in the start cell and its faces are further
  have hex2 : ∀ i, r.d i ≠ 0 → 2e-6 < exitTime r (initState e r).coord 1 i := by
    intro i h0
    have h1 : (0 + 1e-6 : ℝ) ≤ exitTime r (initState e r).coord 1 i := by
      have := exitTime_ge_floor r (0 + 1e-6) (initState e r).size hsz i h0
      rw [← hs1]; exact this
    by_contra hc
    push Not at hc
    exact hstart _ (by linarith) hc i h0 (exitTime_face r _ 1 i h0 (one_dvd _))
  have hco : ∀ i, (initState e r).coord i = ⌊r.o i⌋ := by
    intro i
    have e1 : (initState e r).coord i = ⌊r.pt (0 + 1e-6) i⌋ := by
      show maskCoord ⌊r.pt (0 + 1e-6) i⌋ (initState e r).size = _
      rw [hs1, mask_one]
    rw [e1]
    by_cases h0 : r.d i = 0
    · simp [DdaRay.pt, h0]
    · symm
      rw [Int.floor_eq_iff]
      -- otherwise an integer is crossed before 1e-6
      have f1 : ((⌊r.pt (0 + 1e-6) i⌋ : ℤ) : ℝ) ≤ r.pt (0 + 1e-6) i := Int.floor_le _
      have f2 : r.pt (0 + 1e-6) i < ((⌊r.pt (0 + 1e-6) i⌋ : ℤ) : ℝ) + 1 := Int.lt_floor_add_one _
      have cross : ∀ k : ℤ, ¬ (0 ≤ ((k : ℝ) - r.o i) / r.d i ∧ ((k : ℝ) - r.o i) / r.d i ≤ 2e-6) := by
        intro k ⟨k1, k2⟩
        refine hstart _ k1 k2 i h0 ⟨k, ?_⟩
        unfold DdaRay.pt
        rw [div_mul_cancel₀ _ h0]; push_cast; ring
      unfold DdaRay.pt at f1 f2
      rcases lt_or_gt_of_ne h0 with hn | hp
      · constructor
        · unfold DdaRay.pt; nlinarith
        · by_contra hc
          push Not at hc
          apply cross (⌊r.pt (0 + 1e-6) i⌋ + 1)
          unfold DdaRay.pt at hc ⊢
          push_cast
          constructor
          · rw [le_div_iff_of_neg hn]; linarith
          · rw [div_le_iff_of_neg hn]; nlinarith
      · constructor
        · by_contra hc
          push Not at hc
          apply cross ⌊r.pt (0 + 1e-6) i⌋
          unfold DdaRay.pt at hc ⊢
          constructor
          · rw [le_div_iff₀ hp]; linarith
          · rw [div_le_iff₀ hp]; nlinarith
        · unfold DdaRay.pt; nlinarith
  have hnh : ∀ i, r.d i ≠ 0 → (initState e r).nextHit i = exitTime r (initState e r).coord 1 i - 1e-6 := by
    intro i h0
    rcases hf i (by simp) h0 with h | h
    · exact h
    · unfold initState
      simp only
      have := (walk_init e r hb ho).2.1 i (by simp) h0
      have hnear := hw.near i h0
      -- both cases of Fresh: the value is what `initState` computes
      have key : (initState e r).nextHit i = if r.d i = 0 then 1e24
        else if 0 < 1 / r.d i then 0 + (((initState e r).coord i : ℝ) + (initState e r).size - r.pt (0 + 1e-6) i) * (1 / r.d i)
        else 0 + (((initState e r).coord i : ℝ) - r.pt (0 + 1e-6) i) * (1 / r.d i) := rfl
      show (initState e r).nextHit i = exitTime r (initState e r).coord 1 i - 1e-6
      rw [key, if_neg h0, hs1]
      unfold exitTime DdaRay.pt
      rcases lt_or_gt_of_ne h0 with hn | hp
      · rw [if_neg (by rw [one_div, inv_pos]; exact not_lt.2 hn.le), if_neg (not_lt.2 hn.le)]
        field_simp; ring
      · rw [if_pos (by positivity), if_pos hp]
        field_simp; ring
  have hnhpos : ∀ i, 1e-6 < (initState e r).nextHit i := by
    intro i
    by_cases h0 : r.d i = 0
    · rw [(hw.still i h0).1]; norm_num
    · rw [hnh i h0]; have := hex2 i h0; linarith
  have hin0 : e.inBounds (initState e r).coord := hw.inBounds le_rfl hd ho
  have hwe : walkIn e r 32 (computeAxisDt r (initState e r)) = some (computeAxisDt r (initState e r)) := by
    obtain ⟨c1, -, -, -⟩ := hw.compute hf (by show (0 : ℝ) ≤ _; norm_num)
    have hin : e.inBounds (computeAxisDt r (initState e r)).coord := c1.inBounds le_rfl hd ho
    unfold walkIn
    rw [if_neg]
    push Not
    refine ⟨hin, fun _ => ?_⟩
    rw [hi.dteq]
    refine le_max_of_le_left ?_
    have ht0 : (computeAxisDt r (initState e r)).t = 0 := rfl
    have hge := computeAxisDt_nh_ge r _ hp0 (computeAxisDt r (initState e r)).axis
    have := hnhpos (computeAxisDt r (initState e r)).axis
    rw [ht0]
    split <;> linarith
  have hinit : ddaInit e r = some (updateMip e r true (computeAxisDt r (initState e r))) := by
    unfold ddaInit
    rw [if_neg, hwe]
    · rfl
    · rw [sub_zero, abs_of_nonneg (by linarith)]; linarith
  refine ⟨_, hinit, rfl, ?_⟩
  set sz : ℤ := 2 ^ m.toNat with hszd
  have hsz1 : 1 ≤ sz := one_le_pow₀ (by norm_num : (1 : ℤ) ≤ 2)
  have hst : e.stepSize (e.sampleLevel (initState e r).coord) = sz := by
    rw [hl _ hin0]; unfold DdaEnv.stepSize; rw [if_neg (by omega)]
  have hC : ∀ i, (updateMip e r true (computeAxisDt r (initState e r))).coord i = maskCoord ⌊r.o i⌋ sz := by
    intro i
    show maskCoord ((initState e r).coord i) (e.stepSize (e.sampleLevel (initState e r).coord)) = _
    rw [hst, hco]
  have hC' : (updateMip e r true (computeAxisDt r (initState e r))).coord = fun i => maskCoord ⌊r.o i⌋ sz := funext hC
  have hS : (updateMip e r true (computeAxisDt r (initState e r))).size = sz := hst
  have hT : (updateMip e r true (computeAxisDt r (initState e r))).t = 0 := rfl
  have htie : NoTie r (updateMip e r true (computeAxisDt r (initState e r))) := by
    intro i h0
    rw [hT, hC', hS]
    refine lt_of_lt_of_le ?_ (exitTime_mono r (fun i => ⌊r.o i⌋) sz hsz1 i h0)
    have := hex2 i h0
    have e1 : (initState e r).coord = fun i => ⌊r.o i⌋ := funext hco
    rw [e1] at this
    linarith
  refine ⟨uni_start hb hm hl _ hinit, ?_, fun i _ => hC i, htie⟩
  have heq : updateMip e r true (computeAxisDt r (initState e r)) = computeAxisDt r
    { computeAxisDt r (initState e r) with
      mip := m, size := sz, coord := fun i => maskCoord ⌊r.o i⌋ sz,
      nextHit := hitsFrom r 0 (fun i => maskCoord ⌊r.o i⌋ sz) sz (computeAxisDt r (initState e r)).nextHit } := by
    have h2 : updateMip e r true (computeAxisDt r (initState e r)) = computeAxisDt r
      { computeAxisDt r (initState e r) with
        mip := e.sampleLevel (initState e r).coord, size := e.stepSize (e.sampleLevel (initState e r).coord),
        coord := fun i => maskCoord ((initState e r).coord i) (e.stepSize (e.sampleLevel (initState e r).coord)),
        nextHit := hitsFrom r 0 (fun i => maskCoord ((initState e r).coord i) (e.stepSize (e.sampleLevel (initState e r).coord)))
          (e.stepSize (e.sampleLevel (initState e r).coord)) (computeAxisDt r (initState e r)).nextHit } := rfl
    rw [h2, hst, hl _ hin0]
    simp only [hco]
  rw [heq] at htie ⊢
  refine computeAxisDt_exact r _ ht1 ⟨le_rfl, fun i => ?_, fun i hi' => ?_, hsz1⟩ ?_ ?_ htie
  · simp only [hitsFrom_eq]
    split
    · exact hi.nh i
    · rename_i h0
      have : (0 : ℝ) < exitTime r (fun i => maskCoord ⌊r.o i⌋ sz) sz i := htie i h0
      linarith
  · simp only [hitsFrom_eq, hi', if_true]
    exact hi.still i hi'
  · intro i h0
    simp only [hitsFrom_eq, h0, if_false]
  · intro i
    have := floor_inCell r 0 sz hsz1 i
    have e0 : r.pt 0 i = r.o i := by simp [DdaRay.pt]
    show ((maskCoord ⌊r.o i⌋ sz : ℤ) : ℝ) ≤ r.pt 0 i ∧ r.pt 0 i ≤ ((maskCoord ⌊r.o i⌋ sz : ℤ) : ℝ) + sz
    rw [e0] at this ⊢
    exact this

/-- error made by treating the pieces between the visited intervals as empty -/
theorem march_error (a : RaymarchArgs dim) (hchi : ∀ m c, 0 ≤ a.chi m c) (hk : 0 ≤ a.scale * a.invSin) (I : ℝ → ℝ)
    (T D : ℝ) (hD : 0 ≤ D) :
    ∀ (s : Dda dim) (l : List (Dda dim)) (I0 : ℝ), (s :: l).IsChain (fun x y => x.t + x.dt ≤ y.t) →
    (∀ v ∈ s :: l, 0 ≤ v.dt ∧ v.t + v.dt ≤ max v.t T) → s.t ≤ T →
    ContinuousOn I (Icc s.t T) →
    (∀ v ∈ s :: l, 0 ≤ v.mip → ∀ x ∈ Ioo v.t (v.t + v.dt), SolvesAt (a.scale * a.invSin) (a.eta v.mip v.coord) (chiUsed a.extraSafe (a.chi v.mip v.coord)) I x) →
    (∀ v ∈ s :: l, ¬ 0 ≤ v.mip → ∀ x ∈ Ioo v.t (v.t + v.dt), HasDerivAt I 0 x) →
    (∀ x ∈ Ioo s.t T, (∀ v ∈ s :: l, ¬ (v.t ≤ x ∧ x ≤ v.t + v.dt)) → ∃ g, HasDerivAt I g x ∧ |g| ≤ D) →
    |(march a.extraSafe a.scale a.invSin I0 ((s :: l).map a.stepOf)).I - I T| ≤
      |I0 - I s.t| + D * ((T - s.t) - ((s :: l).map (·.dt)).sum) := by
  -- a gap
  have gap : ∀ x y, x ≤ y → ContinuousOn I (Icc x y) → (∀ z ∈ Ioo x y, ∃ g, HasDerivAt I g z ∧ |g| ≤ D) →
      |I y - I x| ≤ D * (y - x) := by
    intro x y hxy hc hg
    rcases hxy.eq_or_lt with rfl | hlt
    · simp
    · obtain ⟨c, hc1, h⟩ := exists_hasDerivAt_eq_slope I (fun z => deriv I z) hlt hc
        (fun z hz => by obtain ⟨g, h1, _⟩ := hg z hz; rw [h1.deriv]; exact h1)
      obtain ⟨g, h1, h2⟩ := hg c hc1
      simp only [h1.deriv] at h
      have hp : 0 < y - x := by linarith
      rw [eq_div_iff hp.ne'] at h
      rw [← h, abs_mul, abs_of_pos hp]
      exact mul_le_mul_of_nonneg_right h2 hp.le
  -- a step contracts
  have contr : ∀ (v : Dda dim) (I0 I1 : ℝ), 0 ≤ v.dt →
      |(marchStep a.extraSafe a.scale a.invSin ⟨I0, 0, 1e-20, 0⟩ (a.stepOf v)).I -
        (marchStep a.extraSafe a.scale a.invSin ⟨I1, 0, 1e-20, 0⟩ (a.stepOf v)).I| ≤ |I0 - I1| := by
    intro v I0 I1 hv
    have h := fold_I a.extraSafe a.scale a.invSin [a.stepOf v] ⟨I0, 0, 1e-20, 0⟩ ⟨I1, 0, 1e-20, 0⟩
    simp only [List.foldl_cons, List.foldl_nil] at h
    rw [h, abs_mul, abs_of_pos (Real.exp_pos _)]
    have h0 : 0 ≤ ([a.stepOf v].map (stepTau a.extraSafe a.scale a.invSin)).sum := by
      simp only [List.map_cons, List.map_nil, List.sum_cons, List.sum_nil, add_zero, stepTau]
      split
      · have := chiUsed_pos a.extraSafe (hchi v.mip v.coord)
        show 0 ≤ chiUsed a.extraSafe (a.chi v.mip v.coord) * v.dt * a.scale * a.invSin
        have e1 : chiUsed a.extraSafe (a.chi v.mip v.coord) * v.dt * a.scale * a.invSin =
          chiUsed a.extraSafe (a.chi v.mip v.coord) * v.dt * (a.scale * a.invSin) := by ring
        rw [e1]
        exact mul_nonneg (mul_nonneg (by linarith) hv) hk
      · exact le_rfl
    calc _ ≤ 1 * |I0 - I1| := mul_le_mul_of_nonneg_right (Real.exp_le_one_iff.2 (by linarith)) (abs_nonneg _)
      _ = _ := one_mul _
  intro s l
  induction l generalizing s with
  | nil =>
    intro I0 hch hdt hsT hc hd hd0 hz
    obtain ⟨h1, h2⟩ := hdt s (by simp)
    rw [max_eq_right hsT] at h2
    have hend := gap (s.t + s.dt) T h2 (hc.mono (Icc_subset_Icc (by linarith) le_rfl)) (fun x hx => by
      refine hz x ⟨by linarith [hx.1], hx.2⟩ ?_
      intro v hv hin
      simp only [List.mem_singleton] at hv
      subst hv
      linarith [hx.1, hin.2])
    have hst := step_solves a hchi I s h1 (hc.mono (Icc_subset_Icc le_rfl h2)) (hd s (by simp)) (hd0 s (by simp))
    have hct := contr s I0 (I s.t) h1
    simp only [List.map_cons, List.map_nil, march, List.foldl_cons, List.foldl_nil, List.sum_cons, List.sum_nil, add_zero]
    rw [← hst] at hct
    rw [abs_sub_comm] at hend
    calc _ ≤ |_ - I (s.t + s.dt)| + |I (s.t + s.dt) - I T| := abs_sub_le _ _ _
      _ ≤ |I0 - I s.t| + D * (T - (s.t + s.dt)) := add_le_add hct hend
      _ = _ := by ring
  | cons y l ih =>
    intro I0 hch hdt hsT hc hd hd0 hz
    rw [List.isChain_cons_cons] at hch
    obtain ⟨hsy, hch⟩ := hch
    obtain ⟨h1, h2⟩ := hdt s (by simp)
    rw [max_eq_right hsT] at h2
    have hlater := chain_later y l hch (fun v hv => (hdt v (List.mem_cons_of_mem _ hv)).1)
    have hst := step_solves a hchi I s h1 (hc.mono (Icc_subset_Icc le_rfl h2)) (hd s (by simp)) (hd0 s (by simp))
    have hct := contr s I0 (I s.t) h1
    rw [← hst] at hct
    rw [List.map_cons (a := s) (f := a.stepOf), march_fold_cons, List.map_cons (a := s) (f := fun v => v.dt), List.sum_cons]
    generalize hJ : (marchStep a.extraSafe a.scale a.invSin ⟨I0, 0, 1e-20, 0⟩ (a.stepOf s)).I = J at hct ⊢
    have hJ' : (marchStep a.extraSafe a.scale a.invSin { I := I0, tau := 0, chiS := 1e-20, oneMEdt := 0 } (a.stepOf s)).I = J := hJ
    by_cases hyT : y.t ≤ T
    · have hmid := gap (s.t + s.dt) y.t hsy (hc.mono (Icc_subset_Icc (by linarith) hyT)) (fun x hx => by
        refine hz x ⟨by linarith [hx.1], lt_of_lt_of_le hx.2 hyT⟩ ?_
        intro v hv hin
        rcases List.mem_cons.1 hv with rfl | hv
        · linarith [hx.1, hin.2]
        · linarith [hlater v hv, hx.2, hin.1])
      have hrec := ih y J hch (fun v hv => hdt v (List.mem_cons_of_mem _ hv)) hyT
        (hc.mono (Icc_subset_Icc (by linarith) le_rfl)) (fun v hv => hd v (List.mem_cons_of_mem _ hv))
        (fun v hv => hd0 v (List.mem_cons_of_mem _ hv))
        (fun x hx hno => by
          refine hz x ⟨by linarith [hx.1], hx.2⟩ ?_
          intro v hv hin
          rcases List.mem_cons.1 hv with rfl | hv
          · linarith [hx.1, hin.2]
          · exact hno v hv hin)
      have h3 : |J - I y.t| ≤ |J - I (s.t + s.dt)| + |I (s.t + s.dt) - I y.t| := abs_sub_le _ _ _
      rw [abs_sub_comm] at hmid
      refine le_trans hrec ?_
      nlinarith
    · push Not at hyT
      have hzero : ∀ v ∈ y :: l, v.dt = 0 := by
        intro v hv
        obtain ⟨p1, p2⟩ := hdt v (List.mem_cons_of_mem _ hv)
        have := hlater v hv
        rw [max_eq_left (by linarith)] at p2
        linarith
      rw [march_zero]
      · have hend := gap (s.t + s.dt) T h2 (hc.mono (Icc_subset_Icc (by linarith) le_rfl)) (fun x hx => by
          refine hz x ⟨by linarith [hx.1], hx.2⟩ ?_
          intro v hv hin
          rcases List.mem_cons.1 hv with rfl | hv
          · linarith [hx.1, hin.2]
          · linarith [hlater v hv, hx.2, hin.1])
        have hsum : ((y :: l).map (·.dt)).sum = 0 := by
          apply List.sum_eq_zero
          intro x hx
          obtain ⟨v, hv, rfl⟩ := List.mem_map.1 hx
          exact hzero v hv
        rw [hsum]
        rw [abs_sub_comm] at hend
        calc |J - I T| ≤ |J - I (s.t + s.dt)| + |I (s.t + s.dt) - I T| := abs_sub_le _ _ _
          _ ≤ |I0 - I s.t| + D * (T - (s.t + s.dt)) := add_le_add hct hend
          _ = _ := by ring
      · intro st hst
        obtain ⟨v, hv, rfl⟩ := List.mem_map.1 hst
        exact hzero v hv

end DexRT
