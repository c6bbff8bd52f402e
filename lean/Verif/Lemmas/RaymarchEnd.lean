import Verif.Lemmas.RaymarchExact
namespace DexRT
open Classical Set

variable {dim : DdaDim}

/-- unsampled steps change neither the intensity nor the optical depth -/
theorem fold_filter (es : Bool) (sc is : ℝ) (l : List Step) (v : MarchVars) :
    ((l.filter (·.sample)).foldl (marchStep es sc is) v).I = (l.foldl (marchStep es sc is) v).I ∧
    ((l.filter (·.sample)).foldl (marchStep es sc is) v).tau = (l.foldl (marchStep es sc is) v).tau := by
  induction l generalizing v with
  | nil => exact ⟨rfl, rfl⟩
  | cons s l ih =>
    cases hs : s.sample
    · have e : marchStep es sc is v s = { v with oneMEdt := 0 } := by simp [marchStep, hs]
      rw [List.filter_cons_of_neg (by simp [hs]), List.foldl_cons, e]
      have hI := fold_I es sc is (l.filter (·.sample)) v { v with oneMEdt := 0 }
      have hT := fold_tau es sc is (l.filter (·.sample)) v
      have hT' := fold_tau es sc is (l.filter (·.sample)) { v with oneMEdt := 0 }
      obtain ⟨i1, i2⟩ := ih { v with oneMEdt := 0 }
      simp only [sub_self, mul_zero] at hI
      constructor
      · rw [← i1]; linarith
      · rw [← i2, hT, hT']
    · rw [List.filter_cons_of_pos (by simp [hs]), List.foldl_cons, List.foldl_cons]
      exact ih _

theorem loopStates_map (a : RaymarchArgs dim) (s : Dda dim) (l : List (Dda dim)) :
    (loopStates (s :: l)).map a.stepOf = a.stepOf s :: (l.map a.stepOf).filter (·.sample) := by
  unfold loopStates
  rw [List.map_cons, List.filter_map]
  rfl

/-- the states passed over do not matter for intensity and optical depth -/
theorem march_loopStates (a : RaymarchArgs dim) (I0 : ℝ) (l : List (Dda dim)) :
    (march a.extraSafe a.scale a.invSin I0 ((loopStates l).map a.stepOf)).I = (march a.extraSafe a.scale a.invSin I0 (l.map a.stepOf)).I ∧
    (march a.extraSafe a.scale a.invSin I0 ((loopStates l).map a.stepOf)).tau = (march a.extraSafe a.scale a.invSin I0 (l.map a.stepOf)).tau := by
  cases l with
  | nil => exact ⟨rfl, rfl⟩
  | cons s l =>
    rw [loopStates_map]
    unfold march
    rw [List.foldl_cons, List.map_cons, List.foldl_cons]
    exact fold_filter _ _ _ _ _

/-- with no emission and unit boundary the march gives the transmission -/
theorem march_transmission (es : Bool) (sc is : ℝ) (l : List Step) (h : ∀ s ∈ l, s.eta = 0) :
    (march es sc is 1 l).I = Real.exp (-(march es sc is 1 l).tau) := by
  have key : ∀ (l : List Step) (v : MarchVars), (∀ s ∈ l, s.eta = 0) → v.I = Real.exp (-v.tau) →
      (l.foldl (marchStep es sc is) v).I = Real.exp (-(l.foldl (marchStep es sc is) v).tau) := by
    intro l
    induction l with
    | nil => intro v _ hv; exact hv
    | cons s l ih =>
      intro v hl hv
      rw [List.foldl_cons]
      refine ih _ (fun t ht => hl t (by simp [ht])) ?_
      cases hs : s.sample
      · simp [marchStep, hs, hv]
      · simp only [marchStep, hs, if_true, hl s (by simp), zero_div, zero_mul, add_zero, hv, neg_add, Real.exp_add]
  exact key l _ h (by simp)

/-- the optical depth does not depend on the emissivity -/
theorem march_tau_noemission (a : RaymarchArgs dim) (I0 I1 : ℝ) (l : List (Dda dim)) :
    (march a.extraSafe a.scale a.invSin I0 (l.map a.stepOf)).tau =
      (march a.extraSafe a.scale a.invSin I1 (l.map { a with eta := fun _ _ => 0 }.stepOf)).tau := by
  unfold march
  rw [fold_tau, fold_tau, List.map_map, List.map_map]
  rfl

/-- the optical depth is the integral of the opacity -/
theorem march_tau_solves (a : RaymarchArgs dim) (hchi : ∀ m c, 0 ≤ a.chi m c) (τ : ℝ → ℝ) (T : ℝ)
    (s : Dda dim) (l : List (Dda dim)) (hch : (s :: l).IsChain (fun x y => x.t + x.dt ≤ y.t))
    (hb : ∀ v ∈ s :: l, 0 ≤ v.dt ∧ v.t + v.dt ≤ max v.t T) (hsT : s.t ≤ T) (h0 : τ s.t = 0)
    (hc : ContinuousOn τ (Icc s.t T))
    (hd : ∀ v ∈ s :: l, 0 ≤ v.mip → ∀ x ∈ Ioo v.t (v.t + v.dt), HasDerivAt τ (a.scale * a.invSin * chiUsed a.extraSafe (a.chi v.mip v.coord)) x)
    (hz : ∀ x ∈ Ioo s.t T, (∀ v ∈ s :: l, 0 ≤ v.mip → ¬ (v.t ≤ x ∧ x ≤ v.t + v.dt)) → HasDerivAt τ 0 x) (I0 : ℝ) :
    (march a.extraSafe a.scale a.invSin I0 ((s :: l).map a.stepOf)).tau = τ T := by
  have h := march_solves { a with eta := fun _ _ => 0 } hchi (fun x => Real.exp (-τ x)) T s l hch hb hsT
    (Real.continuous_exp.comp_continuousOn hc.neg)
    (by
      intro v hv hm x hx
      have h1 : HasDerivAt (fun x => Real.exp (-τ x)) (Real.exp (-τ x) * -(a.scale * a.invSin * chiUsed a.extraSafe (a.chi v.mip v.coord))) x :=
        ((hd v hv hm x hx).fun_neg).exp
      refine h1.congr_deriv ?_
      show _ = a.scale * a.invSin * (0 - chiUsed a.extraSafe (a.chi v.mip v.coord) * Real.exp (-τ x))
      ring)
    (by
      intro x hx hno
      have h1 : HasDerivAt (fun x => Real.exp (-τ x)) (Real.exp (-τ x) * -0) x := ((hz x hx hno).fun_neg).exp
      refine h1.congr_deriv ?_
      simp)
  simp only [h0, neg_zero, Real.exp_zero] at h
  rw [march_transmission _ _ _ _ (by
    intro st hst
    obtain ⟨v, _, rfl⟩ := List.mem_map.1 hst
    rfl)] at h
  rw [march_tau_noemission a I0 1]
  have h2 := Real.exp_injective h
  have h3 : (march a.extraSafe a.scale a.invSin 1 ((s :: l).map { a with eta := fun _ _ => 0 }.stepOf)).tau = τ T := neg_injective h2
  exact h3

/-- what a finished march returned -/
theorem raymarch_some (a : RaymarchArgs dim) (fuel : ℕ) (res : Interval) (r : DdaRay dim) (s : Dda dim)
    (hs : ddaStart a.env a.seg = some (r, s)) (h : raymarch a fuel = some res) :
    res = marchInterval a.extraSafe a.scale a.invSin (startI a true) ((loopStates (visits a.env r fuel s)).map a.stepOf) ∧
      ∃ last, (visits a.env r fuel s).getLast? = some last ∧ advance a.env r last = none := by
  unfold raymarch at h
  rw [hs] at h
  simp only at h
  obtain ⟨l, h1, h2⟩ := Option.map_eq_some_iff.1 h
  obtain ⟨h3, h4⟩ := visitsEnd_some a.env r fuel s l h1
  subst h3
  exact ⟨h2.symm, h4⟩

theorem raymarch_I (a : RaymarchArgs dim) (fuel : ℕ) (res : Interval) (r : DdaRay dim) (s : Dda dim)
    (hs : ddaStart a.env a.seg = some (r, s)) (h : raymarch a fuel = some res) :
    res.I = (march a.extraSafe a.scale a.invSin (startI a true) ((visits a.env r fuel s).map a.stepOf)).I ∧
    res.tau = (march a.extraSafe a.scale a.invSin (startI a true) ((visits a.env r fuel s).map a.stepOf)).tau := by
  obtain ⟨h1, -⟩ := raymarch_some a fuel res r s hs h
  obtain ⟨p, q⟩ := march_loopStates a (startI a true) (visits a.env r fuel s)
  rw [h1]
  exact ⟨p, q⟩

/-- the state of a successful start -/
theorem ddaStart_some (e : DdaEnv dim) (seg : RaySeg dim.n) (r : DdaRay dim) (s : Dda dim)
    (h : ddaStart e seg = some (r, s)) :
    ∃ c b, seg.clip { min := fun _ => 0, max := e.max } (1 / 10000) = some (c, b) ∧
      r = { o := (c.updateOrigin c.t0).o, d := (c.updateOrigin c.t0).d, t1 := (c.updateOrigin c.t0).t1 } ∧ ddaInit e r = some s := by
  unfold ddaStart at h
  cases hc : seg.clip { min := fun _ => 0, max := e.max } (1 / 10000) with
  | none => rw [hc] at h; simp at h
  | some p =>
    obtain ⟨c, b⟩ := p
    rw [hc] at h
    simp only at h
    obtain ⟨s', h1, h2⟩ := Option.map_eq_some_iff.1 h
    obtain ⟨rfl, rfl⟩ := Prod.mk.inj h2
    exact ⟨c, b, rfl, rfl, h1⟩

theorem chain_passed (e : DdaEnv dim) (r : DdaRay dim) : ∀ (s : Dda dim) (l : List (Dda dim)) (last : Dda dim),
    l.IsChain (fun x y => y.t = x.t + x.dt + gapAfter e r x) → l.getLast? = some last → l.head? = some s →
    last.t + last.dt - s.t ≤ (l.map (·.dt)).sum + (l.map (fun v => gapAfter e r v)).sum := by
  intro s l
  induction l generalizing s with
  | nil => intro last _ h _; simp at h
  | cons x l ih =>
    intro last hch hl hh
    simp only [List.head?_cons, Option.some.injEq] at hh
    subst hh
    cases l with
    | nil =>
      simp only [List.getLast?_singleton, Option.some.injEq] at hl
      subst hl
      simp only [List.map_cons, List.map_nil, List.sum_cons, List.sum_nil, add_zero]
      linarith [gapAfter_nonneg e r x]
    | cons y l =>
      rw [List.isChain_cons_cons] at hch
      rw [List.getLast?_cons_cons] at hl
      have := ih y last hch.2 hl rfl
      rw [List.map_cons, List.sum_cons, List.map_cons (a := x), List.sum_cons]
      linarith [hch.1]

end DexRT
