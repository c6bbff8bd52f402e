import Verif.Model.Raymarch
import Verif.Spec.Transfer
import Verif.Lemmas.March
import Verif.Props.Dda
import Verif.Props.Clip
import Mathlib.Analysis.Calculus.Deriv.MeanValue
import Mathlib.Analysis.SpecialFunctions.ExpDeriv
namespace DexRT
open Classical Set

variable {dim : DdaDim}

/-- the transfer equation with constant coefficients on an interval -/
theorem transfer_slab (k eta chi : ℝ) (I : ℝ → ℝ) (a b : ℝ) (hab : a ≤ b) (hchi : chi ≠ 0)
    (hc : ContinuousOn I (Icc a b)) (hd : ∀ s ∈ Ioo a b, SolvesAt k eta chi I s) :
    I b = I a * Real.exp (-(k * chi * (b - a))) + eta / chi * (1 - Real.exp (-(k * chi * (b - a)))) := by
  rcases hab.eq_or_lt with rfl | hlt
  · simp
  · let g : ℝ → ℝ := fun s => (I s - eta / chi) * Real.exp (k * chi * (s - a))
    have hE : ∀ s, HasDerivAt (fun s => Real.exp (k * chi * (s - a))) (Real.exp (k * chi * (s - a)) * (k * chi)) s := by
      intro s
      have h1 : HasDerivAt (fun s : ℝ => k * chi * (s - a)) (k * chi) s := by
        simpa using ((hasDerivAt_id s).sub_const a).const_mul (k * chi)
      exact h1.exp
    have hg : ∀ s ∈ Ioo a b, HasDerivAt g 0 s := by
      intro s hs
      have h2 := ((hd s hs).sub_const (eta / chi)).mul (hE s)
      have h3 : (k * (eta - chi * I s)) * Real.exp (k * chi * (s - a)) +
          (I s - eta / chi) * (Real.exp (k * chi * (s - a)) * (k * chi)) = 0 := by
        field_simp
        ring
      rw [h3] at h2
      exact h2
    have hgc : ContinuousOn g (Icc a b) :=
      (hc.sub continuousOn_const).mul (fun s _ => (hE s).continuousAt.continuousWithinAt)
    obtain ⟨c, _, h⟩ := exists_hasDerivAt_eq_slope g (fun _ => 0) hlt hgc hg
    have h0 : g b = g a := by
      have hba : b - a ≠ 0 := by linarith
      rw [eq_comm, div_eq_zero_iff] at h
      rcases h with h | h
      · linarith
      · exact absurd h hba
    have ha : g a = I a - eta / chi := by simp [g]
    have hb : g b = (I b - eta / chi) * Real.exp (k * chi * (b - a)) := rfl
    have h4 : I b - eta / chi = (I a - eta / chi) * Real.exp (-(k * chi * (b - a))) := by
      rw [← ha, ← h0, hb, mul_assoc, ← Real.exp_add]; simp
    linarith

theorem const_slab (I : ℝ → ℝ) (a b : ℝ) (hab : a ≤ b)
    (hc : ContinuousOn I (Icc a b)) (hd : ∀ s ∈ Ioo a b, HasDerivAt I 0 s) : I b = I a := by
  rcases hab.eq_or_lt with rfl | hlt
  · rfl
  · obtain ⟨c, _, h⟩ := exists_hasDerivAt_eq_slope I (fun _ => 0) hlt hc hd
    rw [eq_comm, div_eq_zero_iff] at h
    rcases h with h | h <;> linarith

theorem visitsEnd_some (e : DdaEnv dim) (r : DdaRay dim) : ∀ fuel (s : Dda dim) (l : List (Dda dim)),
    visitsEnd e r fuel s = some l → visits e r fuel s = l ∧ ∃ last, l.getLast? = some last ∧ advance e r last = none
  | 0, s, l, h => by
    unfold visitsEnd at h
    split at h
    · rename_i ha
      obtain rfl := Option.some.inj h
      exact ⟨rfl, s, rfl, ha⟩
    · simp at h
  | f + 1, s, l, h => by
    unfold visitsEnd at h
    unfold visits
    split at h
    · rename_i ha
      obtain rfl := Option.some.inj h
      rw [ha]
      exact ⟨rfl, s, rfl, ha⟩
    · rename_i s' ha
      obtain ⟨l', h1, h2⟩ := Option.map_eq_some_iff.1 h
      obtain ⟨h3, last, h4, h5⟩ := visitsEnd_some e r f s' l' h1
      rw [ha]
      refine ⟨by rw [← h2, ← h3], last, ?_, h5⟩
      rw [← h2, List.getLast?_cons, h4]; rfl

theorem visitsEnd_of (e : DdaEnv dim) (r : DdaRay dim) : ∀ fuel (s : Dda dim) (last : Dda dim),
    (visits e r fuel s).getLast? = some last → advance e r last = none →
    visitsEnd e r fuel s = some (visits e r fuel s)
  | 0, s, last, h, hn => by
    simp only [visits, List.getLast?_singleton, Option.some.injEq] at h
    subst h
    simp [visitsEnd, hn, visits]
  | f + 1, s, last, h, hn => by
    unfold visits at h ⊢
    unfold visitsEnd
    cases ha : advance e r s with
    | none => rfl
    | some s' =>
      rw [ha] at h
      simp only at h ⊢
      have h' : (visits e r f s').getLast? = some last := by
        obtain ⟨l, hl⟩ := visits_head e r f s'
        rw [hl] at h ⊢
        rw [List.getLast?_cons_cons] at h
        exact h
      rw [visitsEnd_of e r f s' last h' hn]; rfl

/-- `march` from the state variables of another start -/
theorem march_fold_cons (es : Bool) (sc is I0 : ℝ) (st : Step) (l : List Step) :
    (march es sc is I0 (st :: l)).I = (march es sc is (marchStep es sc is ⟨I0, 0, 1e-20, 0⟩ st).I l).I := by
  have h := fold_I es sc is l (marchStep es sc is ⟨I0, 0, 1e-20, 0⟩ st)
    ⟨(marchStep es sc is ⟨I0, 0, 1e-20, 0⟩ st).I, 0, 1e-20, 0⟩
  simp only [sub_self, mul_zero] at h
  unfold march
  rw [List.foldl_cons]
  linarith

/-- steps of no length do nothing -/
theorem march_zero (es : Bool) (sc is I0 : ℝ) (l : List Step) (h : ∀ s ∈ l, s.dt = 0) : (march es sc is I0 l).I = I0 := by
  induction l generalizing I0 with
  | nil => rfl
  | cons s l ih =>
    rw [march_fold_cons, ih _ (fun t ht => h t (by simp [ht]))]
    simp only [marchStep, h s (by simp)]
    split <;> simp

theorem chain_later : ∀ (y : Dda dim) (l : List (Dda dim)), (y :: l).IsChain (fun x y => x.t + x.dt ≤ y.t) →
    (∀ v ∈ y :: l, 0 ≤ v.dt) → ∀ v ∈ y :: l, y.t ≤ v.t := by
  intro y l
  induction l generalizing y with
  | nil => intro _ _ v hv; simp only [List.mem_singleton] at hv; rw [hv]
  | cons z l ih =>
    intro hch hd v hv
    rw [List.isChain_cons_cons] at hch
    rcases List.mem_cons.1 hv with rfl | hv
    · exact le_rfl
    · have := ih z hch.2 (fun v hv => hd v (by simp [List.mem_cons.1 hv])) v hv
      have h0 := hd y (by simp)
      linarith [hch.1]

/-- one step of the march is the solution across the step -/
theorem step_solves (a : RaymarchArgs dim) (hchi : ∀ m c, 0 ≤ a.chi m c) (I : ℝ → ℝ) (s : Dda dim) (h1 : 0 ≤ s.dt)
    (hc : ContinuousOn I (Icc s.t (s.t + s.dt)))
    (hd : 0 ≤ s.mip → ∀ x ∈ Ioo s.t (s.t + s.dt), SolvesAt (a.scale * a.invSin) (a.eta s.mip s.coord) (chiUsed a.extraSafe (a.chi s.mip s.coord)) I x)
    (hz : ¬ 0 ≤ s.mip → ∀ x ∈ Ioo s.t (s.t + s.dt), HasDerivAt I 0 x) :
    I (s.t + s.dt) = (marchStep a.extraSafe a.scale a.invSin ⟨I s.t, 0, 1e-20, 0⟩ (a.stepOf s)).I := by
  by_cases hm : 0 ≤ s.mip
  · have := transfer_slab (a.scale * a.invSin) _ _ I s.t (s.t + s.dt) (by linarith)
      (ne_of_gt (lt_of_lt_of_le (by norm_num) (chiUsed_pos a.extraSafe (hchi s.mip s.coord))))
      hc (fun x hx => hd hm x hx)
    rw [this]
    simp only [marchStep, RaymarchArgs.stepOf, hm, decide_true, if_true]
    ring_nf
  · rw [const_slab I _ _ (by linarith) hc (hz hm)]
    simp [marchStep, RaymarchArgs.stepOf, hm]

/-- A function that solves the transfer equation in each visited interval (with no emission or absorption where
nothing is sampled and between the intervals) has at the end the value that the march accumulates. -/
theorem march_solves (a : RaymarchArgs dim) (hchi : ∀ m c, 0 ≤ a.chi m c) (I : ℝ → ℝ) (T : ℝ) :
    ∀ (s : Dda dim) (l : List (Dda dim)), (s :: l).IsChain (fun x y => x.t + x.dt ≤ y.t) →
    (∀ v ∈ s :: l, 0 ≤ v.dt ∧ v.t + v.dt ≤ max v.t T) → s.t ≤ T →
    ContinuousOn I (Icc s.t T) →
    (∀ v ∈ s :: l, 0 ≤ v.mip → ∀ x ∈ Ioo v.t (v.t + v.dt), SolvesAt (a.scale * a.invSin) (a.eta v.mip v.coord) (chiUsed a.extraSafe (a.chi v.mip v.coord)) I x) →
    (∀ x ∈ Ioo s.t T, (∀ v ∈ s :: l, 0 ≤ v.mip → ¬ (v.t ≤ x ∧ x ≤ v.t + v.dt)) → HasDerivAt I 0 x) →
    (march a.extraSafe a.scale a.invSin (I s.t) ((s :: l).map a.stepOf)).I = I T := by
  intro s l
  induction l generalizing s with
  | nil =>
    intro hch hdt hsT hc hd hz
    obtain ⟨h1, h2⟩ := hdt s (by simp)
    rw [max_eq_right hsT] at h2
    have hend : I T = I (s.t + s.dt) := by
      refine const_slab I _ _ h2 (hc.mono (Icc_subset_Icc (by linarith) le_rfl)) ?_
      intro x hx
      refine hz x ⟨by linarith [hx.1], hx.2⟩ ?_
      intro v hv _ hin
      simp only [List.mem_singleton] at hv
      subst hv
      linarith [hx.1, hin.2]
    rw [hend]
    simp only [List.map_cons, List.map_nil, march, List.foldl_cons, List.foldl_nil]
    refine (step_solves a hchi I s h1 (hc.mono (Icc_subset_Icc le_rfl h2)) (hd s (by simp)) ?_).symm
    intro hm x hx
    refine hz x ⟨hx.1, lt_of_lt_of_le hx.2 h2⟩ ?_
    intro v hv hv0
    simp only [List.mem_singleton] at hv
    subst hv
    exact absurd hv0 hm
  | cons y l ih =>
    intro hch hdt hsT hc hd hz
    rw [List.isChain_cons_cons] at hch
    obtain ⟨hsy, hch⟩ := hch
    obtain ⟨h1, h2⟩ := hdt s (by simp)
    rw [max_eq_right hsT] at h2
    have hlater := chain_later y l hch (fun v hv => (hdt v (List.mem_cons_of_mem _ hv)).1)
    have hstep := step_solves a hchi I s h1 (hc.mono (Icc_subset_Icc le_rfl h2)) (hd s (by simp)) (by
      intro hm x hx
      refine hz x ⟨hx.1, by linarith [hx.2]⟩ ?_
      intro v hv hv0 hin
      rcases List.mem_cons.1 hv with rfl | hv
      · exact hm hv0
      · linarith [hlater v hv, hx.2, hin.1])
    rw [List.map_cons (a := s), march_fold_cons]
    have e0 : (marchStep a.extraSafe a.scale a.invSin ⟨I s.t, 0, 1e-20, 0⟩ (a.stepOf s)).I = I (s.t + s.dt) := hstep.symm
    rw [e0]
    by_cases hyT : y.t ≤ T
    · have hmid : I y.t = I (s.t + s.dt) := by
        refine const_slab I _ _ hsy (hc.mono (Icc_subset_Icc (by linarith) hyT)) ?_
        intro x hx
        refine hz x ⟨by linarith [hx.1], lt_of_lt_of_le hx.2 hyT⟩ ?_
        intro v hv _ hin
        rcases List.mem_cons.1 hv with rfl | hv
        · linarith [hx.1, hin.2]
        · linarith [hlater v hv, hx.2, hin.1]
      rw [← hmid]
      refine ih y hch (fun v hv => hdt v (List.mem_cons_of_mem _ hv)) hyT
        (hc.mono (Icc_subset_Icc (by linarith) le_rfl)) (fun v hv => hd v (List.mem_cons_of_mem _ hv))
        (fun x hx hno => ?_)
      refine hz x ⟨by linarith [hx.1], hx.2⟩ ?_
      intro v hv hv0 hin
      rcases List.mem_cons.1 hv with rfl | hv
      · linarith [hx.1, hin.2]
      · exact hno v hv hv0 hin
    · push Not at hyT
      rw [march_zero]
      · symm
        refine const_slab I _ _ h2 (hc.mono (Icc_subset_Icc (by linarith) le_rfl)) ?_
        intro x hx
        refine hz x ⟨by linarith [hx.1], hx.2⟩ ?_
        intro v hv _ hin
        rcases List.mem_cons.1 hv with rfl | hv
        · linarith [hx.1, hin.2]
        · linarith [hlater v hv, hx.2, hin.1]
      · intro st hst
        obtain ⟨v, hv, rfl⟩ := List.mem_map.1 hst
        obtain ⟨p1, p2⟩ := hdt v (List.mem_cons_of_mem _ hv)
        have := hlater v hv
        rw [max_eq_left (by linarith)] at p2
        show v.dt = 0
        linarith

end DexRT
