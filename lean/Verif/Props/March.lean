import Verif.Lemmas.March
/-!
# C23, C24: merging intervals and marching rays
-/
namespace DexRT
open Real

/-! ## C23 -/

/-- Merging is associative when optical depths are stored. -/
theorem C23_associative_partial (a b c : Interval) :
    (mergeIntervals true a (mergeIntervals true b c)).I = (mergeIntervals true (mergeIntervals true a b) c).I ∧
    (mergeIntervals true a (mergeIntervals true b c)).tau = (mergeIntervals true (mergeIntervals true a b) c).tau := by
  simp only [mergeIntervals, if_true, neg_add, exp_add]
  constructor <;> ring

/-- The empty interval is neutral on both sides, whether or not optical depths are stored. -/
theorem C23_identity (st : Bool) (a : Interval) (p : ℝ) :
    (mergeIntervals st a ⟨0, 0, p⟩).I = a.I ∧ (mergeIntervals st a ⟨0, 0, p⟩).tau = a.tau ∧
    (mergeIntervals st ⟨0, 0, p⟩ a).I = a.I ∧ (st = true → (mergeIntervals st ⟨0, 0, p⟩ a).tau = a.tau) := by
  cases st <;> simp [mergeIntervals]

/-- With the default `STORE_TAU_CASCADES = false` associativity is **false**: only the order used by the
cascades (far side merged first) gives the formal solution, see `C23_path`. -/
theorem C23_refuted_without_tau : ∃ a b c : Interval,
    (mergeIntervals false a (mergeIntervals false b c)).I ≠ (mergeIntervals false (mergeIntervals false a b) c).I := by
  refine ⟨⟨0, 0, 0⟩, ⟨0, 1, 0⟩, ⟨1, 0, 0⟩, ?_⟩
  simp only [mergeIntervals]
  norm_num

/-- A ray cut into pieces: `pieces` are the intervals of cascades 0, 1, ... (near side first), `top` the
interval of the last cascade, which alone sees the boundary intensity. The far-to-near merge of the pieces. -/
noncomputable def mergedRay (st es : Bool) (scale invSin I0 : ℝ) (pieces : List (List Step)) (top : List Step) : Interval :=
  pieces.foldr (fun p acc => mergeIntervals st (marchInterval es scale invSin 0 p) acc)
    (marchInterval es scale invSin I0 top)

/-- C23 (path): however a ray is cut into intervals, merging the separately marched intervals from the far end
gives exactly the intensity of marching the whole path in one go, with or without stored optical depths. -/
theorem C23_path (st es : Bool) (scale invSin I0 : ℝ) (pieces : List (List Step)) (top : List Step) :
    (mergedRay st es scale invSin I0 pieces top).I
      = (marchInterval es scale invSin I0 (top ++ pieces.reverse.flatten)).I := by
  induction pieces with
  | nil => simp [mergedRay]
  | cons p ps ih =>
    have : mergedRay st es scale invSin I0 (p :: ps) top
        = mergeIntervals st (marchInterval es scale invSin 0 p) (mergedRay st es scale invSin I0 ps top) := rfl
    rw [this]
    simp only [mergeIntervals, ih, marchInterval, List.reverse_cons, List.flatten_append, List.flatten_cons,
      List.flatten_nil, List.append_nil]
    rw [← List.append_assoc, march_concat _ _ _ _ (top ++ ps.reverse.flatten) p]

/-- Interpolating upper intervals and then merging is the same as merging each and interpolating: merging is
affine in the far interval when the weights add up to one. -/
theorem C23_interpolate (st : Bool) (near : Interval) (terms : List (ℝ × ℝ × ℝ))
    (h1 : (terms.map (·.1)).sum = 1) :
    (mergeIntervals st near (interpUpper st terms)).I
      = (terms.map fun t => t.1 * (mergeIntervals st near ⟨t.2.1, t.2.2, 0⟩).I).sum := by
  simp only [mergeIntervals, interpUpper_I]
  have : ∀ (l : List (ℝ × ℝ × ℝ)) (e x : ℝ), (l.map fun t => t.1 * (x + e * t.2.1)).sum
      = x * (l.map (·.1)).sum + e * (l.map fun t => t.1 * t.2.1).sum := by
    intro l e x
    induction l with
    | nil => simp
    | cons t l ih => simp only [List.map_cons, List.sum_cons, ih]; ring
  rw [this, h1]; ring

/-! ## C24 -/

/-- The source function of a sampled step, as used by the march (opacity plus its `1e-15` offset). -/
noncomputable def sourceFn (es : Bool) (s : Step) : ℝ := s.eta / chiUsed es s.chi

/-- A step with non-negative opacity and length whose source function is in `[lo, hi]` if it is sampled. -/
def StepIn (es : Bool) (lo hi : ℝ) (s : Step) : Prop :=
  0 ≤ s.chi ∧ 0 ≤ s.dt ∧ (s.sample = true → lo ≤ sourceFn es s ∧ sourceFn es s ≤ hi)

/-- C24 (bounds): the marched intensity lies between the smallest and the largest of the boundary intensity
and the source functions crossed. -/
theorem C24_between (es : Bool) {scale invSin I0 lo hi : ℝ} (hsc : 0 ≤ scale) (his : 0 ≤ invSin)
    (steps : List Step) (hs : ∀ s ∈ steps, StepIn es lo hi s) (h1 : lo ≤ I0) (h2 : I0 ≤ hi) :
    lo ≤ (marchInterval es scale invSin I0 steps).I ∧ (marchInterval es scale invSin I0 steps).I ≤ hi :=
  fold_bounds es hsc his steps hs _ h1 h2

/-- C24 (positivity): non-negative emissivities, opacities and boundary give a non-negative intensity. -/
theorem C24_nonneg (es : Bool) {scale invSin I0 : ℝ} (hsc : 0 ≤ scale) (his : 0 ≤ invSin) (h0 : 0 ≤ I0)
    (steps : List Step) (hs : ∀ s ∈ steps, 0 ≤ s.eta ∧ 0 ≤ s.chi ∧ 0 ≤ s.dt) :
    0 ≤ (marchInterval es scale invSin I0 steps).I := by
  -- every source function is at most their sum
  have pos : ∀ s ∈ steps, 0 ≤ sourceFn es s := fun s h => by
    obtain ⟨a, b, _⟩ := hs s h
    have := chiUsed_pos es b
    exact div_nonneg a (by linarith [show (0:ℝ) ≤ 1e-15 by norm_num])
  have ub : ∀ s ∈ steps, sourceFn es s ≤ (steps.map (sourceFn es)).sum := fun s h =>
    List.single_le_sum (by
      intro x hx
      obtain ⟨t, ht, rfl⟩ := List.mem_map.mp hx
      exact pos t ht) _ (List.mem_map.mpr ⟨s, h, rfl⟩)
  have sum0 : 0 ≤ (steps.map (sourceFn es)).sum := List.sum_nonneg (by
      intro x hx
      obtain ⟨t, ht, rfl⟩ := List.mem_map.mp hx
      exact pos t ht)
  exact (C24_between es (hi := I0 + (steps.map (sourceFn es)).sum) hsc his steps
    (fun s h => ⟨(hs s h).2.1, (hs s h).2.2, fun _ => ⟨pos s h, by linarith [ub s h]⟩⟩) h0 (by linarith)).1

/-- C24 (optical depth): the accumulated optical depth is the sum of opacity times length (converted to metres
and along the inclined ray) over the sampled steps; it does not depend on the boundary. -/
theorem C24_tau (es : Bool) (scale invSin I0 : ℝ) (steps : List Step) :
    (marchInterval es scale invSin I0 steps).tau
      = ((steps.filter (·.sample)).map fun s => chiUsed es s.chi * (s.dt * scale * invSin)).sum := by
  have h := fold_tau es scale invSin steps { I := I0, tau := 0, chiS := 1e-20, oneMEdt := 0 }
  show (march es scale invSin I0 steps).tau = _
  unfold march
  rw [h, zero_add]
  clear h
  induction steps with
  | nil => rfl
  | cons s l ih =>
    cases hs : s.sample
    · simp [stepTau, hs, ih]
    · simp only [List.map_cons, List.sum_cons, ih, stepTau, hs, if_true, List.filter_cons]; ring

/-- The opacity used differs from the physical one only by the offset `1e-15`. -/
theorem C24_chi (es : Bool) {chi : ℝ} (h : 0 ≤ chi) : chiUsed es chi = chi + 1e-15 := by
  unfold chiUsed
  have : ¬ |chi + 1e-15| < 1e-15 := by rw [abs_of_nonneg (by norm_num; linarith)]; push Not; linarith
  simp [this]

/-- The approximate-operator term of the ray's last step is between 0 and the length of that step (in metres
along the ray), and 0 if the last step is not sampled. -/
theorem C24_alo (es : Bool) {scale invSin I0 : ℝ} (hsc : 0 ≤ scale) (his : 0 ≤ invSin) (init : List Step) (s : Step)
    (hc : 0 ≤ s.chi) (hd : 0 ≤ s.dt) :
    0 ≤ (marchInterval es scale invSin I0 (init ++ [s])).psiStar ∧
    (marchInterval es scale invSin I0 (init ++ [s])).psiStar ≤ (if s.sample then s.dt * scale * invSin else 0) := by
  have hp : 0 < chiUsed es s.chi := by
    have := chiUsed_pos es hc; linarith [show (0:ℝ) < 1e-15 by norm_num]
  refine ⟨le_max_right _ _, ?_⟩
  simp only [marchInterval, march_append, List.foldl_cons, List.foldl_nil]
  cases hs : s.sample
  · simp [marchStep, hs]
  · simp only [marchStep, hs, if_true]
    apply max_le
    · rw [div_le_iff₀ hp]
      have := add_one_le_exp (-(chiUsed es s.chi * s.dt * scale * invSin))
      nlinarith
    · positivity

/-- Every intensity the cascade solver can produce: the last cascade marches from a boundary intensity
satisfying `Bc`; every other one marches its own interval from zero and merges it with an interpolation (with
non-negative weights adding up to one, C18/C19) of intensities of the cascade above. `Ok` restricts the steps. -/
inductive RcValue (st es : Bool) (scale invSin : ℝ) (Bc : ℝ → Prop) (Ok : Step → Prop) : ℝ → Prop where
  | top (I0 : ℝ) (steps : List Step) : Bc I0 → (∀ s ∈ steps, Ok s) →
      RcValue st es scale invSin Bc Ok (marchInterval es scale invSin I0 steps).I
  | merge (steps : List Step) (terms : List (ℝ × ℝ × ℝ)) : (∀ s ∈ steps, Ok s) → (∀ t ∈ terms, 0 ≤ t.1) →
      (terms.map (·.1)).sum = 1 → (∀ t ∈ terms, RcValue st es scale invSin Bc Ok t.2.1) →
      RcValue st es scale invSin Bc Ok
        (mergeIntervals st (marchInterval es scale invSin 0 steps) (interpUpper st terms)).I

/-- C24 for the whole cascade hierarchy, any number of cascades: no intensity over- or undershoots the boundary
intensities and source functions. -/
theorem C24_cascades (st es : Bool) {scale invSin lo hi : ℝ} (hsc : 0 ≤ scale) (his : 0 ≤ invSin) {x : ℝ}
    (h : RcValue st es scale invSin (fun b => lo ≤ b ∧ b ≤ hi) (StepIn es lo hi) x) : lo ≤ x ∧ x ≤ hi := by
  induction h with
  | top I0 steps hb hs => exact C24_between es hsc his steps hs hb.1 hb.2
  | merge steps terms hs hw h1 _ ih =>
    have e : (mergeIntervals st (marchInterval es scale invSin 0 steps) (interpUpper st terms)).I
        = (march es scale invSin (interpUpper st terms).I steps).I := by
      rw [march_linear]; rfl
    rw [e]
    have hb : lo ≤ (interpUpper st terms).I ∧ (interpUpper st terms).I ≤ hi := by
      rw [interpUpper_I]
      have := wsum_bounds (lo := lo) (hi := hi) (terms.map fun t => (t.1, t.2.1))
        (by intro t ht; obtain ⟨u, hu, rfl⟩ := List.mem_map.mp ht; exact hw u hu)
        (by intro t ht; obtain ⟨u, hu, rfl⟩ := List.mem_map.mp ht; exact ih u hu)
      simp only [List.map_map, Function.comp_def] at this
      rw [h1] at this; simpa using this
    exact fold_bounds es hsc his steps hs _ hb.1 hb.2

/-- C24 for the mean intensity: with non-negative direction weights adding up to `W`, J is within
`[lo * W, hi * W]`. -/
theorem C24_mean_intensity {lo hi : ℝ} (terms : List (ℝ × ℝ)) (hw : ∀ t ∈ terms, 0 ≤ t.1)
    (hv : ∀ t ∈ terms, lo ≤ t.2 ∧ t.2 ≤ hi) :
    lo * (terms.map (·.1)).sum ≤ meanIntensity terms ∧ meanIntensity terms ≤ hi * (terms.map (·.1)).sum := by
  unfold meanIntensity
  rw [wsum_fold, zero_add]
  exact wsum_bounds terms hw hv

/-- The inclination weights of all three quadratures (4, 8 or 16 rays) are non-negative and add up to one
within `1e-13`, so `W` of `C24_mean_intensity` is one up to rounding of the printed constants. -/
theorem C24_incl_weights (n : Nat) (h : n = 4 ∨ n = 8 ∨ n = 16) :
    (inclWeights n).length = n ∧ (∀ w ∈ inclWeights n, 0 ≤ w) ∧ |(inclWeights n).sum - 1| ≤ 1e-13 := by
  rcases h with rfl | rfl | rfl
  all_goals
    refine ⟨rfl, ?_, ?_⟩
    · simp only [inclWeights, List.forall_mem_cons]
      norm_num
    · simp only [inclWeights, List.sum_cons, List.sum_nil]; rw [abs_le]; constructor <;> norm_num

/-- Non-vacuity: a two-cascade hierarchy with a bright boundary and an absorbing, emitting cell. -/
example : ∃ x, RcValue false true 1 1 (fun b => 0 ≤ b ∧ b ≤ 5) (StepIn true 0 5) x := by
  refine ⟨_, .merge [⟨true, 1, 1, 2⟩] [(1, (marchInterval true 1 1 3 []).I, 0)] ?_ (by simp) (by simp) ?_⟩
  · intro s hs
    simp only [List.mem_singleton] at hs
    subst hs
    refine ⟨by norm_num, by norm_num, fun _ => ?_⟩
    rw [sourceFn, C24_chi true (by norm_num)]
    norm_num
  · intro t ht
    simp only [List.mem_singleton] at ht
    subst ht
    exact .top 3 [] (by norm_num) (by simp)

end DexRT
