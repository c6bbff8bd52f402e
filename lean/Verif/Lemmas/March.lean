import Verif.Model.March
import Mathlib.Tactic.Linarith
import Mathlib.Tactic.Ring
import Mathlib.Tactic.FieldSimp
import Mathlib.Tactic.Positivity
import Mathlib.Tactic.NormNum
namespace DexRT
open Real

/-- optical thickness of a step along the slanted ray -/
noncomputable def stepTau (es : Bool) (scale invSin : ℝ) (s : Step) : ℝ :=
  if s.sample then chiUsed es s.chi * s.dt * scale * invSin else 0

theorem chiUsed_pos (es : Bool) {chi : ℝ} (h : 0 ≤ chi) : 1e-15 ≤ chiUsed es chi := by
  unfold chiUsed
  simp only
  split
  · split <;> norm_num <;> linarith
  · linarith

theorem march_append (es : Bool) (sc is I0 : ℝ) (a b : List Step) :
    march es sc is I0 (a ++ b) = b.foldl (marchStep es sc is) (march es sc is I0 a) := by
  simp [march]

theorem fold_tau (es : Bool) (sc is : ℝ) (l : List Step) (v : MarchVars) :
    (l.foldl (marchStep es sc is) v).tau = v.tau + (l.map (stepTau es sc is)).sum := by
  induction l generalizing v with
  | nil => simp
  | cons s l ih =>
    rw [List.foldl_cons, ih]
    simp only [List.map_cons, List.sum_cons]
    cases hs : s.sample <;> simp [marchStep, stepTau, hs] <;> ring

/-- emission part of a step -/
theorem fold_I (es : Bool) (sc is : ℝ) (l : List Step) (v w : MarchVars) :
    (l.foldl (marchStep es sc is) v).I - (l.foldl (marchStep es sc is) w).I
      = exp (-(l.map (stepTau es sc is)).sum) * (v.I - w.I) := by
  induction l generalizing v w with
  | nil => simp
  | cons s l ih =>
    rw [List.foldl_cons, List.foldl_cons, ih]
    simp only [List.map_cons, List.sum_cons, neg_add, exp_add]
    cases hs : s.sample
    · simp [marchStep, stepTau, hs]
    · simp only [marchStep, stepTau, hs, if_true]; ring

/-- linearity in the boundary intensity -/
theorem march_linear (es : Bool) (sc is I0 : ℝ) (l : List Step) :
    (march es sc is I0 l).I = (march es sc is 0 l).I + exp (-(march es sc is 0 l).tau) * I0 := by
  have h := fold_I es sc is l { I := I0, tau := 0, chiS := 1e-20, oneMEdt := 0 } { I := 0, tau := 0, chiS := 1e-20, oneMEdt := 0 }
  have ht := fold_tau es sc is l { I := 0, tau := 0, chiS := 1e-20, oneMEdt := 0 }
  unfold march
  rw [ht]
  simp only [sub_zero, zero_add] at h ⊢
  linarith

theorem march_tau_indep (es : Bool) (sc is I0 I1 : ℝ) (l : List Step) :
    (march es sc is I0 l).tau = (march es sc is I1 l).tau := by
  unfold march; rw [fold_tau, fold_tau]

theorem march_concat (es : Bool) (sc is I0 : ℝ) (far near : List Step) :
    (march es sc is I0 (far ++ near)).I
      = (march es sc is 0 near).I + exp (-(march es sc is 0 near).tau) * (march es sc is I0 far).I := by
  rw [← march_linear es sc is (march es sc is I0 far).I near, march_append]
  have h := fold_I es sc is near (march es sc is I0 far) { I := (march es sc is I0 far).I, tau := 0, chiS := 1e-20, oneMEdt := 0 }
  simp only [sub_self, mul_zero] at h
  unfold march at h ⊢
  linarith

structure GoodStep (s : Step) : Prop where
  eta : 0 ≤ s.eta
  chi : 0 ≤ s.chi
  dt : 0 ≤ s.dt

/-- intensities stay between bounds of the sources -/
theorem fold_bounds (es : Bool) {sc is lo hi : ℝ} (hsc : 0 ≤ sc) (his : 0 ≤ is) (l : List Step)
    (hl : ∀ s ∈ l, 0 ≤ s.chi ∧ 0 ≤ s.dt ∧ (s.sample = true → lo ≤ s.eta / chiUsed es s.chi ∧ s.eta / chiUsed es s.chi ≤ hi))
    (v : MarchVars) (h1 : lo ≤ v.I) (h2 : v.I ≤ hi) :
    lo ≤ (l.foldl (marchStep es sc is) v).I ∧ (l.foldl (marchStep es sc is) v).I ≤ hi := by
  induction l generalizing v with
  | nil => exact ⟨h1, h2⟩
  | cons s l ih =>
    rw [List.foldl_cons]
    apply ih (fun t ht => hl t (List.mem_cons_of_mem _ ht))
    all_goals
      obtain ⟨hc, hd, hS⟩ := hl s (List.mem_cons_self ..)
      cases hs : s.sample
      · simpa [marchStep, hs] using by first | exact h1 | exact h2
      · obtain ⟨a, b⟩ := hS hs
        simp only [marchStep, hs, if_true]
        have hpos := chiUsed_pos es hc
        have htau : 0 ≤ chiUsed es s.chi * s.dt * sc * is := by
          have : 0 ≤ chiUsed es s.chi := by linarith [show (0:ℝ) ≤ 1e-15 by norm_num]
          positivity
        have he1 : exp (-(chiUsed es s.chi * s.dt * sc * is)) ≤ 1 := exp_le_one_iff.mpr (by linarith)
        have he0 : 0 < exp (-(chiUsed es s.chi * s.dt * sc * is)) := exp_pos _
        set e := exp (-(chiUsed es s.chi * s.dt * sc * is))
        set S := s.eta / chiUsed es s.chi
        have e1 : 0 ≤ 1 - e := by linarith
        nlinarith [mul_le_mul_of_nonneg_right h1 he0.le, mul_le_mul_of_nonneg_right h2 he0.le,
          mul_le_mul_of_nonneg_right a e1, mul_le_mul_of_nonneg_right b e1]

theorem wsum_fold (l : List (ℝ × ℝ)) (a : ℝ) :
    l.foldl (fun acc t => acc + t.1 * t.2) a = a + (l.map (fun t => t.1 * t.2)).sum := by
  induction l generalizing a with
  | nil => simp
  | cons t l ih => rw [List.foldl_cons, ih]; simp; ring

theorem wsum_bounds {lo hi : ℝ} (l : List (ℝ × ℝ)) (hw : ∀ t ∈ l, 0 ≤ t.1) (hv : ∀ t ∈ l, lo ≤ t.2 ∧ t.2 ≤ hi) :
    lo * (l.map (·.1)).sum ≤ (l.map (fun t => t.1 * t.2)).sum ∧
    (l.map (fun t => t.1 * t.2)).sum ≤ hi * (l.map (·.1)).sum := by
  induction l with
  | nil => simp
  | cons t l ih =>
    have ih := ih (fun x hx => hw x (List.mem_cons_of_mem _ hx)) (fun x hx => hv x (List.mem_cons_of_mem _ hx))
    have w := hw t (List.mem_cons_self ..)
    have v := hv t (List.mem_cons_self ..)
    simp only [List.map_cons, List.sum_cons]
    constructor <;> nlinarith [mul_le_mul_of_nonneg_left v.1 w, mul_le_mul_of_nonneg_left v.2 w]

theorem interpUpper_I (st : Bool) (l : List (ℝ × ℝ × ℝ)) :
    (interpUpper st l).I = (l.map (fun t => t.1 * t.2.1)).sum := by
  have : ∀ (l : List (ℝ × ℝ × ℝ)) (a : Interval), (l.foldl (fun (acc : Interval) (t : ℝ × ℝ × ℝ) =>
    { acc with I := acc.I + t.1 * t.2.1, tau := if st then acc.tau + t.1 * t.2.2 else acc.tau }) a).I
      = a.I + (l.map (fun t => t.1 * t.2.1)).sum := by
    intro l
    induction l with
    | nil => simp
    | cons t l ih => intro a; rw [List.foldl_cons, ih]; simp; ring
  unfold interpUpper; rw [this]; simp

end DexRT
