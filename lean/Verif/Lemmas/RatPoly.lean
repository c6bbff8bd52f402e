import Mathlib.Analysis.Complex.AbsMax
import Mathlib.Analysis.SpecialFunctions.ExpDeriv
import Mathlib.Analysis.Complex.Basic
import Mathlib.Tactic.Linarith
import Mathlib.Tactic.Ring
import Mathlib.Tactic.FieldSimp
/-!
Rational polynomials as coefficient lists (lowest power first), their real part on the unit circle, and a criterion for
non-negativity on an interval that the kernel can evaluate.
-/
namespace DexRT
namespace RatPoly

/-- Value of a polynomial. -/
def ev {R : Type} [Field R] : List ℚ → R → R
  | [], _ => 0
  | c :: cs, x => (c : R) + x * ev cs x

/-- Sum. -/
def add : List ℚ → List ℚ → List ℚ
  | [], b => b
  | a, [] => a
  | a :: as, b :: bs => (a + b) :: add as bs

/-- Multiple. -/
def scale (r : ℚ) (a : List ℚ) : List ℚ := a.map (r * ·)

/-- Product. -/
def mul : List ℚ → List ℚ → List ℚ
  | [], _ => []
  | a :: as, b => add (scale a b) (0 :: mul as b)

variable {R : Type} [Field R] [CharZero R]

theorem ev_add (a b : List ℚ) (x : R) : ev (add a b) x = ev a x + ev b x := by
  induction a generalizing b with
  | nil => simp [add, ev]
  | cons a as ih =>
    cases b with
    | nil => simp [add, ev]
    | cons b bs => simp only [add, ev, ih]; push_cast; ring

theorem ev_scale (r : ℚ) (a : List ℚ) (x : R) : ev (scale r a) x = (r : R) * ev a x := by
  induction a with
  | nil => simp [scale, ev]
  | cons a as ih =>
    have : scale r (a :: as) = (r * a) :: scale r as := rfl
    rw [this]; simp only [ev, ih]; push_cast; ring

theorem ev_mul (a b : List ℚ) (x : R) : ev (mul a b) x = ev a x * ev b x := by
  induction a with
  | nil => simp [mul, ev]
  | cons a as ih => simp only [mul, ev_add, ev_scale, ev, ih]; push_cast; ring

/-- Reduction modulo `t² = 2 x t - 1`: polynomials `A`, `B` in `x` with `p(t) = A(x) + B(x) t`. -/
def red : List ℚ → List ℚ × List ℚ
  | [] => ([], [])
  | c :: cs => let r := red cs; (add [c] (scale (-1) r.2), add r.1 (0 :: scale 2 r.2))

/-- Real part on the unit circle, as polynomial in the real part. -/
def reCircle (p : List ℚ) : List ℚ := let r := red p; add r.1 (0 :: r.2)

theorem ev_ofReal (p : List ℚ) (x : ℝ) : ev p (x : ℂ) = ((ev p x : ℝ) : ℂ) := by
  induction p with
  | nil => simp [ev]
  | cons c cs ih => simp only [ev, ih]; push_cast; ring

theorem red_spec (p : List ℚ) (t : ℂ) (ht : t * t = 2 * (t.re : ℂ) * t - 1) :
    ev p t = ev (red p).1 (t.re : ℂ) + ev (red p).2 (t.re : ℂ) * t := by
  induction p with
  | nil => simp [ev, red]
  | cons c cs ih =>
    have h1 : ev (red (c :: cs)).1 (t.re : ℂ) = (c : ℂ) - ev (red cs).2 (t.re : ℂ) := by
      simp only [red, ev_add, ev_scale, ev]; push_cast; ring
    have h2 : ev (red (c :: cs)).2 (t.re : ℂ) = ev (red cs).1 (t.re : ℂ) + 2 * (t.re : ℂ) * ev (red cs).2 (t.re : ℂ) := by
      simp only [red, ev_add, ev_scale, ev]; push_cast; ring
    rw [h1, h2]
    simp only [ev]
    rw [ih]
    linear_combination (ev (red cs).2 (t.re : ℂ)) * ht

theorem circle_sq (t : ℂ) (ht : ‖t‖ = 1) : t * t = 2 * (t.re : ℂ) * t - 1 := by
  have h : t.re * t.re + t.im * t.im = 1 := by
    have := Complex.normSq_eq_norm_sq t
    rw [ht] at this
    rw [← Complex.normSq_apply, this]; norm_num
  apply Complex.ext
  · simp [Complex.mul_re]; linarith
  · simp [Complex.mul_im]; ring

theorem reCircle_spec (p : List ℚ) (t : ℂ) (ht : ‖t‖ = 1) : (ev p t).re = ev (reCircle p) t.re := by
  rw [red_spec p t (circle_sq t ht), ev_ofReal, ev_ofReal]
  simp only [reCircle, ev_add, ev, Complex.add_re, Complex.mul_re, Complex.ofReal_re, Complex.ofReal_im]
  push_cast; ring

/-- `(1 + y)^n p((l + u y) / (1 + y))` with `n` the length of the list, and `(1 + y)^n`. -/
def mob (l u : ℚ) : List ℚ → List ℚ × List ℚ
  | [] => ([], [1])
  | c :: cs =>
    let r := mob l u cs
    let w := mul [1, 1] r.2
    (add (scale c w) (mul [l, u] r.1), w)

theorem mob_spec (l u : ℚ) (p : List ℚ) (y : ℝ) (hy : 0 ≤ y) :
    ev (mob l u p).1 y = (1 + y) ^ p.length * ev p ((l + u * y) / (1 + y)) ∧ ev (mob l u p).2 y = (1 + y) ^ p.length := by
  have h1 : (1 + y) ≠ 0 := by positivity
  induction p with
  | nil => simp [mob, ev]
  | cons c cs ih =>
    obtain ⟨i1, i2⟩ := ih
    have hw : ev (mob l u (c :: cs)).2 y = (1 + y) ^ (cs.length + 1) := by
      simp only [mob, ev_mul, ev, i2]; push_cast; ring
    refine ⟨?_, hw⟩
    have : ev (mob l u (c :: cs)).1 y = c * (1 + y) ^ (cs.length + 1) + (l + u * y) * ev (mob l u cs).1 y := by
      simp only [mob, ev_add, ev_scale, ev_mul, ev, i2]; push_cast; ring
    rw [this, i1, List.length_cons, ev, pow_succ]
    field_simp

theorem ev_nonneg (p : List ℚ) (h : ∀ c ∈ p, 0 ≤ c) (y : ℝ) (hy : 0 ≤ y) : 0 ≤ ev p y := by
  induction p with
  | nil => simp [ev]
  | cons c cs ih =>
    have h1 : (0 : ℝ) ≤ (c : ℝ) := by exact_mod_cast h c (by simp)
    have h2 := ih (fun c hc => h c (by simp [hc]))
    simp only [ev]
    positivity

/-- All coefficients of `mob` non-negative: non-negative on the interval. -/
theorem nonneg_of_mob (l u : ℚ) (p : List ℚ) (h : ∀ c ∈ (mob l u p).1, 0 ≤ c) (x : ℝ) (h1 : (l : ℝ) ≤ x) (h2 : x < (u : ℝ)) :
    0 ≤ ev p x := by
  have hu : 0 < (u : ℝ) - x := by linarith
  have hy : 0 ≤ (x - l) / (u - x) := div_nonneg (by linarith) hu.le
  have h3 := (mob_spec l u p _ hy).1
  have h4 := ev_nonneg _ h _ hy
  have h5 : (0 : ℝ) < (1 + (x - l) / (u - x)) ^ p.length := by positivity
  have h6 : ((l : ℝ) + u * ((x - l) / (u - x))) / (1 + (x - l) / (u - x)) = x := by
    have h8 : 1 + (x - l) / (u - x) = (u - l) / ((u : ℝ) - x) := by field_simp; ring
    have h9 : (u : ℝ) - l ≠ 0 := by linarith
    rw [h8]
    field_simp
    ring
  rw [h6] at h3
  rw [h3] at h4
  exact nonneg_of_mul_nonneg_right h4 h5

theorem ev_differentiable (p : List ℚ) : Differentiable ℂ (fun t : ℂ => ev p t) := by
  induction p with
  | nil => simp only [ev]; exact differentiable_const 0
  | cons c cs ih =>
    simp only [ev]
    exact (differentiable_const _).add (differentiable_id.mul ih)

/-- Real part non-negative on the circle: non-negative in the disc. -/
theorem re_nonneg_disc (p : List ℚ) (h : ∀ t : ℂ, ‖t‖ = 1 → 0 ≤ (ev p t).re) (t : ℂ) (ht : ‖t‖ ≤ 1) : 0 ≤ (ev p t).re := by
  have hd : Differentiable ℂ (fun t : ℂ => Complex.exp (-ev p t)) := (ev_differentiable p).neg.cexp
  have key := Complex.norm_le_of_forall_mem_frontier_norm_le (U := Metric.ball (0 : ℂ) 1) (f := fun t => Complex.exp (-ev p t))
    (C := 1) Metric.isBounded_ball hd.diffContOnCl (fun z hz => by
      rw [frontier_ball 0 (one_ne_zero), mem_sphere_zero_iff_norm] at hz
      rw [Complex.norm_exp, Complex.neg_re]
      exact Real.exp_le_one_iff.mpr (by have := h z hz; linarith))
    (z := t) (by rw [closure_ball 0 one_ne_zero, mem_closedBall_zero_iff]; exact ht)
  simp only [Complex.norm_exp, Complex.neg_re] at key
  have := Real.exp_le_one_iff.mp key
  linarith

end RatPoly
end DexRT
