import Verif.Model.Voigt
import Verif.Lemmas.RatPoly
import Mathlib.Analysis.SpecialFunctions.Trigonometric.Basic
import Mathlib.Analysis.Complex.Trigonometric
import Mathlib.Analysis.Complex.Order
import Mathlib.Tactic.FieldSimp
import Mathlib.Tactic.Linarith
import Mathlib.Tactic.Ring
import Mathlib.Tactic.NormNum
/-!
C60: the Voigt function.
-/
namespace DexRT
open Voigt

/-- The complex number a pair stands for. -/
noncomputable def Voigt.Cx.toC (x : Cx ℝ) : ℂ := ⟨x.re, x.im⟩

/-- C60 (arithmetic): for all operands the operators of the complex type are those of the complex numbers; division for every
non-zero divisor. -/
theorem C60_arith (x y : Cx ℝ) (r : ℝ) :
    (Cx.mul x y).toC = x.toC * y.toC ∧ (Cx.smul r x).toC = r * x.toC ∧ (Cx.add x y).toC = x.toC + y.toC ∧
    (Cx.radd r x).toC = r + x.toC ∧ (Cx.sub x y).toC = x.toC - y.toC ∧ (Cx.rsub r x).toC = r - x.toC ∧
    (y.toC ≠ 0 → (Cx.div x y).toC = x.toC / y.toC ∧ (Cx.rdiv r y).toC = r / y.toC) ∧
    (cexp x).toC = Complex.exp x.toC := by
  have hdiv : ∀ x : Cx ℝ, y.toC ≠ 0 → (Cx.div x y).toC = x.toC / y.toC := by
    intro x hy
    have hs : 0 < |y.re| + |y.im| := by
      rcases (abs_nonneg y.re).lt_or_eq with h | h
      · have := abs_nonneg y.im; linarith
      · rcases (abs_nonneg y.im).lt_or_eq with h' | h'
        · linarith
        · exfalso; apply hy
          apply Complex.ext
          · exact abs_eq_zero.mp h.symm
          · exact abs_eq_zero.mp h'.symm
    have hn : y.re * y.re + y.im * y.im ≠ 0 := by
      intro h
      have h1 : y.re = 0 := by nlinarith [sq_nonneg y.re, sq_nonneg y.im]
      have h2 : y.im = 0 := by nlinarith [sq_nonneg y.re, sq_nonneg y.im]
      rw [h1, h2] at hs; simp at hs
    have hs' := hs.ne'
    have hn' : y.re ^ 2 + y.im ^ 2 ≠ 0 := by rw [pow_two, pow_two]; exact hn
    rw [eq_div_iff hy]
    unfold Cx.div Cx.toC
    have key : ∀ s : ℝ, s ≠ 0 → y.re * (1 / s) * (y.re * (1 / s)) + y.im * (1 / s) * (y.im * (1 / s)) =
        (y.re * y.re + y.im * y.im) / s ^ 2 := fun s h => by field_simp
    simp only [key _ hs']
    generalize |y.re| + |y.im| = s at hs'
    apply Complex.ext
    · simp only [Complex.mul_re]
      field_simp
      ring
    · simp only [Complex.mul_im]
      field_simp
      ring
  refine ⟨?_, ?_, ?_, ?_, ?_, ?_, fun hy => ⟨hdiv x hy, ?_⟩, ?_⟩
  · apply Complex.ext <;> simp [Cx.mul, Cx.toC, Complex.mul_re, Complex.mul_im]
  · apply Complex.ext <;> simp [Cx.smul, Cx.toC]
  · apply Complex.ext <;> simp [Cx.add, Cx.toC]
  · apply Complex.ext <;> simp [Cx.radd, Cx.toC]
  · apply Complex.ext <;> simp [Cx.sub, Cx.toC]
  · apply Complex.ext <;> simp [Cx.rsub, Cx.toC]
  · rw [Cx.rdiv, hdiv _ hy]
    congr 1
  · apply Complex.ext <;> simp [cexp, Cx.smul, Cx.toC, Complex.exp_re, Complex.exp_im]

/-- Weideman's rational approximation with 24 terms, from the paper: `L` and the coefficients, highest power first, as
parameters. -/
noncomputable def weideman (L c : ℂ) (coef : List ℂ) (z : ℂ) : ℂ :=
  1 / (L + z) * (c + 2 / (L + z) * ∑ k ∈ Finset.range coef.length, coef.reverse.getD k 0 * ((L - z) / (L + z)) ^ k)

/-- Asymptotic (region I) form. -/
noncomputable def asymptotic (c z : ℂ) : ℂ := c * z / (1 / 2 + z ^ 2)

theorem horner_toC (t : Cx ℝ) (l : List ℝ) :
    (horner t l).toC = ∑ k ∈ Finset.range l.length, (l.map Complex.ofReal).reverse.getD k 0 * t.toC ^ k := by
  have hstep : ∀ (cs : List ℝ) (p : Cx ℝ),
      (cs.foldl (fun p c => Cx.radd c (Cx.mul p t)) p).toC =
        p.toC * t.toC ^ cs.length + ∑ k ∈ Finset.range cs.length, (cs.map Complex.ofReal).reverse.getD k 0 * t.toC ^ k := by
    intro cs
    induction cs with
    | nil => intro p; simp
    | cons c cs ih =>
      intro p
      rw [List.foldl_cons, ih, (C60_arith (Cx.mul p t) t c).2.2.2.1, (C60_arith p t 0).1]
      simp only [List.length_cons, Finset.sum_range_succ, List.map_cons, List.reverse_cons]
      have : ∀ k ∈ Finset.range cs.length, ((cs.map Complex.ofReal).reverse ++ [(c : ℂ)]).getD k 0 * t.toC ^ k =
          (cs.map Complex.ofReal).reverse.getD k 0 * t.toC ^ k := by
        intro k hk
        have hk := Finset.mem_range.mp hk
        simp only [List.getD_eq_getElem?_getD]
        rw [List.getElem?_append_left (by simpa using hk)]
      rw [Finset.sum_congr rfl this]
      have hl : ((cs.map Complex.ofReal).reverse ++ [(c : ℂ)]).getD cs.length 0 = c := by
        simp only [List.getD_eq_getElem?_getD]
        rw [List.getElem?_append_right (by simp)]
        simp
      rw [hl, pow_succ]
      ring
  cases l with
  | nil => simp [horner, Cx.toC]; rfl
  | cons c cs =>
    rw [horner, hstep]
    simp only [List.length_cons, Finset.sum_range_succ, List.map_cons, List.reverse_cons]
    have : ∀ k ∈ Finset.range cs.length, ((cs.map Complex.ofReal).reverse ++ [(c : ℂ)]).getD k 0 * t.toC ^ k =
        (cs.map Complex.ofReal).reverse.getD k 0 * t.toC ^ k := by
      intro k hk
      have hk := Finset.mem_range.mp hk
      simp only [List.getD_eq_getElem?_getD]
      rw [List.getElem?_append_left (by simpa using hk)]
    rw [Finset.sum_congr rfl this]
    have hl : ((cs.map Complex.ofReal).reverse ++ [(c : ℂ)]).getD cs.length 0 = c := by
      simp only [List.getD_eq_getElem?_getD]
      rw [List.getElem?_append_right (by simp)]
      simp
    rw [hl, add_comm]
    congr 2

theorem regionI_den (a v : ℝ) (ha : 0 ≤ a) (hs : 15 ≤ |v| + a) : (1 / 2 + (⟨a, -v⟩ : ℂ) ^ 2) ≠ 0 := by
  intro h
  have hre := congrArg Complex.re h
  have him := congrArg Complex.im h
  simp [pow_two, Complex.mul_re, Complex.mul_im] at hre him
  rcases ha.eq_or_lt with rfl | hp
  · have h1 : 15 ≤ |v| := by simpa using hs
    have h2 : |v| * |v| = v * v := abs_mul_abs_self v
    nlinarith
  · have : v = 0 := by
      by_contra hv
      have : a * v ≠ 0 := mul_ne_zero hp.ne' hv
      apply this; linarith
    rw [this] at hre
    nlinarith

theorem regionI_toC (a v : ℝ) (ha : 0 ≤ a) (hs : 15 ≤ |v| + a) :
    (regionI a v).toC = asymptotic ((invSqrtPi : ℝ) : ℂ) ⟨a, -v⟩ := by
  have hz : (Cx.toC ⟨a, -v⟩ : ℂ) = ⟨a, -v⟩ := rfl
  have hden : (Cx.radd (1 / 2) (Cx.mul (⟨a, -v⟩ : Cx ℝ) ⟨a, -v⟩)).toC = 1 / 2 + (⟨a, -v⟩ : ℂ) ^ 2 := by
    rw [(C60_arith _ ⟨0, 0⟩ _).2.2.2.1, (C60_arith _ _ 0).1, hz, pow_two]
    congr 1
    push_cast; rfl
  have hne : (Cx.radd (1 / 2) (Cx.mul (⟨a, -v⟩ : Cx ℝ) ⟨a, -v⟩)).toC ≠ 0 := by rw [hden]; exact regionI_den a v ha hs
  unfold regionI asymptotic
  rw [((C60_arith _ _ 0).2.2.2.2.2.2.1 hne).1, hden, (C60_arith _ ⟨0, 0⟩ _).2.1, hz]

/-- C60 (value): for every damping parameter `a ≥ 0` and every `v`, the complex Voigt function evaluated is the asymptotic form of
Humlicek's region I where `|v| + a ≥ 15` and Weideman's rational approximation with the tabulated coefficients elsewhere, at
`z = a - i v`; none of the divisions is by zero. -/
theorem C60_value (a v : ℝ) (ha : 0 ≤ a) :
    (15 ≤ |v| + a → (1 / 2 + (⟨a, -v⟩ : ℂ) ^ 2) ≠ 0 ∧ (wei24 a v).toC = asymptotic ((invSqrtPi : ℝ) : ℂ) ⟨a, -v⟩) ∧
    (|v| + a < 15 → (((weiL : ℝ) : ℂ) + ⟨a, -v⟩) ≠ 0 ∧ (wei24 a v).toC =
      weideman ((weiL : ℝ) : ℂ) ((invSqrtPi : ℝ) : ℂ) (weiCoef.map (fun q : ℚ => (((q : ℝ)) : ℂ))) ⟨a, -v⟩) := by
  constructor
  · intro h
    refine ⟨regionI_den a v ha h, ?_⟩
    unfold wei24
    rw [if_pos h, regionI_toC a v ha h]
  · intro h
    have hL : (0 : ℝ) < (weiL : ℝ) := by norm_num [weiL]
    have hne : (((weiL : ℝ) : ℂ) + ⟨a, -v⟩) ≠ 0 := by
      intro hc
      have := congrArg Complex.re hc
      simp only [Complex.add_re, Complex.ofReal_re, Complex.zero_re] at this
      linarith
    refine ⟨hne, ?_⟩
    unfold wei24
    rw [if_neg (not_le.mpr h)]
    have hd : (Cx.toC ⟨(weiL : ℝ) + a, -v⟩ : ℂ) = ((weiL : ℝ) : ℂ) + ⟨a, -v⟩ := by
      apply Complex.ext <;> simp [Cx.toC]
    have hr : (Cx.rdiv 1 (⟨(weiL : ℝ) + a, -v⟩ : Cx ℝ)).toC = 1 / (((weiL : ℝ) : ℂ) + ⟨a, -v⟩) := by
      rw [((C60_arith ⟨0, 0⟩ _ 1).2.2.2.2.2.2.1 (by rw [hd]; exact hne)).2, hd]; simp
    have hn : (Cx.toC ⟨(weiL : ℝ) - a, v⟩ : ℂ) = ((weiL : ℝ) : ℂ) - ⟨a, -v⟩ := by
      apply Complex.ext <;> simp [Cx.toC]
    simp only
    rw [(C60_arith _ _ 0).1, (C60_arith _ ⟨0, 0⟩ _).2.2.2.1, (C60_arith _ _ 0).1, (C60_arith _ ⟨0, 0⟩ _).2.1, horner_toC,
      (C60_arith _ _ 0).1, hr, hn]
    unfold weideman
    congr 2
    congr 1
    · push_cast; ring
    · simp only [List.length_map, List.map_map]
      refine Finset.sum_congr rfl fun k _ => ?_
      congr 2
      · ring

/-- Complex conjugate of a pair. -/
def Voigt.Cx.conj (x : Cx ℝ) : Cx ℝ := ⟨x.re, -x.im⟩

theorem conj_mul (x y : Cx ℝ) : Cx.mul x.conj y.conj = (Cx.mul x y).conj := by
  simp only [Cx.mul, Cx.conj, Cx.mk.injEq]; constructor <;> ring
theorem conj_smul (r : ℝ) (x : Cx ℝ) : Cx.smul r x.conj = (Cx.smul r x).conj := by
  simp only [Cx.smul, Cx.conj, Cx.mk.injEq, true_and]; ring
theorem conj_radd (r : ℝ) (x : Cx ℝ) : Cx.radd r x.conj = (Cx.radd r x).conj := rfl
theorem conj_rsub (r : ℝ) (x : Cx ℝ) : Cx.rsub r x.conj = (Cx.rsub r x).conj := rfl
theorem conj_sub (x y : Cx ℝ) : Cx.sub x.conj y.conj = (Cx.sub x y).conj := by
  simp only [Cx.sub, Cx.conj, Cx.mk.injEq, true_and]; ring
theorem conj_div (x y : Cx ℝ) : Cx.div x.conj y.conj = (Cx.div x y).conj := by
  simp only [Cx.div, Cx.conj, Cx.mk.injEq, abs_neg]; constructor <;> ring
theorem conj_rdiv (r : ℝ) (y : Cx ℝ) : Cx.rdiv r y.conj = (Cx.rdiv r y).conj := by
  rw [Cx.rdiv, Cx.rdiv, ← conj_div]
  congr 1
  simp [Cx.conj]
theorem conj_cexp (x : Cx ℝ) : cexp x.conj = (cexp x).conj := by
  simp [cexp, Cx.conj, Cx.smul]
theorem conj_horner (t : Cx ℝ) (l : List ℝ) : horner t.conj l = (horner t l).conj := by
  have hstep : ∀ (cs : List ℝ) (p : Cx ℝ), cs.foldl (fun p c => Cx.radd c (Cx.mul p t.conj)) p.conj =
      (cs.foldl (fun p c => Cx.radd c (Cx.mul p t)) p).conj := by
    intro cs
    induction cs with
    | nil => intro p; rfl
    | cons c cs ih => intro p; rw [List.foldl_cons, List.foldl_cons, conj_mul, conj_radd, ih]
  cases l with
  | nil => simp [horner, Cx.conj]
  | cons c cs =>
    rw [horner, horner, ← hstep]
    congr 1
    simp [Cx.conj]

theorem conj_mk (a v : ℝ) : (⟨a, - -v⟩ : Cx ℝ) = (⟨a, -v⟩ : Cx ℝ).conj := rfl

/-- C60 (symmetry): for all arguments, the absorption profile (real part) is even and the dispersion profile (imaginary part) odd in
`v`, in the rational approximation and in the one used to fill the table: taking the absolute value first changes nothing. -/
theorem C60_even (a v : ℝ) :
    ((wei24 a (-v)).re = (wei24 a v).re ∧ (wei24 a (-v)).im = -(wei24 a v).im) ∧
    ((humlicek a (-v)).re = (humlicek a v).re ∧ (humlicek a (-v)).im = -(humlicek a v).im) ∧
    profile a v = (wei24 a v).re := by
  have hI : regionI a (-v) = (regionI a v).conj := by
    unfold regionI
    simp only [conj_mk, conj_mul, conj_smul, conj_radd, conj_div]
  have hw : wei24 a (-v) = (wei24 a v).conj := by
    unfold wei24
    simp only [abs_neg]
    by_cases h : |v| + a ≥ 15
    · rw [if_pos h, if_pos h, hI]
    · rw [if_neg h, if_neg h]
      have e1 : (⟨(weiL : ℝ) + a, - -v⟩ : Cx ℝ) = (⟨(weiL : ℝ) + a, -v⟩ : Cx ℝ).conj := rfl
      have e2 : (⟨(weiL : ℝ) - a, -v⟩ : Cx ℝ) = (⟨(weiL : ℝ) - a, v⟩ : Cx ℝ).conj := rfl
      rw [e1, e2]
      simp only [conj_rdiv, conj_mul, conj_smul, conj_radd, conj_horner]
  have hh : humlicek a (-v) = (humlicek a v).conj := by
    unfold humlicek
    simp only [abs_neg]
    by_cases h : |v| + a ≥ 15
    · rw [if_pos h, if_pos h, hI]
    · rw [if_neg h, if_neg h]
      by_cases h2 : |v| + a ≥ 5.5
      · rw [if_pos h2, if_pos h2]
        simp only [conj_mk, conj_mul, conj_smul, conj_radd, conj_div]
      · rw [if_neg h2, if_neg h2]
        by_cases h3 : a ≥ 0.195 * |v| - 0.176
        · rw [if_pos h3, if_pos h3]
          simp only [conj_mk, conj_mul, conj_smul, conj_radd, conj_div]
        · rw [if_neg h3, if_neg h3]
          simp only [conj_mk, conj_mul, conj_smul, conj_rsub, conj_div, conj_cexp, conj_sub]
  refine ⟨by rw [hw]; exact ⟨rfl, rfl⟩, by rw [hh]; exact ⟨rfl, rfl⟩, ?_⟩
  unfold profile
  rcases abs_cases v with ⟨h, _⟩ | ⟨h, _⟩
  · rw [h]
  · rw [h, hw]; rfl

/-- Weideman's approximation as a polynomial in `t = (L - z) / (L + z)`. -/
def weiPoly : List ℚ :=
  RatPoly.scale (1 / (2 * weiL)) (RatPoly.mul [1, 1] (RatPoly.add [invSqrtPi] (RatPoly.scale (1 / weiL) (RatPoly.mul [1, 1] weiCoef.reverse))))

theorem ev_sum (p : List ℚ) (t : ℂ) :
    RatPoly.ev p t = ∑ k ∈ Finset.range p.length, (p.map (fun q : ℚ => (((q : ℝ)) : ℂ))).getD k 0 * t ^ k := by
  induction p with
  | nil => simp [RatPoly.ev]
  | cons c cs ih =>
    rw [RatPoly.ev, List.length_cons, Finset.sum_range_succ', ih, Finset.mul_sum, add_comm]
    congr 1
    · refine Finset.sum_congr rfl fun k _ => ?_
      rw [List.map_cons, List.getD_cons_succ]; ring
    · simp

theorem weideman_poly (z : ℂ) (hz : ((weiL : ℝ) : ℂ) + z ≠ 0) :
    weideman ((weiL : ℝ) : ℂ) ((invSqrtPi : ℝ) : ℂ) (weiCoef.map (fun q : ℚ => (((q : ℝ)) : ℂ))) z =
      RatPoly.ev weiPoly ((((weiL : ℝ) : ℂ) - z) / (((weiL : ℝ) : ℂ) + z)) := by
  have hL : ((weiL : ℝ) : ℂ) ≠ 0 := by norm_num [weiL]
  have hq : ((weiL : ℚ) : ℂ) = ((weiL : ℝ) : ℂ) := by push_cast; rfl
  have hc : ((invSqrtPi : ℚ) : ℂ) = ((invSqrtPi : ℝ) : ℂ) := by push_cast; rfl
  have hs := ev_sum weiCoef.reverse ((((weiL : ℝ) : ℂ) - z) / (((weiL : ℝ) : ℂ) + z))
  unfold weideman weiPoly
  rw [RatPoly.ev_scale, RatPoly.ev_mul, RatPoly.ev_add, RatPoly.ev_scale, RatPoly.ev_mul, hs]
  simp only [List.length_reverse, List.length_map, ← List.map_reverse]
  generalize (∑ k ∈ Finset.range weiCoef.length, ((weiCoef.reverse.map (fun q : ℚ => (((q : ℝ)) : ℂ))).getD k 0 *
    ((((weiL : ℝ) : ℂ) - z) / (((weiL : ℝ) : ℂ) + z)) ^ k) : ℂ) = S
  simp only [RatPoly.ev]
  push_cast
  have h1 : (1 : ℂ) + ((weiL : ℂ) - z) / ((weiL : ℂ) + z) = 2 * weiL / ((weiL : ℂ) + z) := by
    have hz' : (weiL : ℂ) + z ≠ 0 := by simpa using hz
    field_simp
    ring
  have h2 : (1 : ℂ) + ((weiL : ℂ) - z) / ((weiL : ℂ) + z) * (1 + ((weiL : ℂ) - z) / ((weiL : ℂ) + z) * 0) = 2 * weiL / ((weiL : ℂ) + z) := by
    rw [mul_zero, add_zero, mul_one, h1]
  have hL' : (weiL : ℂ) ≠ 0 := by simpa using hL
  have hz' : (weiL : ℂ) + z ≠ 0 := by simpa using hz
  rw [h2]
  field_simp
  ring

/-- The criterion, evaluated by the kernel: real part on the circle between 0 and 1.000000005. -/
theorem weiPoly_circle (t : ℂ) (ht : ‖t‖ = 1) :
    0 ≤ (RatPoly.ev weiPoly t).re ∧ 0 ≤ (RatPoly.ev (RatPoly.add [1000000005 / 1000000000] (RatPoly.scale (-1) weiPoly)) t).re := by
  have hx : -1 ≤ t.re ∧ t.re ≤ 1 := by
    have := Complex.abs_re_le_norm t
    rw [ht] at this
    exact abs_le.mp this
  have cast : ∀ (p : List ℚ), RatPoly.ev p (1 : ℝ) = ((RatPoly.ev p (1 : ℚ) : ℚ) : ℝ) := by
    intro p
    induction p with
    | nil => simp [RatPoly.ev]
    | cons c cs ih => simp only [RatPoly.ev, ih]; push_cast; rfl
  rw [RatPoly.reCircle_spec _ t ht, RatPoly.reCircle_spec _ t ht]
  constructor
  · have d1 : ∀ c ∈ (RatPoly.mob (-1) (-1 / 2) (RatPoly.reCircle weiPoly)).1, 0 ≤ c := by decide +kernel
    have d2 : ∀ c ∈ (RatPoly.mob (-1 / 2) 0 (RatPoly.reCircle weiPoly)).1, 0 ≤ c := by decide +kernel
    have d3 : ∀ c ∈ (RatPoly.mob 0 1 (RatPoly.reCircle weiPoly)).1, 0 ≤ c := by decide +kernel
    have d4 : 0 ≤ (RatPoly.ev (RatPoly.reCircle weiPoly) (1 : ℚ)) := by decide +kernel
    rcases lt_or_ge t.re (((-1 / 2 : ℚ) : ℚ) : ℝ) with h | h
    · exact RatPoly.nonneg_of_mob _ _ _ d1 _ (by push_cast; exact hx.1) h
    rcases lt_or_ge t.re ((0 : ℚ) : ℝ) with h2 | h2
    · exact RatPoly.nonneg_of_mob _ _ _ d2 _ h h2
    rcases lt_or_eq_of_le hx.2 with h3 | h3
    · exact RatPoly.nonneg_of_mob _ _ _ d3 _ h2 (by push_cast; exact h3)
    · rw [h3, cast]; exact_mod_cast d4
  · have d1 : ∀ c ∈ (RatPoly.mob (-1) 1 (RatPoly.reCircle (RatPoly.add [1000000005 / 1000000000] (RatPoly.scale (-1) weiPoly)))).1, 0 ≤ c := by
      decide +kernel
    have d4 : 0 ≤ (RatPoly.ev (RatPoly.reCircle (RatPoly.add [1000000005 / 1000000000] (RatPoly.scale (-1) weiPoly))) (1 : ℚ)) := by decide +kernel
    rcases lt_or_eq_of_le hx.2 with h3 | h3
    · exact RatPoly.nonneg_of_mob _ _ _ d1 _ (by push_cast; exact hx.1) (by push_cast; exact h3)
    · rw [h3, cast]; exact_mod_cast d4

/-- Where the asymptotic form is used, the profile is never negative, and positive for every positive damping. -/
theorem profile_wings (a v : ℝ) (ha : 0 ≤ a) (h : 15 ≤ |v| + a) :
    0 ≤ profile a v ∧ (0 < a → 0 < profile a v) := by
  rw [(C60_even a v).2.2]
  have h1 := ((C60_value a v ha).1 h)
  have h2 : (wei24 a v).re = (asymptotic ((invSqrtPi : ℝ) : ℂ) ⟨a, -v⟩).re := by rw [← h1.2]; rfl
  have hn : 0 < Complex.normSq (1 / 2 + (⟨a, -v⟩ : ℂ) ^ 2) := Complex.normSq_pos.mpr h1.1
  have h3 : (asymptotic ((invSqrtPi : ℝ) : ℂ) ⟨a, -v⟩).re =
      (invSqrtPi : ℝ) * (a * (1 / 2 + a ^ 2 + v ^ 2)) / Complex.normSq (1 / 2 + (⟨a, -v⟩ : ℂ) ^ 2) := by
    unfold asymptotic
    rw [Complex.div_re, ← add_div]
    congr 1
    simp [pow_two, Complex.mul_re, Complex.mul_im]
    ring
  have hc : (0 : ℝ) < (invSqrtPi : ℝ) := by norm_num [invSqrtPi]
  rw [h2, h3]
  constructor
  · apply div_nonneg _ hn.le
    positivity
  · intro hp
    apply div_pos _ hn
    positivity

/-- C60 (sign and size): for every damping parameter `a ≥ 0` and every `v` the profile is between 0 and 1.000000005: opacities built from
it are never negative. (By the maximum principle on the half plane `a ≥ 0`, from its values on `a = 0`.) -/
theorem C60_nonneg (a v : ℝ) (ha : 0 ≤ a) : 0 ≤ profile a v ∧ profile a v ≤ 1.000000005 := by
  rcases le_or_gt 15 (|v| + a) with h | h
  · refine ⟨(profile_wings a v ha h).1, ?_⟩
    rw [(C60_even a v).2.2]
    have h1 := ((C60_value a v ha).1 h)
    have h2 : (wei24 a v).re = (asymptotic ((invSqrtPi : ℝ) : ℂ) ⟨a, -v⟩).re := by rw [← h1.2]; rfl
    have hn : 0 < Complex.normSq (1 / 2 + (⟨a, -v⟩ : ℂ) ^ 2) := Complex.normSq_pos.mpr h1.1
    have h3 : (asymptotic ((invSqrtPi : ℝ) : ℂ) ⟨a, -v⟩).re =
        (invSqrtPi : ℝ) * (a * (1 / 2 + a ^ 2 + v ^ 2)) / Complex.normSq (1 / 2 + (⟨a, -v⟩ : ℂ) ^ 2) := by
      unfold asymptotic
      rw [Complex.div_re, ← add_div]
      congr 1
      simp [pow_two, Complex.mul_re, Complex.mul_im]
      ring
    have hn2 : Complex.normSq (1 / 2 + (⟨a, -v⟩ : ℂ) ^ 2) = (1 / 2 + a ^ 2 - v ^ 2) ^ 2 + (2 * a * v) ^ 2 := by
      simp [Complex.normSq_apply, pow_two, Complex.mul_re, Complex.mul_im]
      ring
    have hr : 112 ≤ a ^ 2 + v ^ 2 := by
      have h4 : |v| ^ 2 = v ^ 2 := sq_abs v
      nlinarith [sq_nonneg (|v| - a), abs_nonneg v]
    rw [h2, h3, div_le_iff₀ hn, hn2]
    have hlow : (a ^ 2 + v ^ 2 - 1 / 2) ^ 2 ≤ (1 / 2 + a ^ 2 - v ^ 2) ^ 2 + (2 * a * v) ^ 2 := by nlinarith [sq_nonneg a]
    have hc : (invSqrtPi : ℝ) ≤ 1 := by norm_num [invSqrtPi]
    have hc0 : (0 : ℝ) ≤ (invSqrtPi : ℝ) := by norm_num [invSqrtPi]
    have ha2 : a ≤ a ^ 2 + 1 := by nlinarith [sq_nonneg (a - 1)]
    have hb : a * (1 / 2 + a ^ 2 + v ^ 2) ≤ (a ^ 2 + v ^ 2 - 1 / 2) ^ 2 := by
      have h5 : 2 * a * 10 ≤ a ^ 2 + 100 := by nlinarith [sq_nonneg (a - 10)]
      have h6 : 10 * a ≤ a ^ 2 + v ^ 2 := by nlinarith [sq_nonneg v]
      rw [add_assoc]
      generalize a ^ 2 + v ^ 2 = r at *
      nlinarith [mul_le_mul_of_nonneg_right h6 (show (0 : ℝ) ≤ 1 / 2 + r by linarith)]
    have hpos : 0 ≤ a * (1 / 2 + a ^ 2 + v ^ 2) := by positivity
    have h7 : (invSqrtPi : ℝ) * (a * (1 / 2 + a ^ 2 + v ^ 2)) ≤ a * (1 / 2 + a ^ 2 + v ^ 2) := by nlinarith
    have h8 : 0 ≤ (1 / 2 + a ^ 2 - v ^ 2) ^ 2 + (2 * a * v) ^ 2 := by positivity
    nlinarith
  · rw [(C60_even a v).2.2]
    obtain ⟨hne, hv⟩ := (C60_value a v ha).2 h
    have hL : (0 : ℝ) < (weiL : ℝ) := by norm_num [weiL]
    rw [weideman_poly _ hne] at hv
    set t := (((weiL : ℝ) : ℂ) - ⟨a, -v⟩) / (((weiL : ℝ) : ℂ) + ⟨a, -v⟩) with ht
    have htn : ‖t‖ ≤ 1 := by
      rw [ht, norm_div, div_le_one (norm_pos_iff.mpr hne)]
      apply (sq_le_sq₀ (norm_nonneg _) (norm_nonneg _)).mp
      rw [← Complex.normSq_eq_norm_sq, ← Complex.normSq_eq_norm_sq, Complex.normSq_apply, Complex.normSq_apply]
      simp
      nlinarith
    have hre : (wei24 a v).re = (RatPoly.ev weiPoly t).re := by rw [← hv]; rfl
    rw [hre]
    refine ⟨RatPoly.re_nonneg_disc _ (fun t h => (weiPoly_circle t h).1) t htn, ?_⟩
    have h2 := RatPoly.re_nonneg_disc _ (fun t h => (weiPoly_circle t h).2) t htn
    rw [RatPoly.ev_add, RatPoly.ev_scale] at h2
    simp only [RatPoly.ev] at h2
    have h3 : (((-1 : ℚ) : ℂ) * RatPoly.ev weiPoly t).re = -(RatPoly.ev weiPoly t).re := by
      push_cast; simp
    rw [Complex.add_re, h3] at h2
    have h4 : ((((1000000005 / 1000000000 : ℚ) : ℂ)) + t * 0).re = 1.000000005 := by
      rw [mul_zero, add_zero]
      have : (((1000000005 / 1000000000 : ℚ) : ℂ)) = ((1.000000005 : ℝ) : ℂ) := by push_cast; norm_num
      rw [this, Complex.ofReal_re]
    rw [h4] at h2
    linarith

/-- The wings are strictly positive when there is damping. -/
theorem C60_wings (a v : ℝ) (ha : 0 < a) (h : 15 ≤ |v| + a) : 0 < profile a v := (profile_wings a v ha.le h).2 ha

/-- Non-vacuity: line centre and wing. -/
example : (0 : ℝ) ≤ 0.1 ∧ |(3 : ℝ)| + 0.1 < 15 ∧ 15 ≤ |(-20 : ℝ)| + 0.1 := by
  refine ⟨by norm_num, ?_, ?_⟩
  · rw [abs_of_pos (by norm_num)]; norm_num
  · rw [abs_of_neg (by norm_num)]; norm_num

/-- The profile at line centre without damping is one to within a few parts in 10^9, and at `v = 1` it is exp(-1) to eight digits: the
coefficients are transcribed correctly. -/
example : (1 : ℚ) < profile 0 0 ∧ profile 0 0 < (1000000005 / 1000000000 : ℚ) ∧
    (367879444 / 1000000000 : ℚ) < profile 0 1 ∧ profile 0 1 < (367879446 / 1000000000 : ℚ) := by
  refine ⟨?_, ?_, ?_, ?_⟩ <;> decide +kernel

end DexRT
