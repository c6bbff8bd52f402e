import Verif.Spec.FormalBounds
import Verif.Lemmas.FormalSol
import Verif.Lemmas.March
import Verif.Props.March
import Mathlib.Algebra.Order.BigOperators.Ring.Finset
/-!
Lemmas for C75.
-/
namespace DexRT.Fs
open DexRT

variable {K : Type} [Field K] [LinearOrder K] [IsStrictOrderedRing K]

theorem axisWeight_nonneg (N u U : Nat) : 0 ≤ axisWeight N u U := le_max_left _ _

theorem axisWeight_cast_nonneg (N u U : Nat) : (0 : K) ≤ (axisWeight N u U : K) :=
  Rat.cast_nonneg.2 (axisWeight_nonneg N u U)

theorem axisWeight_sum (N u : Nat) (hc : cornerN u < N) : ∑ U ∈ Finset.range N, (axisWeight N u U : K) = 1 := by
  have := axis_sum (K := K) N u hc (fun _ => 1)
  simp only [mul_one] at this
  rw [this]; ring

/-- A weighted sum with non-negative weights of values within bounds. -/
theorem wsum_in {ι : Type} (s : Finset ι) (w g : ι → K) (hw : ∀ i ∈ s, 0 ≤ w i) {lo hi : K}
    (hg : ∀ i ∈ s, lo ≤ g i ∧ g i ≤ hi) :
    lo * ∑ i ∈ s, w i ≤ ∑ i ∈ s, w i * g i ∧ ∑ i ∈ s, w i * g i ≤ hi * ∑ i ∈ s, w i := by
  rw [Finset.mul_sum, Finset.mul_sum]
  constructor
  · refine Finset.sum_le_sum fun i hi' => ?_
    rw [mul_comm]; exact mul_le_mul_of_nonneg_left (hg i hi').1 (hw i hi')
  · refine Finset.sum_le_sum fun i hi' => ?_
    rw [mul_comm hi]; exact mul_le_mul_of_nonneg_left (hg i hi').2 (hw i hi')

theorem axis_in {N u : Nat} (hc : cornerN u < N) (g : Nat → K) {lo hi : K}
    (hg : ∀ U, U < N → lo ≤ g U ∧ g U ≤ hi) :
    lo ≤ ∑ U ∈ Finset.range N, (axisWeight N u U : K) * g U ∧
      ∑ U ∈ Finset.range N, (axisWeight N u U : K) * g U ≤ hi := by
  have := wsum_in (Finset.range N) (fun U => (axisWeight N u U : K)) g (fun i _ => axisWeight_cast_nonneg N u i)
    (fun i h => hg i (Finset.mem_range.1 h))
  rw [axisWeight_sum N u hc, mul_one, mul_one] at this
  exact this

/-- An average of values within bounds. -/
theorem avg_in (b : Nat) (hb : 0 < b) (g : Nat → K) {lo hi : K} (hg : ∀ r, r < b → lo ≤ g r ∧ g r ≤ hi) :
    lo ≤ (∑ r ∈ Finset.range b, g r) / (b : K) ∧ (∑ r ∈ Finset.range b, g r) / (b : K) ≤ hi := by
  have hb' : (0 : K) < b := Nat.cast_pos.2 hb
  have := wsum_in (Finset.range b) (fun _ => (1 : K)) g (fun _ _ => zero_le_one) (fun i h => hg i (Finset.mem_range.1 h))
  simp only [one_mul, Finset.sum_const, Finset.card_range, nsmul_eq_mul, mul_one] at this
  rw [le_div_iff₀ hb', div_le_iff₀ hb']
  exact this

theorem seg_in {lo hi : K} {s : Seg K} (h : SegIn lo hi s) {x : K} (hx : lo ≤ x ∧ x ≤ hi) :
    lo ≤ s.I + s.T * x ∧ s.I + s.T * x ≤ hi := by
  obtain ⟨h0, h1, h2, h3⟩ := h
  have a := mul_le_mul_of_nonneg_left hx.1 h0
  have b := mul_le_mul_of_nonneg_left hx.2 h0
  constructor <;> nlinarith

theorem sum2_factor {Nu Nv u v : Nat} (S : Nat → Nat → K) :
    ∑ U ∈ Finset.range Nu, ∑ V ∈ Finset.range Nv, ((axisWeight Nu u U * axisWeight Nv v V : ℚ) : K) * S U V =
      ∑ U ∈ Finset.range Nu, (axisWeight Nu u U : K) * ∑ V ∈ Finset.range Nv, (axisWeight Nv v V : K) * S U V := by
  refine Finset.sum_congr rfl fun U _ => ?_
  rw [Finset.mul_sum]
  refine Finset.sum_congr rfl fun V _ => ?_
  push_cast; ring

theorem sum3_factor {Nu Nv Nw u v w : Nat} (S : Nat → Nat → Nat → K) :
    ∑ U ∈ Finset.range Nu, ∑ V ∈ Finset.range Nv, ∑ W ∈ Finset.range Nw,
      ((axisWeight Nu u U * axisWeight Nv v V * axisWeight Nw w W : ℚ) : K) * S U V W =
      ∑ U ∈ Finset.range Nu, (axisWeight Nu u U : K) * ∑ V ∈ Finset.range Nv, (axisWeight Nv v V : K) *
        ∑ W ∈ Finset.range Nw, (axisWeight Nw w W : K) * S U V W := by
  refine Finset.sum_congr rfl fun U _ => ?_
  rw [Finset.mul_sum]
  refine Finset.sum_congr rfl fun V _ => ?_
  rw [Finset.mul_sum, Finset.mul_sum]
  refine Finset.sum_congr rfl fun W _ => ?_
  push_cast; ring

theorem radiance2_in (march : Bool → Nat → ProbeIdx2 → Seg K) (Nx Nz : Nat) (b : Nat → Nat) (hb : ∀ n, 0 < b n)
    (num : Nat) {lo hi : K} (hseg : ∀ n p, n < num → SegIn lo hi (march false n p))
    (htop : ∀ p, lo ≤ (march true num p).I ∧ (march true num p).I ≤ hi) (m : Nat) (hm : m ≤ num) (p : ProbeIdx2)
    (hu : p.u < probesOn Nx (num - m)) (hv : p.v < probesOn Nz (num - m)) :
    lo ≤ radiance2 march Nx Nz b num m p ∧ radiance2 march Nx Nz b num m p ≤ hi := by
  induction m generalizing p with
  | zero => exact htop p
  | succ m ih =>
    unfold radiance2
    simp only
    have hn : num - (m + 1) + 1 = num - m := by omega
    rw [sum2_factor]
    refine seg_in (hseg _ _ (by omega)) (axis_in (cornerN_lt hu) _ fun U hU =>
      axis_in (cornerN_lt hv) _ fun V hV => avg_in _ (hb _) _ fun r _ => ih (by omega) _ ?_ ?_)
    · rw [hn] at hU; exact hU
    · rw [hn] at hV; exact hV

theorem radiance3_in (march : Bool → Nat → ProbeIdx3 → Seg K) (Nx Ny Nz ba bp : Nat) (ha : 0 < ba) (hp : 0 < bp)
    (num : Nat) {lo hi : K} (hseg : ∀ n p, n < num → SegIn lo hi (march false n p))
    (htop : ∀ p, lo ≤ (march true num p).I ∧ (march true num p).I ≤ hi) (m : Nat) (hm : m ≤ num) (p : ProbeIdx3)
    (hu : p.u < probesOn Nx (num - m)) (hv : p.v < probesOn Ny (num - m)) (hw : p.w < probesOn Nz (num - m)) :
    lo ≤ radiance3 march Nx Ny Nz ba bp num m p ∧ radiance3 march Nx Ny Nz ba bp num m p ≤ hi := by
  induction m generalizing p with
  | zero => exact htop p
  | succ m ih =>
    unfold radiance3
    simp only
    have hn : num - (m + 1) + 1 = num - m := by omega
    rw [sum3_factor]
    refine seg_in (hseg _ _ (by omega)) (axis_in (cornerN_lt hu) _ fun U hU =>
      axis_in (cornerN_lt hv) _ fun V hV => axis_in (cornerN_lt hw) _ fun W hW => ?_)
    have : ∀ g : Nat → Nat → K, (∑ i ∈ Finset.range bp, ∑ j ∈ Finset.range ba, g i j) / ((ba * bp : Nat) : K) =
        (∑ i ∈ Finset.range bp, (∑ j ∈ Finset.range ba, g i j) / (ba : K)) / (bp : K) := by
      intro g
      rw [← Finset.sum_div, div_div, Nat.cast_mul]
    rw [this]
    refine avg_in _ hp _ fun i _ => avg_in _ ha _ fun j _ => ih (by omega) _ ?_ ?_ ?_
    · rw [hn] at hU; exact hU
    · rw [hn] at hV; exact hV
    · rw [hn] at hW; exact hW

/-- A real march from zero whose steps have sources within bounds. -/
theorem realSeg_in (es : Bool) {scale invSin lo hi : ℝ} (hsc : 0 ≤ scale) (his : 0 ≤ invSin)
    (steps : List Step) (hs : ∀ s ∈ steps, StepIn es lo hi s) :
    SegIn lo hi (realSeg es scale invSin 0 steps) := by
  have htau : 0 ≤ (marchInterval es scale invSin 0 steps).tau := by
    rw [C24_tau]
    apply List.sum_nonneg
    intro x hx
    obtain ⟨s, hs', rfl⟩ := List.mem_map.1 hx
    obtain ⟨h1, h2, -⟩ := hs s (List.mem_filter.1 hs').1
    have : 0 < chiUsed es s.chi := by
      have := chiUsed_pos es h1; linarith [show (0:ℝ) < 1e-15 by norm_num]
    positivity
  have lin : ∀ I0, (marchInterval es scale invSin I0 steps).I =
      (marchInterval es scale invSin 0 steps).I + Real.exp (-(marchInterval es scale invSin 0 steps).tau) * I0 :=
    fun I0 => march_linear es scale invSin I0 steps
  by_cases hle : lo ≤ hi
  · have hlo := C24_between es hsc his steps hs (le_refl lo) hle
    have hhi := C24_between es hsc his steps hs hle (le_refl hi)
    rw [lin lo] at hlo
    rw [lin hi] at hhi
    refine ⟨(Real.exp_pos _).le, Real.exp_le_one_iff.2 (by linarith), ?_, ?_⟩
    · show lo * (1 - Real.exp (-(marchInterval es scale invSin 0 steps).tau)) ≤ (marchInterval es scale invSin 0 steps).I
      nlinarith [hlo.1]
    · show (marchInterval es scale invSin 0 steps).I ≤ hi * (1 - Real.exp (-(marchInterval es scale invSin 0 steps).tau))
      nlinarith [hhi.2]
  · -- no step is sampled
    have hno : ∀ s ∈ steps, s.sample = false := by
      intro s hs'
      by_contra hc
      obtain ⟨-, -, h3⟩ := hs s hs'
      have := h3 (by simpa using hc)
      exact hle (this.1.trans this.2)
    have hI : ∀ (l : List Step) (v : MarchVars), (∀ s ∈ l, s.sample = false) →
        (l.foldl (marchStep es scale invSin) v).I = v.I ∧ (l.foldl (marchStep es scale invSin) v).tau = v.tau := by
      intro l
      induction l with
      | nil => intro v _; exact ⟨rfl, rfl⟩
      | cons s l ih =>
        intro v h
        rw [List.foldl_cons]
        have h2 := ih (marchStep es scale invSin v s) (fun t ht => h t (by simp [ht]))
        have h3 : (marchStep es scale invSin v s).I = v.I ∧ (marchStep es scale invSin v s).tau = v.tau := by
          unfold marchStep; rw [h s (by simp)]; exact ⟨rfl, rfl⟩
        rw [h3.1, h3.2] at h2
        exact h2
    have h1 : (marchInterval es scale invSin 0 steps).I = 0 ∧ (marchInterval es scale invSin 0 steps).tau = 0 :=
      hI steps _ hno
    refine ⟨(Real.exp_pos _).le, Real.exp_le_one_iff.2 (by linarith), ?_, ?_⟩
    · show lo * (1 - Real.exp (-(marchInterval es scale invSin 0 steps).tau)) ≤ (marchInterval es scale invSin 0 steps).I
      rw [h1.1, h1.2]; simp
    · show (marchInterval es scale invSin 0 steps).I ≤ hi * (1 - Real.exp (-(marchInterval es scale invSin 0 steps).tau))
      rw [h1.1, h1.2]; simp

theorem radiance2_add (m1 m2 : Bool → Nat → ProbeIdx2 → Seg K) (hT : ∀ n p, (m1 false n p).T = (m2 false n p).T)
    (Nx Nz : Nat) (b : Nat → Nat) (num m : Nat) (p : ProbeIdx2) :
    radiance2 (fun bc n q => addSeg (m1 bc n q) (m2 bc n q)) Nx Nz b num m p =
      radiance2 m1 Nx Nz b num m p + radiance2 m2 Nx Nz b num m p := by
  induction m generalizing p with
  | zero => rfl
  | succ m ih =>
    have hsum : ∀ (n N M : Nat), (∑ U ∈ Finset.range N, ∑ V ∈ Finset.range M,
        ((axisWeight N p.u U * axisWeight M p.v V : ℚ) : K) *
          ((∑ r ∈ Finset.range (b n), radiance2 (fun bc n q => addSeg (m1 bc n q) (m2 bc n q)) Nx Nz b num m
            { p with u := U, v := V, dir := p.dir * b n + r }) / (b n : K))) =
        (∑ U ∈ Finset.range N, ∑ V ∈ Finset.range M,
        ((axisWeight N p.u U * axisWeight M p.v V : ℚ) : K) *
          ((∑ r ∈ Finset.range (b n), radiance2 m1 Nx Nz b num m
            { p with u := U, v := V, dir := p.dir * b n + r }) / (b n : K))) +
        (∑ U ∈ Finset.range N, ∑ V ∈ Finset.range M,
        ((axisWeight N p.u U * axisWeight M p.v V : ℚ) : K) *
          ((∑ r ∈ Finset.range (b n), radiance2 m2 Nx Nz b num m
            { p with u := U, v := V, dir := p.dir * b n + r }) / (b n : K))) := by
      intro n N M
      rw [← Finset.sum_add_distrib]
      refine Finset.sum_congr rfl fun U _ => ?_
      rw [← Finset.sum_add_distrib]
      refine Finset.sum_congr rfl fun V _ => ?_
      rw [← mul_add, ← add_div, ← Finset.sum_add_distrib]
      simp only [ih]
    unfold radiance2
    simp only
    rw [hsum, ← hT]
    simp only [addSeg]
    ring

theorem radiance3_add (m1 m2 : Bool → Nat → ProbeIdx3 → Seg K) (hT : ∀ n p, (m1 false n p).T = (m2 false n p).T)
    (Nx Ny Nz ba bp : Nat) (num m : Nat) (p : ProbeIdx3) :
    radiance3 (fun bc n q => addSeg (m1 bc n q) (m2 bc n q)) Nx Ny Nz ba bp num m p =
      radiance3 m1 Nx Ny Nz ba bp num m p + radiance3 m2 Nx Ny Nz ba bp num m p := by
  induction m generalizing p with
  | zero => rfl
  | succ m ih =>
    unfold radiance3
    simp only [ih]
    rw [← hT]
    simp only [addSeg, Finset.sum_add_distrib, add_div, mul_add]
    ring

theorem radiance2_mono (m1 m2 : Bool → Nat → ProbeIdx2 → Seg K) (hT0 : ∀ n p, 0 ≤ (m1 false n p).T)
    (hT : ∀ n p, (m1 false n p).T = (m2 false n p).T) (hI : ∀ bc n p, (m1 bc n p).I ≤ (m2 bc n p).I)
    (Nx Nz : Nat) (b : Nat → Nat) (num m : Nat) (p : ProbeIdx2) :
    radiance2 m1 Nx Nz b num m p ≤ radiance2 m2 Nx Nz b num m p := by
  induction m generalizing p with
  | zero => exact hI _ _ _
  | succ m ih =>
    unfold radiance2
    simp only
    rw [← hT]
    refine add_le_add (hI _ _ _) (mul_le_mul_of_nonneg_left ?_ (hT0 _ _))
    refine Finset.sum_le_sum fun U _ => Finset.sum_le_sum fun V _ => mul_le_mul_of_nonneg_left ?_ ?_
    · exact div_le_div_of_nonneg_right (Finset.sum_le_sum fun r _ => ih _) (Nat.cast_nonneg _)
    · exact Rat.cast_nonneg.2 (mul_nonneg (axisWeight_nonneg _ _ _) (axisWeight_nonneg _ _ _))

theorem radiance3_mono (m1 m2 : Bool → Nat → ProbeIdx3 → Seg K) (hT0 : ∀ n p, 0 ≤ (m1 false n p).T)
    (hT : ∀ n p, (m1 false n p).T = (m2 false n p).T) (hI : ∀ bc n p, (m1 bc n p).I ≤ (m2 bc n p).I)
    (Nx Ny Nz ba bp : Nat) (num m : Nat) (p : ProbeIdx3) :
    radiance3 m1 Nx Ny Nz ba bp num m p ≤ radiance3 m2 Nx Ny Nz ba bp num m p := by
  induction m generalizing p with
  | zero => exact hI _ _ _
  | succ m ih =>
    unfold radiance3
    simp only
    rw [← hT]
    refine add_le_add (hI _ _ _) (mul_le_mul_of_nonneg_left ?_ (hT0 _ _))
    refine Finset.sum_le_sum fun U _ => Finset.sum_le_sum fun V _ => Finset.sum_le_sum fun W _ =>
      mul_le_mul_of_nonneg_left ?_ ?_
    · exact div_le_div_of_nonneg_right (Finset.sum_le_sum fun i _ => Finset.sum_le_sum fun j _ => ih _) (Nat.cast_nonneg _)
    · exact Rat.cast_nonneg.2 (mul_nonneg (mul_nonneg (axisWeight_nonneg _ _ _) (axisWeight_nonneg _ _ _)) (axisWeight_nonneg _ _ _))

end DexRT.Fs
