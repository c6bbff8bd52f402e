import Verif.Props.Dirs
import Verif.Props.RcInterp
/-!
# C77: the segment marched for a ray
-/
namespace DexRT.Dir
open Finset

/-- Specification: the points at distances `a` to `b` from `o` along direction `d`. -/
def Span {n : ℕ} (o d : Fin n → ℝ) (a b : ℝ) : Set (Fin n → ℝ) := {x | ∃ s, a ≤ s ∧ s ≤ b ∧ x = fun i => o i + s * d i}

/-- Specification: the points a segment visits. -/
def Visited {n : ℕ} (r : RaySeg n) : Set (Fin n → ℝ) := {x | ∃ t, r.t0 ≤ t ∧ t ≤ r.t1 ∧ x = fun i => r.pt t i}

/-- **C77** 2D: the segment marched for direction `k` of probe `(u, v)` of cascade `n` visits exactly the points
at the distances of the cascade's interval along that direction from the probe's centre, from the far end to
the near one, travelling against the direction at unit speed; and the direction used for Doppler shifts is
that of the march. -/
theorem C77_segment2_partial (c : RcCfg) (l : LenCfg) (num n nd : ℕ) (u v : ℤ) (k : ℕ) (hnd : 0 < nd) (h4 : nd % 4 ≠ 2)
    (hk : k < nd) :
    ∃ s, marchSeg2 c l num n nd u v k = some s ∧
      let o : Fin 2 → ℝ := ![(probePos u n : ℝ), (probePos v n : ℝ)]
      let a : ℝ := (intervalLength c l num n).1
      let b : ℝ := (intervalLength c l num n).2
      Visited s = Span o (rayDir2 nd k) a b ∧ s.t1 - s.t0 = b - a ∧
      (∀ i, s.pt s.t0 i = o i + b * rayDir2 nd k i) ∧ (∀ i, s.pt s.t1 i = o i + a * rayDir2 nd k i) ∧
      (∀ i, s.d i = - rayDir2 nd k i) ∧
      (∀ incl, invertedMu (rayProps c l num n nd u v k) incl 0 = Real.sqrt (1 - incl ^ 2) * s.d 0 ∧
        invertedMu (rayProps c l num n nd u v k) incl 2 = Real.sqrt (1 - incl ^ 2) * s.d 1) := by
  have hd0 : rayDir2 nd k 0 ≠ 0 := by
    intro h; exact h4 ((C76_axis2 nd hnd).1.1 ⟨k, hk, h⟩)
  have hne : ¬ (invertDirection (rayProps c l num n nd u v k)).dir 0 = 0 := by
    show ¬ - rayDir2 nd k 0 = 0
    simpa using hd0
  refine ⟨_, if_neg hne, ?_⟩
  intro o a b
  have ht1 : ((invertDirection (rayProps c l num n nd u v k)).stop 0 - (invertDirection (rayProps c l num n nd u v k)).start 0) /
      (invertDirection (rayProps c l num n nd u v k)).dir 0 = b - a := by
    show ((o 0 + rayDir2 nd k 0 * a) - (o 0 + rayDir2 nd k 0 * b)) / (- rayDir2 nd k 0) = b - a
    rw [div_eq_iff (neg_ne_zero.2 hd0)]; ring
  have hpt : ∀ t i, (invertDirection (rayProps c l num n nd u v k)).start i + t * (invertDirection (rayProps c l num n nd u v k)).dir i =
      o i + (b - t) * rayDir2 nd k i := by
    intro t i
    show (o i + rayDir2 nd k i * b) + t * (- rayDir2 nd k i) = _
    ring
  refine ⟨?_, ?_, ?_, ?_, ?_, ?_⟩
  · ext x
    simp only [Visited, Span, Set.mem_setOf_eq, RaySeg.pt, ht1, hpt]
    constructor
    · rintro ⟨t, h0, h1, rfl⟩
      exact ⟨b - t, by linarith, by linarith, rfl⟩
    · rintro ⟨s, h0, h1, rfl⟩
      exact ⟨b - s, by linarith, by linarith, by funext i; ring⟩
  · simp only [ht1]; ring
  · intro i; simp only [RaySeg.pt, hpt]; ring
  · intro i; simp only [RaySeg.pt, ht1, hpt]; ring
  · intro i; rfl
  · intro incl
    constructor
    · show - rayDir2 nd k 0 * Real.sqrt (1 - incl ^ 2) = Real.sqrt (1 - incl ^ 2) * - rayDir2 nd k 0; ring
    · show - rayDir2 nd k 1 * Real.sqrt (1 - incl ^ 2) = Real.sqrt (1 - incl ^ 2) * - rayDir2 nd k 1; ring

/-- Non-vacuity: the default configuration has a multiple of four directions in every cascade. -/
example (n : ℕ) : (cascadeComputeSize ⟨2, 1, 0, 4, .dirByDir⟩ ⟨64, 32, 1, 8, 4⟩ n).dirs % 4 ≠ 2 ∧
    0 < (cascadeComputeSize ⟨2, 1, 0, 4, .dirByDir⟩ ⟨64, 32, 1, 8, 4⟩ n).dirs := by
  have h : (cascadeComputeSize ⟨2, 1, 0, 4, .dirByDir⟩ ⟨64, 32, 1, 8, 4⟩ n).dirs = 4 * 2 ^ (2 * n) := rfl
  rw [h]
  have : 0 < 2 ^ (2 * n) := by positivity
  omega

/-- **C77 refuted** 2D: when the number of directions of a cascade is 2 modulo 4 (a first cascade with 2 or 6
rays), the length of some segment is computed by a division by zero. -/
theorem C77_vertical_refuted (c : RcCfg) (l : LenCfg) (num n nd : ℕ) (u v : ℤ) (h4 : nd % 4 = 2) :
    ∃ k, k < nd ∧ marchSeg2 c l num n nd u v k = none := by
  obtain ⟨k, hk, h0⟩ := (C76_axis2 nd (by omega)).1.2 h4
  refine ⟨k, hk, if_pos ?_⟩
  show - rayDir2 nd k 0 = 0
  rw [h0, neg_zero]

/-- Non-vacuity: a first cascade of six rays is a valid configuration. -/
example : (⟨2, 1, 0, 6, .dirByDir⟩ : RcCfg).Valid ∧
    (cascadeComputeSize ⟨2, 1, 0, 6, .dirByDir⟩ ⟨64, 32, 1, 8, 4⟩ 0).dirs = 6 := by
  refine ⟨⟨by decide, by decide⟩, by decide⟩

/-- **C77** 3D: the segment of direction `idx` of probe `(u, v, w)` visits exactly the points at the distances
of the cascade's interval from the probe's centre against its direction, travelling along it towards the
probe. -/
theorem C77_segment3 (l : LenCfg3) (num n npix : ℕ) (u v w : ℤ) (idx : ℕ) :
    let s := probeRay3 l num n npix u v w idx
    let o : Fin 3 → ℝ := ![(probePos u n : ℝ), (probePos v n : ℝ), (probePos w n : ℝ)]
    let a : ℝ := (intervalLength3 l num n).1
    let b : ℝ := (intervalLength3 l num n).2
    Visited s = Span o (fun i => - rayDir3 npix idx i) a b ∧ s.t1 - s.t0 = b - a ∧
    (∀ i, s.pt s.t0 i = o i - b * rayDir3 npix idx i) ∧ (∀ i, s.pt s.t1 i = o i - a * rayDir3 npix idx i) ∧
    (∀ i, s.d i = rayDir3 npix idx i) := by
  intro s o a b
  have hpt : ∀ t i, s.pt t i = o i + t * rayDir3 npix idx i := fun t i => rfl
  have h0 : s.t0 = - b := rfl
  have h1 : s.t1 = - a := rfl
  refine ⟨?_, by rw [h0, h1]; ring, ?_, ?_, fun i => rfl⟩
  · ext x
    simp only [Visited, Span, Set.mem_setOf_eq, hpt, h0, h1]
    constructor
    · rintro ⟨t, e0, e1, rfl⟩
      exact ⟨- t, by linarith, by linarith, by funext i; ring⟩
    · rintro ⟨t, e0, e1, rfl⟩
      exact ⟨- t, by linarith, by linarith, by funext i; ring⟩
  · intro i; rw [hpt, h0]; ring
  · intro i; rw [hpt, h1]; ring

theorem partition_starts (f : ℕ → ℚ) (h0 : f 0 = 0) (N : ℕ) (hm : ∀ n, n < N → f n ≤ f (n + 1)) (s : ℚ) (hs : 0 ≤ s)
    (hN : s < f N) : ∃ n, (n < N ∧ f n ≤ s ∧ s < f (n + 1)) ∧ ∀ m, m < N → f m ≤ s → s < f (m + 1) → m = n := by
  have mono : ∀ a b, a ≤ b → b ≤ N → f a ≤ f b := by
    intro a b hab
    induction b with
    | zero => intro _; have : a = 0 := by omega
              rw [this]
    | succ b ih =>
      intro hb
      rcases Nat.lt_or_ge b a with h | h
      · have : a = b + 1 := by omega
        rw [this]
      · exact le_trans (ih h (by omega)) (hm b (by omega))
  have hex : ∃ n, n < N ∧ f n ≤ s ∧ s < f (n + 1) := by
    clear mono
    induction N with
    | zero => rw [h0] at hN; linarith
    | succ N ih =>
      by_cases h : s < f N
      · obtain ⟨n, h1, h2⟩ := ih (fun n hn => hm n (by omega)) h
        exact ⟨n, by omega, h2⟩
      · exact ⟨N, by omega, not_lt.1 h, hN⟩
  obtain ⟨n, h1, h2, h3⟩ := hex
  refine ⟨n, ⟨h1, h2, h3⟩, ?_⟩
  intro m m1 m2 m3
  rcases lt_trichotomy m n with h | h | h
  · have := mono (m + 1) n (by omega) (by omega); linarith
  · exact h
  · have := mono (n + 1) m (by omega) (by omega); linarith

/-- **C77** 2D: every distance from a probe up to the end of the last interval belongs to exactly one cascade
(nothing is marched twice and nothing is left out), provided the last interval is not reversed (C16). -/
theorem C77_cover2 (c : RcCfg) (l : LenCfg) (hl : 0 < l.len0) (num : ℕ)
    (hlast : (intervalLength c l num num).1 ≤ (intervalLength c l num num).2) (s : ℚ) (hs : 0 ≤ s)
    (hend : s < (intervalLength c l num num).2) :
    ∃ n, (n ≤ num ∧ (intervalLength c l num n).1 ≤ s ∧ s < (intervalLength c l num n).2) ∧
      ∀ m, m ≤ num → (intervalLength c l num m).1 ≤ s → s < (intervalLength c l num m).2 → m = n := by
  obtain ⟨h0, h1, _⟩ := C16_intervals2 c l num
  obtain ⟨ho, _⟩ := C16_ordered2 c l hl num
  set f : ℕ → ℚ := fun n => if n ≤ num then (intervalLength c l num n).1 else (intervalLength c l num num).2 with hf
  have ha : ∀ n, n ≤ num → f n = (intervalLength c l num n).1 := fun n hn => if_pos hn
  have hb : ∀ n, n ≤ num → f (n + 1) = (intervalLength c l num n).2 := by
    intro n hn
    rcases Nat.lt_or_ge n num with h | h
    · rw [ha (n + 1) (by omega), h1 n h]
    · have : n = num := by omega
      subst this
      exact if_neg (by omega)
  obtain ⟨n, ⟨p1, p2, p3⟩, p4⟩ := partition_starts f (by rw [ha 0 (by omega), h0]) (num + 1) (by
    intro n hn
    rw [ha n (by omega), hb n (by omega)]
    rcases Nat.lt_or_ge n num with h | h
    · exact ho n h
    · have : n = num := by omega
      rw [this]; exact hlast) s hs (by rw [hb num le_rfl]; exact hend)
  refine ⟨n, ⟨by omega, by rw [← ha n (by omega)]; exact p2, by rw [← hb n (by omega)]; exact p3⟩, ?_⟩
  intro m m1 m2 m3
  exact p4 m (by omega) (by rw [ha m m1]; exact m2) (by rw [hb m m1]; exact m3)

/-- Non-vacuity: the default configuration with six cascades. -/
example : (intervalLength ⟨2, 1, 0, 4, .dirByDir⟩ ⟨3 / 2, true, 20000⟩ 5 5).1 = 384 ∧
    (intervalLength ⟨2, 1, 0, 4, .dirByDir⟩ ⟨3 / 2, true, 20000⟩ 5 5).2 = 20000 := by
  constructor <;> simp [intervalLength, numFlatRaysExponent, RcCfg.vary] <;> norm_num

/-- **C77** 3D: the same, for a spatial factor of at least one. -/
theorem C77_cover3 (l : LenCfg3) (hl : 0 < l.len0) (hsc : 1 ≤ l.scale) (num : ℕ)
    (hlast : (intervalLength3 l num num).1 ≤ (intervalLength3 l num num).2) (s : ℚ) (hs : 0 ≤ s)
    (hend : s < (intervalLength3 l num num).2) :
    ∃ n, (n ≤ num ∧ (intervalLength3 l num n).1 ≤ s ∧ s < (intervalLength3 l num n).2) ∧
      ∀ m, m ≤ num → (intervalLength3 l num m).1 ≤ s → s < (intervalLength3 l num m).2 → m = n := by
  obtain ⟨h0, h1⟩ := C16_intervals3 l num
  have ho : ∀ n, n < num → (intervalLength3 l num n).1 ≤ (intervalLength3 l num n).2 := by
    intro n hn
    have hq : (1 : ℚ) ≤ l.scale := by exact_mod_cast hsc
    have hne : ¬ n = num := by omega
    simp only [intervalLength3, hne, and_false, if_false]
    apply mul_le_mul_of_nonneg_left _ hl.le
    split
    · positivity
    · exact pow_le_pow_right₀ hq (by omega)
  set f : ℕ → ℚ := fun n => if n ≤ num then (intervalLength3 l num n).1 else (intervalLength3 l num num).2 with hf
  have ha : ∀ n, n ≤ num → f n = (intervalLength3 l num n).1 := fun n hn => if_pos hn
  have hb : ∀ n, n ≤ num → f (n + 1) = (intervalLength3 l num n).2 := by
    intro n hn
    rcases Nat.lt_or_ge n num with h | h
    · rw [ha (n + 1) (by omega), h1 n h]
    · have : n = num := by omega
      subst this
      exact if_neg (by omega)
  obtain ⟨n, ⟨p1, p2, p3⟩, p4⟩ := partition_starts f (by rw [ha 0 (by omega), h0]) (num + 1) (by
    intro n hn
    rw [ha n (by omega), hb n (by omega)]
    rcases Nat.lt_or_ge n num with h | h
    · exact ho n h
    · have : n = num := by omega
      rw [this]; exact hlast) s hs (by rw [hb num le_rfl]; exact hend)
  refine ⟨n, ⟨by omega, by rw [← ha n (by omega)]; exact p2, by rw [← hb n (by omega)]; exact p3⟩, ?_⟩
  intro m m1 m2 m3
  exact p4 m (by omega) (by rw [ha m m1]; exact m2) (by rw [hb m m1]; exact m3)

/-- Non-vacuity: a 3D configuration. -/
example : (intervalLength3 ⟨2, 4, true, 20000, 20000⟩ 3 3).1 = 32 ∧
    (intervalLength3 ⟨2, 4, true, 20000, 20000⟩ 3 3).2 = 20000 := by
  constructor <;> simp [intervalLength3] <;> norm_num

/-- **C77** 2D: the fractional index computed for the direction of ray `k` is `k` (when the angle is given in
`(0, 2π)`; `atan2` differs from it by a multiple of the full turn, i.e. of the number of directions). -/
theorem C77_frac_idx (nd k : ℕ) (hnd : 0 < nd) (j : ℤ) : fracDirIdx nd (rayAngle nd k + j * (2 * Real.pi)) = k + j * nd := by
  have h1 : (nd : ℝ) ≠ 0 := by exact_mod_cast (by omega : nd ≠ 0)
  have hpi := Real.pi_ne_zero
  unfold fracDirIdx rayAngle
  field_simp
  ring

end DexRT.Dir
