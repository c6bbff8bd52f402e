import Verif.Lemmas.Heal
import Verif.Props.RcStorage
import Mathlib.Tactic.FinCases
/-!
# C76: the directions of the rays
-/
namespace DexRT.Dir
open Finset

/-- **C76** 2D: every direction is a unit vector. -/
theorem C76_unit2 (nd k : ℕ) : ∑ i, rayDir2 nd k i ^ 2 = 1 := by
  simp only [Fin.sum_univ_two, rayDir2, Matrix.cons_val_zero, Matrix.cons_val_one]
  exact Real.cos_sq_add_sin_sq _

/-- **C76** 2D: no two directions of a probe are the same. -/
theorem C76_distinct2 (nd k k' : ℕ) (hk : k < nd) (hk' : k' < nd) (h : rayDir2 nd k = rayDir2 nd k') : k = k' := by
  have hnd : (0 : ℝ) < nd := by exact_mod_cast (by omega : 0 < nd)
  have h0 : Real.cos (rayAngle nd k) = Real.cos (rayAngle nd k') := congrFun h 0
  have h1 : Real.sin (rayAngle nd k) = Real.sin (rayAngle nd k') := congrFun h 1
  have hc : Real.cos (rayAngle nd k - rayAngle nd k') = 1 := by
    rw [Real.cos_sub, h0, h1]; nlinarith [Real.sin_sq_add_cos_sq (rayAngle nd k')]
  obtain ⟨n, hn⟩ := (Real.cos_eq_one_iff _).1 hc
  have he : (k : ℝ) - k' = n * nd := by
    have hpi := Real.pi_ne_zero
    have e : rayAngle nd k - rayAngle nd k' = 2 * Real.pi / nd * (k - k') := by unfold rayAngle; ring
    rw [e] at hn
    field_simp at hn
    linarith
  have hi : (k : ℤ) - k' = n * nd := by exact_mod_cast he
  have hn0 : n = 0 := by
    rcases lt_trichotomy n 0 with hn' | hn' | hn'
    · nlinarith
    · exact hn'
    · nlinarith
  rw [hn0] at hi
  omega

/-- **C76** 2D: the rays of the next cascade that direction `d` merges with lie strictly inside its angular
sector (half-width `π / nd`), their mean angle is its angle, and their sum is a positive multiple of it. -/
theorem C76_children2 (c : RcCfg) (hv : c.Valid) (hm : c.mode ≠ .preaverage) (c0 : Casc2) (n d : ℕ)
    (hnd : 0 < (cascadeComputeSize c c0 n).dirs) :
    let nd := (cascadeComputeSize c c0 n).dirs
    let nd' := (cascadeComputeSize c c0 (n + 1)).dirs
    let T := upperTexelsPerRay c n
    (∀ r, r < T → |rayAngle nd' (upperRayIdx c d n + r) - rayAngle nd d| < Real.pi / nd) ∧
    ∑ r ∈ range T, rayAngle nd' (upperRayIdx c d n + r) = T * rayAngle nd d ∧
    (2 ≤ nd → ∃ f : ℝ, 0 < f ∧ ∀ i, ∑ r ∈ range T, rayDir2 nd' (upperRayIdx c d n + r) i = f * rayDir2 nd d i) := by
  intro nd nd' T
  have hT : 0 < T := by show 0 < upperTexelsPerRay c n; rw [texels_eq c hm]; positivity
  have hnd' : nd' = nd * T := upper_dirs c hv hm c0 n
  have hup : upperRayIdx c d n = d * T := by
    show _ = d * upperTexelsPerRay c n
    rw [upperIdx_eq, texels_eq c hm]
  have hndr : (0 : ℝ) < nd := by exact_mod_cast hnd
  have hTr : (0 : ℝ) < T := by exact_mod_cast hT
  rw [hnd', hup]
  refine ⟨?_, ?_, ?_⟩
  · intro r hr
    rw [childAngle nd T d r hnd hT]
    have hr' : (r : ℝ) + 1 ≤ T := by exact_mod_cast hr
    have e : 2 * Real.pi * d / nd + 2 * Real.pi / (nd * T) * (r + 1 / 2) - rayAngle nd d =
        Real.pi / nd * ((2 * r + 1) / T - 1) := by
      unfold rayAngle; field_simp; ring
    rw [e, abs_mul, abs_of_pos (div_pos Real.pi_pos hndr)]
    have h1 : |((2 * (r : ℝ) + 1) / T - 1)| < 1 := by
      rw [abs_lt]
      constructor
      · have : 0 < (2 * (r : ℝ) + 1) / T := by positivity
        linarith
      · have : (2 * (r : ℝ) + 1) / T < 2 := by rw [div_lt_iff₀ hTr]; linarith
        linarith
    have := mul_lt_mul_of_pos_left h1 (div_pos Real.pi_pos hndr)
    linarith
  · have e : ∀ r ∈ range T, rayAngle (nd * T) (d * T + r) =
        2 * Real.pi * d / nd + 2 * Real.pi / (nd * T) * (r + 1 / 2) := fun r _ => childAngle nd T d r hnd hT
    rw [sum_congr rfl e, sum_add_distrib, ← mul_sum, sum_half, sum_const, card_range, nsmul_eq_mul]
    unfold rayAngle
    field_simp
  · intro h2
    have hs1 := sin_pi_div_pos h2
    have hs2 : 0 < Real.sin (Real.pi / (nd * T)) := by
      have := sin_pi_div_pos (n := nd * T) (by nlinarith)
      push_cast at this; exact this
    refine ⟨Real.sin (Real.pi / nd) / Real.sin (Real.pi / (nd * T)), div_pos hs1 hs2, ?_⟩
    have eh : 2 * Real.pi / (nd * T) / 2 = Real.pi / (nd * T) := by ring
    have hc := sum_cos (2 * Real.pi * d / nd) (2 * Real.pi / (nd * T)) T
    have hs := sum_sin (2 * Real.pi * d / nd) (2 * Real.pi / (nd * T)) T
    have e1 : 2 * Real.pi * d / nd + T * (2 * Real.pi / (nd * T)) = rayAngle nd d + Real.pi / nd := by
      unfold rayAngle; field_simp; ring
    have e2 : 2 * Real.pi * d / nd = rayAngle nd d - Real.pi / nd := by unfold rayAngle; field_simp; ring
    rw [eh, e1] at hc hs
    intro i
    fin_cases i
    · show ∑ r ∈ range T, Real.cos (rayAngle (nd * T) (d * T + r)) = _ * Real.cos (rayAngle nd d)
      rw [sum_congr rfl (fun r _ => by rw [childAngle nd T d r hnd hT])]
      rw [div_mul_eq_mul_div, eq_div_iff hs2.ne']
      nth_rewrite 2 [e2] at hc
      rw [Real.sin_add, Real.sin_sub] at hc
      linarith
    · show ∑ r ∈ range T, Real.sin (rayAngle (nd * T) (d * T + r)) = _ * Real.sin (rayAngle nd d)
      rw [sum_congr rfl (fun r _ => by rw [childAngle nd T d r hnd hT])]
      rw [div_mul_eq_mul_div, eq_div_iff hs2.ne']
      nth_rewrite 2 [e2] at hs
      rw [Real.cos_add, Real.cos_sub] at hs
      linarith

/-- Non-vacuity: the default configuration. -/
example : (⟨2, 1, 0, 4, .dirByDir⟩ : RcCfg).Valid ∧
    (cascadeComputeSize ⟨2, 1, 0, 4, .dirByDir⟩ ⟨64, 32, 1, 8, 4⟩ 1).dirs = 16 ∧
    upperTexelsPerRay ⟨2, 1, 0, 4, .dirByDir⟩ 1 = 4 := by
  refine ⟨⟨by decide, by decide⟩, by decide, by decide⟩

/-- **C76** 2D: the directions of a probe sum to zero and (with at least three) their second moments are
those of an isotropic distribution in the plane. -/
theorem C76_balanced2 (nd : ℕ) (h : 2 ≤ nd) :
    (∀ i, ∑ k ∈ range nd, rayDir2 nd k i = 0) ∧
    (3 ≤ nd → ∀ i j, ∑ k ∈ range nd, rayDir2 nd k i * rayDir2 nd k j = if i = j then (nd : ℝ) / 2 else 0) := by
  constructor
  · intro i
    fin_cases i
    · exact sum_cos_full nd h
    · exact sum_sin_full nd h
  · intro h3 i j
    obtain ⟨hc, hs⟩ := sum_double_full nd h3
    have ecc : ∀ k ∈ range nd, Real.cos (rayAngle nd k) * Real.cos (rayAngle nd k) = 1 / 2 + Real.cos (2 * rayAngle nd k) / 2 := by
      intro k _; rw [Real.cos_two_mul]; ring
    have ess : ∀ k ∈ range nd, Real.sin (rayAngle nd k) * Real.sin (rayAngle nd k) = 1 / 2 - Real.cos (2 * rayAngle nd k) / 2 := by
      intro k _; rw [Real.cos_two_mul]; nlinarith [Real.sin_sq_add_cos_sq (rayAngle nd k)]
    have ecs : ∀ k ∈ range nd, Real.cos (rayAngle nd k) * Real.sin (rayAngle nd k) = Real.sin (2 * rayAngle nd k) / 2 := by
      intro k _; rw [Real.sin_two_mul]; ring
    fin_cases i <;> fin_cases j
    · show ∑ k ∈ range nd, Real.cos (rayAngle nd k) * Real.cos (rayAngle nd k) = _
      rw [sum_congr rfl ecc, sum_add_distrib, ← sum_div, ← sum_div, hc]; simp
    · show ∑ k ∈ range nd, Real.cos (rayAngle nd k) * Real.sin (rayAngle nd k) = _
      rw [sum_congr rfl ecs, ← sum_div, hs]; simp
    · show ∑ k ∈ range nd, Real.sin (rayAngle nd k) * Real.cos (rayAngle nd k) = _
      simp only [mul_comm (Real.sin _)]
      rw [sum_congr rfl ecs, ← sum_div, hs]; simp
    · show ∑ k ∈ range nd, Real.sin (rayAngle nd k) * Real.sin (rayAngle nd k) = _
      rw [sum_congr rfl ess, sum_sub_distrib, ← sum_div, ← sum_div, hc]; simp

/-- **C76** 2D: the direction of propagation used for Doppler shifts is a unit vector pointing against the
ray, inclined by `incl` to the plane. -/
theorem C76_mu (r : RayProps) (hr : ∑ i, r.dir i ^ 2 = 1) (incl : ℝ) (hi : |incl| ≤ 1) :
    ∑ i, invertedMu r incl i ^ 2 = 1 ∧
    invertedMu r incl 0 = - Real.sqrt (1 - incl ^ 2) * r.dir 0 ∧ invertedMu r incl 1 = - incl ∧
    invertedMu r incl 2 = - Real.sqrt (1 - incl ^ 2) * r.dir 1 := by
  have h0 : (0 : ℝ) ≤ 1 - incl ^ 2 := by have := abs_le.1 hi; nlinarith
  have hs := Real.sq_sqrt h0
  rw [Fin.sum_univ_two] at hr
  refine ⟨?_, ?_, rfl, ?_⟩
  · simp only [Fin.sum_univ_three, invertedMu]
    show (- r.dir 0 * Real.sqrt (1 - incl ^ 2)) ^ 2 + (- incl) ^ 2 + (- r.dir 1 * Real.sqrt (1 - incl ^ 2)) ^ 2 = 1
    linear_combination (r.dir 0 ^ 2 + r.dir 1 ^ 2) * hs + (1 - incl ^ 2) * hr
  · show - r.dir 0 * Real.sqrt (1 - incl ^ 2) = _; ring
  · show - r.dir 1 * Real.sqrt (1 - incl ^ 2) = _; ring

/-- **C76** 2D: the angular mean of the projected velocity, with the inclination nodes and weights `q` of the
quadrature: the components in the plane average to zero, the component `v 1` along the invariant axis is seen
with one sign only. -/
theorem C76_mean_velocity2 (c : RcCfg) (l : LenCfg) (num n nd : ℕ) (hnd : 2 ≤ nd) (a b : ℤ) (q : List (ℝ × ℝ))
    (v : Fin 3 → ℝ) :
    ∑ k ∈ range nd, (1 / (nd : ℝ)) * (q.map fun p => p.2 * ∑ i, v i * invertedMu (rayProps c l num n nd a b k) p.1 i).sum =
      - v 1 * (q.map fun p => p.2 * p.1).sum := by
  have hnz : (nd : ℝ) ≠ 0 := by exact_mod_cast (by omega : nd ≠ 0)
  obtain ⟨hb, _⟩ := C76_balanced2 nd hnd
  have h0 := hb 0
  have h1 := hb 1
  have key : ∀ k, (q.map fun p => p.2 * ∑ i, v i * invertedMu (rayProps c l num n nd a b k) p.1 i).sum =
      rayDir2 nd k 0 * (- v 0 * (q.map fun p => p.2 * Real.sqrt (1 - p.1 ^ 2)).sum) +
      rayDir2 nd k 1 * (- v 2 * (q.map fun p => p.2 * Real.sqrt (1 - p.1 ^ 2)).sum) +
      (- v 1 * (q.map fun p => p.2 * p.1).sum) := by
    intro k
    induction q with
    | nil => simp
    | cons p q ih =>
      rw [List.map_cons, List.sum_cons, ih, Fin.sum_univ_three]
      simp only [List.map_cons, List.sum_cons]
      have e0 : invertedMu (rayProps c l num n nd a b k) p.1 0 = - rayDir2 nd k 0 * Real.sqrt (1 - p.1 ^ 2) := rfl
      have e1 : invertedMu (rayProps c l num n nd a b k) p.1 1 = - p.1 := rfl
      have e2 : invertedMu (rayProps c l num n nd a b k) p.1 2 = - rayDir2 nd k 1 * Real.sqrt (1 - p.1 ^ 2) := rfl
      rw [e0, e1, e2]; ring
  simp only [key, ← mul_sum, sum_add_distrib, ← sum_mul, h0, h1, sum_const, card_range, nsmul_eq_mul]
  field_simp
  ring

/-- **C76 refuted** 2D: for every inclination quadrature with positive nodes and weights (all those of the
code), a uniform flow along the invariant axis has a non-zero mean projected velocity over the sphere of
directions: only one of the two hemispheres is sampled. -/
theorem C76_oneside_refuted (c : RcCfg) (l : LenCfg) (num n nd : ℕ) (hnd : 2 ≤ nd) (a b : ℤ) (q : List (ℝ × ℝ))
    (hq : q ≠ []) (hpos : ∀ p ∈ q, 0 < p.1 ∧ 0 < p.2) :
    ∑ k ∈ range nd, (1 / (nd : ℝ)) * (q.map fun p => p.2 * ∑ i, (![0, 1, 0] : Fin 3 → ℝ) i *
      invertedMu (rayProps c l num n nd a b k) p.1 i).sum < 0 := by
  rw [C76_mean_velocity2 c l num n nd hnd]
  have : 0 < (q.map fun p => p.2 * p.1).sum := by
    apply List.sum_pos
    · intro x hx
      obtain ⟨p, hp, rfl⟩ := List.mem_map.1 hx
      exact mul_pos (hpos p hp).2 (hpos p hp).1
    · simpa using hq
  show - (1 : ℝ) * _ < 0
  linarith

/-- **C76** 2D: some direction has no x component exactly when the number of directions is 2 modulo 4, and
some direction has no z component exactly when it is odd. -/
theorem C76_axis2 (nd : ℕ) (h : 0 < nd) :
    ((∃ k, k < nd ∧ rayDir2 nd k 0 = 0) ↔ nd % 4 = 2) ∧ ((∃ k, k < nd ∧ rayDir2 nd k 1 = 0) ↔ nd % 2 = 1) := by
  constructor
  · constructor
    · rintro ⟨k, _, hk⟩
      obtain ⟨j, hj⟩ := (cos_rayAngle_zero nd k h).1 hk
      have h2 : (nd : ℤ) * (2 * j + 1) = 2 * (nd * j) + nd := by ring
      have hev : (nd : ℤ) % 2 = 0 := by omega
      obtain ⟨m, hm⟩ : ∃ m : ℤ, (nd : ℤ) = 2 * m := ⟨nd / 2, by omega⟩
      rw [hm] at hj
      have h3 : 2 * m * (2 * j + 1) = 2 * (2 * (m * j) + m) := by ring
      omega
    · intro h4
      refine ⟨nd / 4, by omega, (cos_rayAngle_zero nd _ h).2 ⟨0, ?_⟩⟩
      push_cast; omega
  · constructor
    · rintro ⟨k, _, hk⟩
      obtain ⟨j, hj⟩ := (sin_rayAngle_zero nd k h).1 hk
      by_contra hne
      obtain ⟨m, hm⟩ : ∃ m : ℤ, (nd : ℤ) = 2 * m := ⟨nd / 2, by omega⟩
      rw [hm] at hj
      have h3 : 2 * m * j = 2 * (m * j) := by ring
      omega
    · intro h2
      refine ⟨nd / 2, by omega, (sin_rayAngle_zero nd _ h).2 ⟨1, ?_⟩⟩
      push_cast; omega

/-! ### 3D -/

theorem pix_mem (k p : ℕ) (hp : p < 2 ^ k) : 0 < pixPos (2 ^ k) p ∧ pixPos (2 ^ k) p < 1 := by
  have h1 : (p : ℝ) + 1 ≤ (2 ^ k : ℕ) := by exact_mod_cast hp
  have h2 : (0 : ℝ) < (2 ^ k : ℕ) := by exact_mod_cast (by positivity : 0 < 2 ^ k)
  unfold pixPos
  exact ⟨by positivity, by rw [div_lt_one h2]; linarith⟩

theorem pix_inj (k p p' : ℕ) (h : pixPos (2 ^ k) p = pixPos (2 ^ k) p') : p = p' := by
  have h2 : ((2 ^ k : ℕ) : ℝ) ≠ 0 := by exact_mod_cast (by positivity : 2 ^ k ≠ 0)
  unfold pixPos at h
  rw [div_left_inj' h2] at h
  have : (p : ℝ) = p' := by linarith
  exact_mod_cast this

theorem rayDir3_eq (k idx : ℕ) (hk : k ≤ 16) : rayDir3 (12 * 4 ^ k) idx =
    healDir (idx / 4 ^ k) (pixPos (2 ^ k) (ev (idx % 4 ^ k))) (pixPos (2 ^ k) (od (idx % 4 ^ k))) := by
  simp only [rayDir3, healNside_eq, healPix_eq k idx hk]

theorem pix_bounds (k idx : ℕ) (hk : k ≤ 16) (hi : idx < 12 * 4 ^ k) : idx / 4 ^ k < 12 ∧
    (0 < pixPos (2 ^ k) (ev (idx % 4 ^ k)) ∧ pixPos (2 ^ k) (ev (idx % 4 ^ k)) < 1) ∧
    (0 < pixPos (2 ^ k) (od (idx % 4 ^ k)) ∧ pixPos (2 ^ k) (od (idx % 4 ^ k)) < 1) := by
  have hm : idx % 4 ^ k < 4 ^ k := Nat.mod_lt _ (by positivity)
  exact ⟨(Nat.div_lt_iff_lt_mul (by positivity)).2 hi, pix_mem k _ (ev_lt k _ hk hm), pix_mem k _ (od_lt k _ hk hm)⟩

/-- **C76** 3D: every direction of every HEALPix set of the cascades is a unit vector. -/
theorem C76_unit3 (k idx : ℕ) (hk : k ≤ 16) (hi : idx < 12 * 4 ^ k) : ∑ i, rayDir3 (12 * 4 ^ k) idx i ^ 2 = 1 := by
  obtain ⟨hf, ⟨hx, hx1⟩, ⟨hy, hy1⟩⟩ := pix_bounds k idx hk hi
  rw [rayDir3_eq k idx hk]
  obtain ⟨z, t, s, e, hs, hsz, _⟩ := healDir_form _ hf _ _ hx hx1 hy hy1
  rw [e, Fin.sum_univ_three]
  show (Real.cos _ * s) ^ 2 + (Real.sin _ * s) ^ 2 + z ^ 2 = 1
  nlinarith [Real.sin_sq_add_cos_sq (Real.pi / 4 * t + 1 / 100)]

/-- **C76** 3D: no two directions of a probe are the same. -/
theorem C76_distinct3 (k idx idx' : ℕ) (hk : k ≤ 16) (hi : idx < 12 * 4 ^ k) (hi' : idx' < 12 * 4 ^ k)
    (h : rayDir3 (12 * 4 ^ k) idx = rayDir3 (12 * 4 ^ k) idx') : idx = idx' := by
  obtain ⟨hf, ⟨hx, hx1⟩, ⟨hy, hy1⟩⟩ := pix_bounds k idx hk hi
  obtain ⟨hf', ⟨hx', hx1'⟩, ⟨hy', hy1'⟩⟩ := pix_bounds k idx' hk hi'
  rw [rayDir3_eq k idx hk, rayDir3_eq k idx' hk] at h
  obtain ⟨e1, e2, e3⟩ := healDir_inj _ _ hf hf' _ _ _ _ hx hx1 hy hy1 hx' hx1' hy' hy1' h
  have hm := evod_inj k _ _ hk (Nat.mod_lt _ (by positivity)) (Nat.mod_lt _ (by positivity)) (pix_inj k _ _ e2) (pix_inj k _ _ e3)
  rw [← Nat.div_add_mod idx (4 ^ k), ← Nat.div_add_mod idx' (4 ^ k), e1, hm]

/-- **C76** 3D: the `4^o` rays of the next cascade that direction `idx` merges with (those starting at the
index computed by the merge) are on the same face, inside its pixel, and centred on it. -/
theorem C76_children3 (k o idx : ℕ) (hk : k + o ≤ 14) (st : ℤ)
    (hs : upperStart3 idx (12 * 4 ^ (k + o)) (12 * 4 ^ k) = .ok st) :
    let P := healPix (2 ^ k) idx
    let Q := fun r => healPix (2 ^ (k + o)) (st.toNat + r)
    (∀ r, r < 4 ^ o → (Q r).1 = P.1 ∧
      |pixPos (2 ^ (k + o)) (Q r).2.1 - pixPos (2 ^ k) P.2.1| < 1 / (2 * 2 ^ k) ∧
      |pixPos (2 ^ (k + o)) (Q r).2.2 - pixPos (2 ^ k) P.2.2| < 1 / (2 * 2 ^ k)) ∧
    ∑ r ∈ range (4 ^ o), pixPos (2 ^ (k + o)) (Q r).2.1 = 4 ^ o * pixPos (2 ^ k) P.2.1 ∧
    ∑ r ∈ range (4 ^ o), pixPos (2 ^ (k + o)) (Q r).2.2 = 4 ^ o * pixPos (2 ^ k) P.2.2 := by
  intro P Q
  have hst : st.toNat = idx * 4 ^ o := by
    simp only [upperStart3] at hs
    cases hmul : mulI32 (idx : ℤ) ((12 * 4 ^ (k + o) : ℕ) : ℤ) with
    | ok p =>
      rw [hmul] at hs
      have hp : p = (idx : ℤ) * ((12 * 4 ^ (k + o) : ℕ) : ℤ) := by
        simp only [mulI32] at hmul
        split at hmul <;> simp_all
      have : st = p.tdiv ((12 * 4 ^ k : ℕ) : ℤ) := by
        have : Outcome.ok (p.tdiv ((12 * 4 ^ k : ℕ) : ℤ)) = Outcome.ok st := hs
        injection this with h; exact h.symm
      rw [this, hp]
      have e : (idx : ℤ) * ((12 * 4 ^ (k + o) : ℕ) : ℤ) = ((idx * 4 ^ o : ℕ) : ℤ) * ((12 * 4 ^ k : ℕ) : ℤ) := by
        push_cast; rw [pow_add]; ring
      have hpos : 0 < 12 * 4 ^ k := by positivity
      rw [e, Int.mul_tdiv_cancel _ (by omega)]
      rfl
    | throws => rw [hmul] at hs; cases hs
    | ub => rw [hmul] at hs; cases hs
  have h4o : 0 < 4 ^ o := by positivity
  have hm : idx % 4 ^ k < 4 ^ k := Nat.mod_lt _ (by positivity)
  have hb : 4 ^ (k + o) ≤ 4 ^ 14 := Nat.pow_le_pow_right (by norm_num) hk
  have hP : P = (idx / 4 ^ k, ev (idx % 4 ^ k), od (idx % 4 ^ k)) := healPix_eq k idx (by omega)
  have hQ : ∀ r, r < 4 ^ o → Q r = (idx / 4 ^ k, 2 ^ o * ev (idx % 4 ^ k) + ev r, 2 ^ o * od (idx % 4 ^ k) + od r) := by
    intro r hr
    show healPix (2 ^ (k + o)) (st.toNat + r) = _
    rw [healPix_eq (k + o) _ (by omega), hst]
    have e1 : (idx * 4 ^ o + r) / 4 ^ (k + o) = idx / 4 ^ k := by
      rw [pow_add, Nat.mul_comm (4 ^ k), ← Nat.div_div_eq_div_mul, Nat.add_comm, Nat.add_mul_div_right _ _ h4o,
        Nat.div_eq_of_lt hr, zero_add]
    have e2 : (idx * 4 ^ o + r) % 4 ^ (k + o) = idx % 4 ^ k * 4 ^ o + r := by
      have h1 := Nat.div_add_mod (idx * 4 ^ o + r) (4 ^ (k + o))
      rw [e1] at h1
      have h2 := Nat.div_add_mod idx (4 ^ k)
      have h3 : idx * 4 ^ o = 4 ^ (k + o) * (idx / 4 ^ k) + idx % 4 ^ k * 4 ^ o := by
        conv_lhs => rw [← h2]
        rw [pow_add]; ring
      omega
    have hlt : idx % 4 ^ k * 4 ^ o + r < 2 ^ 32 := by
      have : idx % 4 ^ k * 4 ^ o + r < 4 ^ k * 4 ^ o := by nlinarith
      rw [pow_add] at hb
      norm_num at hb ⊢
      omega
    rw [e1, e2, ev_pow o _ r hr hlt, od_pow o _ r hr hlt]
  have hcoord : ∀ a b : ℕ, pixPos (2 ^ (k + o)) (2 ^ o * a + b) - pixPos (2 ^ k) a =
      (1 / (2 * 2 ^ k)) * ((2 * b + 1) / 2 ^ o - 1) := by
    intro a b
    unfold pixPos
    push_cast
    rw [pow_add]
    field_simp
    ring
  have hbd : ∀ a b : ℕ, b < 2 ^ o → |pixPos (2 ^ (k + o)) (2 ^ o * a + b) - pixPos (2 ^ k) a| < 1 / (2 * 2 ^ k) := by
    intro a b hb
    have hb' : (b : ℝ) + 1 ≤ 2 ^ o := by exact_mod_cast hb
    have hp : (0 : ℝ) < 2 ^ o := by positivity
    rw [hcoord, abs_mul, abs_of_pos (by positivity)]
    have h1 : |((2 * (b : ℝ) + 1) / 2 ^ o - 1)| < 1 := by
      rw [abs_lt]
      constructor
      · have : 0 < (2 * (b : ℝ) + 1) / 2 ^ o := by positivity
        linarith
      · have : (2 * (b : ℝ) + 1) / 2 ^ o < 2 := by rw [div_lt_iff₀ hp]; linarith
        linarith
    have := mul_lt_mul_of_pos_left h1 (by positivity : (0 : ℝ) < 1 / (2 * 2 ^ k))
    linarith
  have hsum1 : ∀ a : ℕ, ∑ b ∈ range (2 ^ o), pixPos (2 ^ (k + o)) (2 ^ o * a + b) = 2 ^ o * pixPos (2 ^ k) a := by
    intro a
    have e : ∀ b ∈ range (2 ^ o), pixPos (2 ^ (k + o)) (2 ^ o * a + b) =
        ((2 : ℝ) ^ o * a) / 2 ^ (k + o) + ((b : ℝ) + 1 / 2) / 2 ^ (k + o) := by
      intro b _; unfold pixPos; push_cast; ring
    rw [sum_congr rfl e, sum_add_distrib, ← sum_div, ← sum_div, sum_half, sum_const, card_range, nsmul_eq_mul]
    unfold pixPos
    push_cast
    rw [pow_add]
    field_simp
  have h44 : (4 : ℝ) ^ o = 2 ^ o * 2 ^ o := by rw [← mul_pow]; norm_num
  refine ⟨?_, ?_, ?_⟩
  · intro r hr
    rw [hP, hQ r hr]
    exact ⟨rfl, hbd _ _ (ev_lt o r (by omega) hr), hbd _ _ (od_lt o r (by omega) hr)⟩
  · rw [hP, sum_congr rfl (fun r hr => by rw [hQ r (by simpa using hr)])]
    rw [sum_evod o (by omega) (fun a _ => pixPos (2 ^ (k + o)) (2 ^ o * ev (idx % 4 ^ k) + a))]
    simp only [sum_const, card_range, nsmul_eq_mul, ← mul_sum, hsum1, h44]
    push_cast; ring
  · rw [hP, sum_congr rfl (fun r hr => by rw [hQ r (by simpa using hr)])]
    rw [sum_evod o (by omega) (fun _ b => pixPos (2 ^ (k + o)) (2 ^ o * od (idx % 4 ^ k) + b))]
    simp only [hsum1, sum_const, card_range, nsmul_eq_mul, h44]
    push_cast; ring

/-- Non-vacuity: the default: 12 directions, each splitting in 4. -/
example : upperStart3 7 (12 * 4 ^ (0 + 1)) (12 * 4 ^ 0) = .ok 28 ∧
    (healPix (2 ^ (0 + 1)) 28).1 = 7 ∧ (healPix (2 ^ (0 + 1)) 31).2 = (1, 1) := by decide

theorem sum_faces (k : ℕ) (hk : k ≤ 16) (G : (Fin 3 → ℝ) → ℝ) :
    ∑ idx ∈ range (12 * 4 ^ k), G (rayDir3 (12 * 4 ^ k) idx) =
      ∑ a ∈ range (2 ^ k), ∑ b ∈ range (2 ^ k), ∑ f ∈ range 12, G (healDir f (pixPos (2 ^ k) a) (pixPos (2 ^ k) b)) := by
  have h := sum_heal k hk (fun f a b => G (healDir f (pixPos (2 ^ k) a) (pixPos (2 ^ k) b)))
  have e : ∀ idx, rayDir3 (12 * 4 ^ k) idx = healDir (healPix (2 ^ k) idx).1 (pixPos (2 ^ k) (healPix (2 ^ k) idx).2.1)
      (pixPos (2 ^ k) (healPix (2 ^ k) idx).2.2) := by
    intro idx; simp only [rayDir3, healNside_eq]
  simp only [e]
  rw [h, sum_comm]
  apply sum_congr rfl
  intro a _
  rw [sum_comm]

theorem sum_twelve (g : ℕ → ℝ) : ∑ f ∈ range 12, g f = ∑ q ∈ range 3, (g (4 * q + 0) + g (4 * q + 1) + g (4 * q + 2) + g (4 * q + 3)) := by
  simp only [sum_range_succ, sum_range_zero]; ring

theorem cos_quarter (p : ℝ) : Real.cos (p + (0 : ℕ) * (Real.pi / 2)) = Real.cos p ∧ Real.cos (p + (1 : ℕ) * (Real.pi / 2)) = - Real.sin p ∧
    Real.cos (p + (2 : ℕ) * (Real.pi / 2)) = - Real.cos p ∧ Real.cos (p + (3 : ℕ) * (Real.pi / 2)) = Real.sin p ∧
    Real.sin (p + (0 : ℕ) * (Real.pi / 2)) = Real.sin p ∧ Real.sin (p + (1 : ℕ) * (Real.pi / 2)) = Real.cos p ∧
    Real.sin (p + (2 : ℕ) * (Real.pi / 2)) = - Real.sin p ∧ Real.sin (p + (3 : ℕ) * (Real.pi / 2)) = - Real.cos p := by
  have e2 : p + ((2 : ℕ) : ℝ) * (Real.pi / 2) = p + Real.pi := by push_cast; ring
  have e3 : p + ((3 : ℕ) : ℝ) * (Real.pi / 2) = (p + Real.pi / 2) + Real.pi := by push_cast; ring
  have e1 : p + ((1 : ℕ) : ℝ) * (Real.pi / 2) = p + Real.pi / 2 := by push_cast; ring
  rw [e1, e2, e3]
  simp [Real.cos_add_pi_div_two, Real.sin_add_pi_div_two, Real.cos_add_pi, Real.sin_add_pi]

/-- **C76** 3D: the directions of a probe sum to zero, so a uniform flow has no mean projected velocity;
their second moments are diagonal and equal in the two horizontal directions. -/
theorem C76_balanced3_partial (k : ℕ) (hk : k ≤ 16) :
    (∀ i, ∑ idx ∈ range (12 * 4 ^ k), rayDir3 (12 * 4 ^ k) idx i = 0) ∧
    (∀ i j, i ≠ j → ∑ idx ∈ range (12 * 4 ^ k), rayDir3 (12 * 4 ^ k) idx i * rayDir3 (12 * 4 ^ k) idx j = 0) ∧
    ∑ idx ∈ range (12 * 4 ^ k), rayDir3 (12 * 4 ^ k) idx 0 ^ 2 = ∑ idx ∈ range (12 * 4 ^ k), rayDir3 (12 * 4 ^ k) idx 1 ^ 2 := by
  have rot : ∀ (G : (Fin 3 → ℝ) → ℝ), (∀ p s z : ℝ,
      G ![Real.cos p * s, Real.sin p * s, z] + G ![- Real.sin p * s, Real.cos p * s, z] +
      G ![- Real.cos p * s, - Real.sin p * s, z] + G ![Real.sin p * s, - Real.cos p * s, z] = 0) →
      ∑ idx ∈ range (12 * 4 ^ k), G (rayDir3 (12 * 4 ^ k) idx) = 0 := by
    intro G hG
    rw [sum_faces k hk]
    apply sum_eq_zero; intro a _
    apply sum_eq_zero; intro b _
    rw [sum_twelve]
    apply sum_eq_zero; intro q hq
    obtain ⟨p, s, z, h⟩ := healDir_rot q (by simpa using hq) (pixPos (2 ^ k) a) (pixPos (2 ^ k) b)
    obtain ⟨c0, c1, c2, c3, s0, s1, s2, s3⟩ := cos_quarter p
    rw [h 0 (by norm_num), h 1 (by norm_num), h 2 (by norm_num), h 3 (by norm_num), c0, c1, c2, c3, s0, s1, s2, s3]
    exact hG p s z
  have vz : ∑ idx ∈ range (12 * 4 ^ k), rayDir3 (12 * 4 ^ k) idx 2 = 0 := by
    have h := sum_faces k hk (fun d => d 2)
    rw [h]
    have hN : ((2 ^ k : ℕ) : ℝ) ≠ 0 := by exact_mod_cast (by positivity : 2 ^ k ≠ 0)
    have refl : ∀ a ∈ range (2 ^ k), pixPos (2 ^ k) (2 ^ k - 1 - a) = 1 - pixPos (2 ^ k) a := by
      intro a ha
      have ha' : a < 2 ^ k := by simpa using ha
      unfold pixPos
      rw [Nat.cast_sub (by omega), Nat.cast_sub (by omega)]
      field_simp
      push_cast
      ring
    have hflip : ∀ x y : ℝ, ∑ f ∈ range 12, healDir f (1 - x) (1 - y) 2 = - ∑ f ∈ range 12, healDir f x y 2 := by
      intro x y
      simp only [sum_range_succ, sum_range_zero]
      rw [healZ_flip 8 0 (by norm_num) (by norm_num) x y, healZ_flip 9 1 (by norm_num) (by norm_num) x y,
        healZ_flip 10 2 (by norm_num) (by norm_num) x y, healZ_flip 11 3 (by norm_num) (by norm_num) x y,
        healZ_flip 4 4 (by norm_num) (by norm_num) x y, healZ_flip 5 5 (by norm_num) (by norm_num) x y,
        healZ_flip 6 6 (by norm_num) (by norm_num) x y, healZ_flip 7 7 (by norm_num) (by norm_num) x y,
        healZ_flip 0 8 (by norm_num) (by norm_num) x y, healZ_flip 1 9 (by norm_num) (by norm_num) x y,
        healZ_flip 2 10 (by norm_num) (by norm_num) x y, healZ_flip 3 11 (by norm_num) (by norm_num) x y]
      ring
    have e : ∑ a ∈ range (2 ^ k), ∑ b ∈ range (2 ^ k), ∑ f ∈ range 12, healDir f (pixPos (2 ^ k) a) (pixPos (2 ^ k) b) 2 =
        - ∑ a ∈ range (2 ^ k), ∑ b ∈ range (2 ^ k), ∑ f ∈ range 12, healDir f (pixPos (2 ^ k) a) (pixPos (2 ^ k) b) 2 := by
      conv_lhs => rw [← sum_range_reflect]
      rw [← sum_neg_distrib]
      apply sum_congr rfl; intro a ha
      conv_lhs => rw [← sum_range_reflect]
      rw [← sum_neg_distrib]
      apply sum_congr rfl; intro b hb
      rw [refl a ha, refl b hb, hflip]
    linarith
  refine ⟨?_, ?_, ?_⟩
  · intro i
    fin_cases i
    · exact rot (fun d => d 0) (fun p s z => by
        show Real.cos p * s + - Real.sin p * s + - Real.cos p * s + Real.sin p * s = 0; ring)
    · exact rot (fun d => d 1) (fun p s z => by
        show Real.sin p * s + Real.cos p * s + - Real.sin p * s + - Real.cos p * s = 0; ring)
    · exact vz
  · have h01 := rot (fun d => d 0 * d 1) (fun p s z => by
      show Real.cos p * s * (Real.sin p * s) + - Real.sin p * s * (Real.cos p * s) + - Real.cos p * s * (- Real.sin p * s) +
        Real.sin p * s * (- Real.cos p * s) = 0; ring)
    have h02 := rot (fun d => d 0 * d 2) (fun p s z => by
      show Real.cos p * s * z + - Real.sin p * s * z + - Real.cos p * s * z + Real.sin p * s * z = 0; ring)
    have h12 := rot (fun d => d 1 * d 2) (fun p s z => by
      show Real.sin p * s * z + Real.cos p * s * z + - Real.sin p * s * z + - Real.cos p * s * z = 0; ring)
    intro i j hij
    fin_cases i <;> fin_cases j <;> first | exact absurd rfl hij | exact h01 | exact h02 | exact h12 |
      (simp only [mul_comm]; first | exact h01 | exact h02 | exact h12) |
      (refine (sum_congr rfl fun x _ => mul_comm _ _).trans ?_; first | exact h01 | exact h02 | exact h12)
  · have h := rot (fun d => d 0 ^ 2 - d 1 ^ 2) (fun p s z => by
      show (Real.cos p * s) ^ 2 - (Real.sin p * s) ^ 2 + ((- Real.sin p * s) ^ 2 - (Real.cos p * s) ^ 2) +
        ((- Real.cos p * s) ^ 2 - (- Real.sin p * s) ^ 2) + ((Real.sin p * s) ^ 2 - (- Real.cos p * s) ^ 2) = 0; ring)
    rw [sum_sub_distrib] at h
    linarith

/-- **C76 refuted** 3D: the second moments are not isotropic: for the 12 directions of the first cascade the
mean square of the vertical component is 8/27, not 1/3. -/
theorem C76_isotropic3_refuted : ∑ idx ∈ range 12, rayDir3 12 idx 2 ^ 2 = 12 * (8 / 27) := by
  have h := sum_faces 0 (by norm_num) (fun d => d 2 ^ 2)
  simp only [pow_zero, mul_one] at h
  rw [h]
  simp only [sum_range_one]
  have hp : pixPos 1 0 = 1 / 2 := by unfold pixPos; norm_num
  rw [hp]
  have key : ∀ f, healDir f (1 / 2) (1 / 2) 2 =
      if 2 - (1 - ((f / 4 : ℕ) : ℝ)) * ((1 - ((f / 4 : ℕ) : ℝ)) - 1 + (1 / 2 + 1 / 2)) < 1 then
        (1 - ((f / 4 : ℕ) : ℝ)) * (1 - (2 - (1 - ((f / 4 : ℕ) : ℝ)) * ((1 - ((f / 4 : ℕ) : ℝ)) - 1 + (1 / 2 + 1 / 2))) ^ 2 * (1 / 3))
      else ((1 - ((f / 4 : ℕ) : ℝ)) - 1 + (1 / 2 + 1 / 2)) * (2 / 3) := by
    intro f; rfl
  simp only [key, sum_range_succ, sum_range_zero]
  norm_num

/-- **C76** 3D: no ray is along a horizontal axis plane: the two horizontal components of a direction never
vanish. -/
theorem C76_axis3 (k idx : ℕ) (hk : k ≤ 16) (hi : idx < 12 * 4 ^ k) :
    rayDir3 (12 * 4 ^ k) idx 0 ≠ 0 ∧ rayDir3 (12 * 4 ^ k) idx 1 ≠ 0 := by
  obtain ⟨hf, ⟨hx, hx1⟩, ⟨hy, hy1⟩⟩ := pix_bounds k idx hk hi
  rw [rayDir3_eq k idx hk]
  set a := ev (idx % 4 ^ k)
  set b := od (idx % 4 ^ k)
  set f := idx / 4 ^ k
  obtain ⟨z, t, s, e, hs, _, hc⟩ := healDir_form f hf _ _ hx hx1 hy hy1
  -- the azimuth before rotation is a rational multiple of pi
  obtain ⟨q, hq⟩ : ∃ q : ℚ, t = q := by
    have hxr : pixPos (2 ^ k) a = (((a : ℚ) + 1 / 2) / ((2 ^ k : ℕ) : ℚ) : ℚ) := by unfold pixPos; push_cast; rfl
    have hyr : pixPos (2 ^ k) b = (((b : ℚ) + 1 / 2) / ((2 ^ k : ℕ) : ℚ) : ℚ) := by unfold pixPos; push_cast; rfl
    rw [hxr, hyr] at hc
    generalize (((a : ℚ) + 1 / 2) / ((2 ^ k : ℕ) : ℚ) : ℚ) = X at hc
    generalize (((b : ℚ) + 1 / 2) / ((2 ^ k : ℕ) : ℚ) : ℚ) = Y at hc
    rcases hc with ⟨_, _, _, ht⟩ | ⟨_, _, _, ht⟩ | ⟨_, _, ht⟩ | ⟨_, _, _, ht⟩ | ⟨_, _, _, ht⟩
    · exact ⟨(jpll f : ℚ) + (X - Y) / (2 - (X + Y)), by rw [ht]; push_cast; rfl⟩
    · exact ⟨(jpll f : ℚ) + (X - Y), by rw [ht]; push_cast; rfl⟩
    · exact ⟨(jpll f : ℚ) + (X - Y), by rw [ht]; push_cast; rfl⟩
    · exact ⟨(jpll f : ℚ) + (X - Y), by rw [ht]; push_cast; rfl⟩
    · exact ⟨(jpll f : ℚ) + (X - Y) / (X + Y), by rw [ht]; push_cast; rfl⟩
  have irr : ∀ w : ℚ, Real.pi * w ≠ 1 / 100 := by
    intro w hw
    have hw0 : (w : ℝ) ≠ 0 := by intro h; rw [h] at hw; norm_num at hw
    apply irrational_pi
    refine ⟨(1 / 100) / w, ?_⟩
    push_cast
    rw [div_eq_iff hw0]; linarith
  rw [e]
  constructor
  · show Real.cos (Real.pi / 4 * t + 1 / 100) * s ≠ 0
    apply mul_ne_zero _ hs.ne'
    intro h0
    obtain ⟨j, hj⟩ := Real.cos_eq_zero_iff.1 h0
    refine irr ((2 * j + 1) / 2 - q / 4) ?_
    push_cast
    rw [hq] at hj
    linarith
  · show Real.sin (Real.pi / 4 * t + 1 / 100) * s ≠ 0
    apply mul_ne_zero _ hs.ne'
    intro h0
    obtain ⟨j, hj⟩ := Real.sin_eq_zero_iff.1 h0
    refine irr (j - q / 4) ?_
    push_cast
    rw [hq] at hj
    linarith

/-- **C76** 3D: horizontal rays (no vertical component) exist in every set. -/
theorem C76_horizontal3 (k : ℕ) (hk : k ≤ 16) : ∃ idx, idx < 12 * 4 ^ k ∧ rayDir3 (12 * 4 ^ k) idx 2 = 0 := by
  by_contra hne
  push Not at hne
  -- pixel (2^k - 1, 0) of face 4
  have hsum := sum_heal k hk (fun f a b => if f = 4 ∧ a = 2 ^ k - 1 ∧ b = 0 then (1 : ℝ) else 0)
  have hR : ∑ f ∈ range 12, ∑ a ∈ range (2 ^ k), ∑ b ∈ range (2 ^ k),
      (if f = 4 ∧ a = 2 ^ k - 1 ∧ b = 0 then (1 : ℝ) else 0) ≠ 0 := by
    apply ne_of_gt
    apply sum_pos' (fun f _ => sum_nonneg fun a _ => sum_nonneg fun b _ => by split <;> norm_num)
    refine ⟨4, by simp, sum_pos' (fun a _ => sum_nonneg fun b _ => by split <;> norm_num) ⟨2 ^ k - 1, ?_, ?_⟩⟩
    · have : 0 < 2 ^ k := by positivity
      simp
    · exact sum_pos' (fun b _ => by split <;> norm_num) ⟨0, by simp, by simp⟩
  apply hR
  rw [← hsum]
  apply sum_eq_zero
  intro idx hidx
  have hi : idx < 12 * 4 ^ k := by simpa using hidx
  apply if_neg
  rintro ⟨h1, h2, h3⟩
  apply hne idx hi
  have e : rayDir3 (12 * 4 ^ k) idx = healDir (healPix (2 ^ k) idx).1 (pixPos (2 ^ k) (healPix (2 ^ k) idx).2.1)
      (pixPos (2 ^ k) (healPix (2 ^ k) idx).2.2) := by simp only [rayDir3, healNside_eq]
  have hp : pixPos (2 ^ k) (2 ^ k - 1) + pixPos (2 ^ k) 0 = 1 := by
    have hN : ((2 ^ k : ℕ) : ℝ) ≠ 0 := by exact_mod_cast (by positivity : 2 ^ k ≠ 0)
    have : 1 ≤ 2 ^ k := Nat.one_le_two_pow
    unfold pixPos
    rw [Nat.cast_sub this]
    field_simp
    push_cast; ring
  rw [e, h1, h2, h3]
  show (if (2 - (1 - ((4 / 4 : ℕ) : ℝ)) * ((1 - ((4 / 4 : ℕ) : ℝ)) - 1 + (pixPos (2 ^ k) (2 ^ k - 1) + pixPos (2 ^ k) 0)) : ℝ) < 1 then _
    else ((1 - ((4 / 4 : ℕ) : ℝ)) - 1 + (pixPos (2 ^ k) (2 ^ k - 1) + pixPos (2 ^ k) 0)) * (2 / 3)) = 0
  rw [hp]
  norm_num

theorem copysign_sq (a b : ℝ) : copysign a b ^ 2 = a ^ 2 := by
  unfold copysign; split <;> simp

/-- **C76** 3D: with the two other angular quadratures, too, every direction is a unit vector. -/
theorem C76_unit_other3 (naz npol ph th : ℕ) (hp : ph < naz) (ht : th < npol) :
    ∑ i, trapDir naz npol ph th i ^ 2 = 1 ∧ ∑ i, clarbergDir naz npol ph th i ^ 2 = 1 := by
  have range : ∀ n k : ℕ, k < n → -1 < 2 / (n : ℝ) * (k + 1 / 2) - 1 ∧ 2 / (n : ℝ) * (k + 1 / 2) - 1 < 1 := by
    intro n k hk
    have h1 : (k : ℝ) + 1 ≤ n := by exact_mod_cast hk
    have h2 : (0 : ℝ) < n := by
      have : (0 : ℝ) ≤ k := Nat.cast_nonneg k
      linarith
    constructor
    · have : 0 < 2 / (n : ℝ) * (k + 1 / 2) := by positivity
      linarith
    · have : 2 / (n : ℝ) * (k + 1 / 2) < 2 := by
        rw [div_mul_eq_mul_div, div_lt_iff₀ h2]; linarith
      linarith
  constructor
  · obtain ⟨h1, h2⟩ := range npol th ht
    have h0 : (0 : ℝ) ≤ 1 - (2 / (npol : ℝ) * (th + 1 / 2) - 1) ^ 2 := by nlinarith
    have hs := Real.sq_sqrt h0
    rw [Fin.sum_univ_three]
    simp only [trapDir]
    show (Real.cos (2 * Real.pi / naz * (ph + 1 / 2)) * Real.sqrt (1 - (2 / (npol : ℝ) * (th + 1 / 2) - 1) ^ 2)) ^ 2 +
      (Real.sin (2 * Real.pi / naz * (ph + 1 / 2)) * Real.sqrt (1 - (2 / (npol : ℝ) * (th + 1 / 2) - 1) ^ 2)) ^ 2 +
      (2 / (npol : ℝ) * (th + 1 / 2) - 1) ^ 2 = 1
    have := Real.sin_sq_add_cos_sq (2 * Real.pi / naz * (ph + 1 / 2))
    rw [mul_pow, mul_pow, hs]
    linear_combination (1 - (2 / (npol : ℝ) * (th + 1 / 2) - 1) ^ 2) * this
  · obtain ⟨a1, a2⟩ := range naz ph hp
    obtain ⟨b1, b2⟩ := range npol th ht
    rw [Fin.sum_univ_three]
    simp only [clarbergDir]
    set u : ℝ := 2 / (naz : ℝ) * (ph + 1 / 2) - 1
    set v : ℝ := 2 / (npol : ℝ) * (th + 1 / 2) - 1
    set r : ℝ := 1 - |1 - (|u| + |v|)| with hr
    set phi := (if r = 0 then 1 else (|v| - |u|) / r + 1) * (1 / 4) * Real.pi
    have hu : |u| < 1 := abs_lt.2 ⟨by linarith, a2⟩
    have hv : |v| < 1 := abs_lt.2 ⟨by linarith, b2⟩
    have hu0 := abs_nonneg u
    have hv0 := abs_nonneg v
    have hr1 : r ≤ 1 := by have := abs_nonneg (1 - (|u| + |v|)); linarith
    have hr0 : 0 ≤ r := by
      have : |1 - (|u| + |v|)| ≤ 1 := abs_le.2 ⟨by linarith, by linarith⟩
      linarith
    have h2 : 0 ≤ 2 - r ^ 2 := by nlinarith
    show (copysign (Real.cos phi) u * (r * Real.sqrt (max (2 - r ^ 2) 0))) ^ 2 +
      (copysign (Real.sin phi) v * (r * Real.sqrt (max (2 - r ^ 2) 0))) ^ 2 + (copysign (1 - r ^ 2) (1 - (|u| + |v|))) ^ 2 = 1
    rw [max_eq_left h2]
    have hs := Real.sq_sqrt h2
    simp only [mul_pow, copysign_sq, hs]
    linear_combination (r ^ 2 * (2 - r ^ 2)) * Real.sin_sq_add_cos_sq phi

end DexRT.Dir
