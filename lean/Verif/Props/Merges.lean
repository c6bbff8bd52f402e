import Verif.Spec.Merges
import Verif.Lemmas.Merges
import Verif.Lemmas.Config
/-!
**C96** The merges a 2D build can select.
-/
namespace DexRT.Merges
open DexRT DexRT.Fs DexRT.Dir

theorem pass_up (e : Env) (hv : e.cfg.Valid) (hm : e.cfg.mode ≠ .preaverage) {t n : Nat} {p : ProbeIdx2}
    (hp : InPass2 e.cfg (e.rays n) t p) :
    p.u < probesOn e.c0.np0 n ∧ p.v < probesOn e.c0.np1 n ∧
    ∀ U V r, U < probesOn e.c0.np0 (n + 1) → V < probesOn e.c0.np1 (n + 1) → r < upperTexelsPerRay e.cfg n →
      InPass2 e.cfg (e.rays (n + 1)) t
        { u := U, v := V, dir := upperRayIdx e.cfg p.dir n + r, incl := p.incl, wave := p.wave } := by
  have hs := fun j => (C12_shapes_agree e.cfg hv e.c0 j).1
  have hn := np_probesOn e.cfg e.c0 n
  have hp' : Pass2 e.env2 t n p := by
    show InPass2 e.cfg (cascadeComputeSize e.cfg e.c0 n) t p
    rw [hs]; exact hp
  refine ⟨?_, ?_, fun U V r hU hV hr => ?_⟩
  · rw [← hn.1]; exact hp.1
  · rw [← hn.2]; exact hp.2.1
  · have := child_pass e.env2 hv hm hp' (U := U) (V := V) (r := r) hU hV hr
    unfold Env.rays; rw [← hs]; exact this

theorem upperAvg_between (e : Env) (hv : e.cfg.Valid) (hm : e.cfg.mode ≠ .preaverage) {t n : Nat} {p : ProbeIdx2}
    (hp : InPass2 e.cfg (e.rays n) t p) {upper : List ℝ} {m M : ℝ} (hu : UpperIn e n t p upper m M) {U V : Nat}
    (hU : U < probesOn e.c0.np0 (n + 1)) (hV : V < probesOn e.c0.np1 (n + 1)) :
    ∃ x, upperAvg e n p upper U V = .ok x ∧ m ≤ x ∧ x ≤ M := by
  refine mean_between (fun r => readAt upper (probeLinearIndex e.cfg (cascadeSize e.cfg e.c0 (n + 1))
      { u := U, v := V, dir := upperRayIdx e.cfg p.dir n + r, incl := p.incl, wave := p.wave }))
    (upperTexelsPerRay e.cfg n) (texels_pos e.cfg n) m M fun r hr => ?_
  obtain ⟨x, h1, h2, h3⟩ := hu _ ((pass_up e hv hm hp).2.2 U V r hU hV hr) rfl rfl
  exact ⟨x, by unfold readAt; rw [h1], h2, h3⟩

theorem vanilla_between (e : Env) (hv : e.cfg.Valid) (hm : e.cfg.mode ≠ .preaverage) {t n : Nat} {p : ProbeIdx2}
    (hp : InPass2 e.cfg (e.rays n) t p) {upper : List ℝ} {m M : ℝ} (hu : UpperIn e n t p upper m M) :
    ∃ x, interp2 e.env2 n p upper = .ok x ∧ m ≤ x ∧ x ≤ M := by
  obtain ⟨pu, pv, hc⟩ := pass_up e hv hm hp
  obtain ⟨h1, h2⟩ := sample_ok pu pv
  obtain ⟨d0, d1⟩ := np_probesOn e.cfg e.c0 (n + 1)
  have hT : (0 : ℝ) < upperTexelsPerRay e.cfg n := by exact_mod_cast texels_pos e.cfg n
  obtain ⟨W, hW⟩ : ∃ W, W = fun k => (((bilinearSample (p.u : Int) (p.v : Int) (probesOn e.c0.np0 (n + 1) : Nat)
    (probesOn e.c0.np1 (n + 1) : Nat) k).2 : ℚ) : ℝ) := ⟨_, rfl⟩
  obtain ⟨s, s1, s2, s3⟩ := sumLoop_between (fun kr : Nat × Nat => upperTerm2 e.env2 n p upper kr.1 kr.2)
    (fun kr => W kr.1 * (1 / (upperTexelsPerRay e.cfg n : ℝ) * m)) (fun kr => W kr.1 * (1 / (upperTexelsPerRay e.cfg n : ℝ) * M))
    ((List.range 4).flatMap fun k => (List.range (upperTexelsPerRay e.cfg n)).map fun r => (k, r)) 0 (by
      rintro ⟨k, r⟩ hkr
      simp only [List.mem_flatMap, List.mem_map, List.mem_range, Prod.mk.injEq] at hkr
      obtain ⟨k, _, r', hr', rfl, rfl⟩ := hkr
      obtain ⟨U, V, hU, hV, hs, hw⟩ := h1 k
      obtain ⟨x, x1, x2, x3⟩ := hu _ (hc U V r' hU hV hr') rfl rfl
      have hw' : 0 ≤ W k := by simp only [hW]; exact_mod_cast hw
      refine ⟨W k * (1 / (upperTexelsPerRay e.cfg n : ℝ) * x), ?_, ?_, ?_⟩
      · show upperTerm2 e.env2 n p upper k r' = _
        unfold upperTerm2
        show (let up := cascadeSize e.cfg e.c0 (n + 1)
              let s := bilinearSample p.u p.v up.np0 up.np1 k
              if 0 ≤ s.1.1 ∧ 0 ≤ s.1.2 then do
                let x ← readAt upper (probeLinearIndex e.cfg up
                  { u := s.1.1.toNat, v := s.1.2.toNat, dir := upperRayIdx e.cfg p.dir n + r', incl := p.incl,
                    wave := p.wave })
                .ok (1 / (upperTexelsPerRay e.cfg n : ℝ) * (s.2 : ℝ) * x)
              else .ub) = _
        simp only [d0, d1, hs]
        rw [if_pos ⟨by omega, by omega⟩, Int.toNat_natCast, Int.toNat_natCast]
        simp only [readAt, x1, Outcome.ok_bind]
        rw [hW]; congr 1; ring
      · exact mul_le_mul_of_nonneg_left (mul_le_mul_of_nonneg_left x2 (by positivity)) hw'
      · exact mul_le_mul_of_nonneg_left (mul_le_mul_of_nonneg_left x3 (by positivity)) hw')
  refine ⟨s, s1, ?_, ?_⟩
  · rw [pairs_sum, hW, h2, mul_one, ← mul_assoc, mul_one_div_cancel hT.ne', one_mul] at s2; linarith
  · rw [pairs_sum, hW, h2, mul_one, ← mul_assoc, mul_one_div_cancel hT.ne', one_mul] at s3; linarith

theorem merged_between {m M : ℝ} {s : Seg ℝ} (hs : SourceIn m M s) {x : ℝ} (h1 : m ≤ x) (h2 : x ≤ M) :
    m ≤ s.I + s.T * x ∧ s.I + s.T * x ≤ M := by
  obtain ⟨t0, -, i0, i1⟩ := hs
  constructor <;> nlinarith

/-- **C96** (bounds): in every build that compiles, merging in the kernel never reads outside the cascade above, only rays of the
same inclination, wavelength and pass, and with source functions between `m` and `M` in the march and radiation between `m` and
`M` in the cascade above the result is between `m` and `M`. With `m = M` this is equilibrium; with `m = 0` positivity. Excluded:
the cascades of the inner reprojection, which merge in a second kernel (`C96_inner_partial`). -/
theorem C96_between (c : Conf) (e : Env) (hc : Compiles c e.cfg) (n t : Nat) (p : ProbeIdx2)
    (hp : InPass2 e.cfg (e.rays n) t p) (upper : List ℝ) (m M : ℝ) (hu : UpperIn e n t p upper m M)
    (hmarch : ∀ r, SourceIn m M (e.march r)) (hin : ∀ a, c = .inner a → (n : Int) ≤ a) :
    ∃ I psi, dispatch c e n (some upper) p = .ok (I, psi) ∧ m ≤ I ∧ I ≤ M := by
  obtain ⟨hv, hm, hall⟩ := hc
  have hvan : ∃ I psi, marchMerge2 e.env2 false n (some upper) p = .ok (I, psi) ∧ m ≤ I ∧ I ≤ M := by
    obtain ⟨x, x1, x2, x3⟩ := vanilla_between e hv hm hp hu
    have hs := hmarch (invertDirection (e.ray n p))
    have := merged_between hs x2 x3
    exact ⟨_, _, by simp only [marchMerge2, x1, Outcome.ok_bind]; rfl, this.1, this.2⟩
  cases c with
  | vanilla => exact hvan
  | inner a =>
    simp only [dispatch, if_pos (hin a rfl)]; exact hvan
  | bilinear =>
    obtain ⟨pu, pv, -⟩ := pass_up e hv hm hp
    obtain ⟨s, s1, s2, s3⟩ := corners_between e pu pv (fun U V => do
        let ri := e.march (fixRay e n p U V)
        let x ← upperAvg e n p upper U V
        .ok (ri.I + ri.T * x)) m M (fun U V hU hV => by
      obtain ⟨x, x1, x2, x3⟩ := upperAvg_between e hv hm hp hu hU hV
      have := merged_between (hmarch (fixRay e n p U V)) x2 x3
      exact ⟨_, by simp only [x1, Outcome.ok_bind], this.1, this.2⟩)
    exact ⟨s, 0, by simp only [dispatch, mergeBilinear, s1, Outcome.ok_bind], s2, s3⟩
  | parallax a =>
    by_cases hn : (n : Int) ≤ a
    · simp only [dispatch, if_pos hn]; exact hvan
    have hmode := hall ⟨a, Or.inl rfl⟩
    obtain ⟨pu, pv, hch⟩ := pass_up e hv hm hp
    have hrays : e.rays (n + 1) = cascadeSize e.cfg e.c0 (n + 1) := by
      unfold Env.rays storageToRays; rw [hmode]
    have hdir : ∀ U V d, U < probesOn e.c0.np0 (n + 1) → V < probesOn e.c0.np1 (n + 1) → d < (e.rays (n + 1)).dirs →
        InPass2 e.cfg (e.rays (n + 1)) t { u := U, v := V, dir := d, incl := p.incl, wave := p.wave } := by
      intro U V d hU hV hd
      obtain ⟨h1, h2, h3, h4, -, -⟩ := hch U V 0 hU hV (texels_pos e.cfg n)
      refine ⟨h1, h2, h3, h4, ?_, ?_⟩ <;> simp only [nthRaysSubset, hmode]
      · exact Nat.zero_le _
      · omega
    have hpos : 0 < (e.rays (n + 1)).dirs := by
      have hU : 0 < probesOn e.c0.np0 (n + 1) := by unfold probesOn; omega
      have hV : 0 < probesOn e.c0.np1 (n + 1) := by unfold probesOn; omega
      obtain ⟨-, -, -, -, -, h6⟩ := hch 0 0 0 hU hV (texels_pos e.cfg n)
      simp only [nthRaysSubset, hmode] at h6
      omega
    obtain ⟨x, x1, x2, x3⟩ := corners_between e pu pv (fun U V =>
      sumLoop (fun r => do
        let d := parallaxDir e n p U V r
        let y ← interpDir e.cfg (e.rays (n + 1)) id upper { u := U, v := V, dir := 0, incl := p.incl, wave := p.wave }
          (fracDirIdx (e.rays (n + 1)).dirs (atan2 (d 1) (d 0)))
        .ok (1 / (upperTexelsPerRay e.cfg n : ℝ) * y)) (List.range (upperTexelsPerRay e.cfg n)) 0) m M (fun U V hU hV => by
      refine mean_between (fun r => interpDir e.cfg (e.rays (n + 1)) id upper
          { u := U, v := V, dir := 0, incl := p.incl, wave := p.wave }
          (fracDirIdx (e.rays (n + 1)).dirs (atan2 (parallaxDir e n p U V r 1) (parallaxDir e n p U V r 0))))
        (upperTexelsPerRay e.cfg n) (texels_pos e.cfg n) m M fun r hr => ?_
      refine interpDir_between e.cfg (e.rays (n + 1)) id upper _ _ _ hpos m M fun d hd => ?_
      obtain ⟨y, y1, y2, y3⟩ := hu _ (hdir U V d hU hV hd) rfl rfl
      exact ⟨y, by rw [hrays]; exact y1, y2, y3⟩)
    have hs := hmarch (invertDirection (e.ray n p))
    have := merged_between hs x2 x3
    refine ⟨_, (e.march (invertDirection (e.ray n p))).psi, ?_, this.1, this.2⟩
    simp only [dispatch, if_neg hn, mergeParallax]
    rw [x1]; rfl

/-- **C96** (no cascade above): every merge gives what the march of the inverted ray gives. -/
theorem C96_top (c : Conf) (e : Env) (n : Nat) (p : ProbeIdx2) :
    dispatch c e n none p =
      .ok ((e.march (invertDirection (e.ray n p))).I, (e.march (invertDirection (e.ray n p))).psi) := by
  have hv : marchMerge2 e.env2 false n none p =
      .ok ((e.march (invertDirection (e.ray n p))).I, (e.march (invertDirection (e.ray n p))).psi) := by
    simp [marchMerge2, Env.env2]
  cases c with
  | vanilla => exact hv
  | bilinear => rfl
  | parallax a =>
    simp only [dispatch]; split
    · exact hv
    · simp [mergeParallax]
  | inner a =>
    simp only [dispatch]; split
    · exact hv
    · rfl

/-- **C96** (second kernel of the inner reprojection): with this cascade holding the intensities and optical depths of media with
source functions between `m` and `M`, the merged intensity is defined, at least `m`, and above `M` by a factor of at most
`1 + exp(-10000)`. Missing: the bound `M` itself, because the optical depth is cut off at 10000. -/
theorem C96_inner_partial (a : Int) (e : Env) (hc : Compiles (.inner a) e.cfg) (n t : Nat) (p : ProbeIdx2)
    (hp : InPass2 e.cfg (e.rays n) t p) (curI curTau upper : List ℝ) (m M : ℝ) (hm0 : 0 ≤ m) (hmM : m ≤ M)
    (hu : UpperIn e n t p upper m M) (hcur : CurrentIn e n p curI curTau m M) :
    ∃ I, innerMerge e n curI curTau upper p = .ok I ∧ m ≤ I ∧ I ≤ M * (1 + Real.exp (-10000)) := by
  obtain ⟨hv, hm, hall⟩ := hc
  have hmode := hall ⟨a, Or.inr rfl⟩
  obtain ⟨pu, pv, -⟩ := pass_up e hv hm hp
  have hpos : 0 < (e.rays n).dirs := by
    have h6 := hp.2.2.2.2.2
    simp only [nthRaysSubset, hmode] at h6
    omega
  refine corners_between e pu pv _ m _ fun U V hU hV => ?_
  obtain ⟨x, x1, x2, x3⟩ := upperAvg_between e hv hm hp hu hU hV
  obtain ⟨z, hz⟩ : ∃ z, z = (centralRay e n p U V).start 1 - ![(probePos p.u n : ℝ), (probePos p.v n : ℝ)] 1 := ⟨_, rfl⟩
  obtain ⟨y, hy⟩ : ∃ y, y = (centralRay e n p U V).start 0 - ![(probePos p.u n : ℝ), (probePos p.v n : ℝ)] 0 := ⟨_, rfl⟩
  obtain ⟨d0, d1, w, a0, a1, w0, w1, hf⟩ := interpDir_form e.cfg (e.rays n) p z y hpos
  obtain ⟨I0, t0, i0, j0, k0, l0, l0'⟩ := hcur d0 a0
  obtain ⟨I1, t1, i1, j1, k1, l1, l1'⟩ := hcur d1 a1
  have hI := hf id curI I0 I1 i0 i1
  have hE := hf (fun t => Real.exp (-t)) curTau t0 t1 j0 j1
  obtain ⟨E, hEd⟩ : ∃ E, E = (1 - w) * Real.exp (-t0) + w * Real.exp (-t1) := ⟨_, rfl⟩
  have e0 := Real.exp_pos (-t0)
  have e1 := Real.exp_pos (-t1)
  have hEpos : 0 < E := by
    rw [hEd]
    rcases eq_or_lt_of_le w0 with h | h
    · rw [← h]; simpa using e0
    · have := mul_pos h e1
      have := mul_nonneg (by linarith : 0 ≤ 1 - w) e0.le
      linarith
  obtain ⟨A, hA⟩ : ∃ A, A = (1 - w) * I0 + w * I1 := ⟨_, rfl⟩
  have hlo : m * (1 - E) ≤ A := by
    rw [hEd, hA]; nlinarith
  have hhi : A ≤ M * (1 - E) := by
    rw [hEd, hA]; nlinarith
  obtain ⟨F, hF⟩ : ∃ F, F = Real.exp (-(min (-Real.log E) 10000)) := ⟨_, rfl⟩
  have hF1 : E ≤ F := by
    rw [hF, ← Real.exp_log hEpos, Real.exp_le_exp, Real.log_exp]
    have := min_le_left (-Real.log E) 10000
    linarith
  have hF2 : F ≤ E + Real.exp (-10000) := by
    rw [hF]
    rcases min_choice (-Real.log E) 10000 with h | h
    · rw [h, neg_neg, Real.exp_log hEpos]
      have := Real.exp_pos (-10000)
      linarith
    · rw [h]; linarith
  refine ⟨A + F * x, ?_, ?_, ?_⟩
  · simp only
    rw [← hz, ← hy, hI, hE, Outcome.ok_bind, Outcome.ok_bind, x1, Outcome.ok_bind, ← hEd, ← hF, hA]
    rfl
  · nlinarith
  · have hF0 : 0 ≤ F := le_trans hEpos.le hF1
    have hM0 : 0 ≤ M := le_trans hm0 hmM
    nlinarith [mul_le_mul_of_nonneg_left x3 hF0, mul_le_mul_of_nonneg_right hF2 hM0]

/-- **C96** (approximate operator): the default merge, the reprojecting merge and the inner reprojection store the operator of the
ray that was marched. -/
theorem C96_alo (c : Conf) (hb : c ≠ .bilinear) (e : Env) (n : Nat) (upper : Option (List ℝ)) (p : ProbeIdx2) (I psi : ℝ)
    (h : dispatch c e n upper p = .ok (I, psi)) : psi = (e.march (invertDirection (e.ray n p))).psi := by
  have hv : ∀ I psi, marchMerge2 e.env2 false n upper p = .ok (I, psi) →
      psi = (e.march (invertDirection (e.ray n p))).psi := by
    intro I psi h
    cases upper with
    | none => simp only [marchMerge2] at h; injection h with h; injection h with _ h; exact h.symm
    | some u =>
      simp only [marchMerge2] at h
      obtain ⟨x, -, h2⟩ := Config.obind_ok h
      injection h2 with h2; injection h2 with _ h2; exact h2.symm
  cases c with
  | vanilla => exact hv _ _ h
  | bilinear => exact absurd rfl hb
  | parallax a =>
    simp only [dispatch] at h; split at h
    · exact hv _ _ h
    · cases upper with
      | none => simp only [mergeParallax] at h; injection h with h; injection h with _ h; exact h.symm
      | some u =>
        simp only [mergeParallax] at h
        obtain ⟨x, -, h2⟩ := Config.obind_ok h
        injection h2 with h2; injection h2 with _ h2; exact h2.symm
  | inner a =>
    simp only [dispatch] at h; split at h
    · exact hv _ _ h
    · simp only [marchInner] at h; injection h with h; injection h with _ h; exact h.symm

/-- **C96** is false of the bilinear fix: below the last cascade the operator it stores is zero, whatever the marches of the
four rays gave, so every iteration with the approximate operator is one without. -/
theorem C96_alo_refuted (e : Env) (n : Nat) (upper : List ℝ) (p : ProbeIdx2) (I psi : ℝ)
    (h : dispatch .bilinear e n (some upper) p = .ok (I, psi)) : psi = 0 := by
  simp only [dispatch, mergeBilinear] at h
  obtain ⟨x, -, h2⟩ := Config.obind_ok h
  injection h2 with h2; injection h2 with _ h2; exact h2.symm

/-- **C96** (joined rays): the ray the bilinear fix marches for an upper probe ends where the ray it replaces ended, and starts
where one of the rays it is merged with ends. -/
theorem C96_joined (e : Env) (n : Nat) (p : ProbeIdx2) (U V : Nat) :
    (fixRay e n p U V).stop = (e.ray n p).start ∧
    ∃ r, r < upperTexelsPerRay e.cfg n ∧ (fixRay e n p U V).start =
      (e.ray (n + 1) { u := U, v := V, dir := upperRayIdx e.cfg p.dir n + r, incl := p.incl, wave := p.wave }).start := by
  refine ⟨rfl, upperTexelsPerRay e.cfg n / 2, Nat.div_lt_self (texels_pos e.cfg n) (by norm_num), rfl⟩

/-- **C96** is false of the centre of the fan: with an even number of upper rays the "central" ray lies half an upper step to
one side of the ray it continues, always the same side. -/
theorem C96_centre_refuted (e : Env) (hm : e.cfg.mode ≠ .preaverage) (n : Nat) (p : ProbeIdx2) (U V b : Nat)
    (hb : upperTexelsPerRay e.cfg n = 2 * b) (hd : 0 < (e.rays n).dirs)
    (hs : (e.rays (n + 1)).dirs = (e.rays n).dirs * upperTexelsPerRay e.cfg n) :
    (centralRay e n p U V).dir = rayDir2 (e.rays (n + 1)).dirs (p.dir * (2 * b) + b) ∧
    rayAngle (e.rays (n + 1)).dirs (p.dir * (2 * b) + b) =
      rayAngle (e.rays n).dirs p.dir + 1 / 2 * (2 * Real.pi / (e.rays (n + 1)).dirs) := by
  have hb0 : 0 < b := by have := texels_pos e.cfg n; omega
  constructor
  · unfold centralRay Env.ray rayProps
    rw [upperRayIdx_eq e.cfg hm, hb]
    have : 2 * b / 2 = b := by omega
    simp only [this]
  · rw [hs, hb]
    unfold rayAngle
    have h1 : ((e.rays n).dirs : ℝ) ≠ 0 := by exact_mod_cast hd.ne'
    have h2 : (b : ℝ) ≠ 0 := by exact_mod_cast hb0.ne'
    push_cast
    field_simp

/-- **C96** (reprojection is exact on the directions of a probe): asked for the direction of ray `k`, at any distance, the
interpolation gives the entry of ray `k` alone. -/
theorem C96_exact (cfg : RcCfg) (s : Casc2) (g : ℝ → ℝ) (buf : List ℝ) (p : ProbeIdx2) (k : Nat) (hk : k < s.dirs)
    (r : ℝ) (hr : 0 < r) (y : ℝ) (hy : buf[probeLinearIndex cfg s { p with dir := k }]? = some y)
    (hall : ∀ d, d < s.dirs → ∃ x, buf[probeLinearIndex cfg s { p with dir := d }]? = some x) :
    interpDir cfg s g buf p (fracDirIdx s.dirs (atan2 (r * rayDir2 s.dirs k 1) (r * rayDir2 s.dirs k 0))) = .ok (g y) := by
  have hnd : 0 < s.dirs := by omega
  have hnd' : (s.dirs : ℝ) ≠ 0 := by exact_mod_cast hnd.ne'
  obtain ⟨j, hj⟩ : ∃ j : ℤ, atan2 (r * rayDir2 s.dirs k 1) (r * rayDir2 s.dirs k 0) =
      rayAngle s.dirs k + j * (2 * Real.pi) := by
    have h1 : (⟨r * rayDir2 s.dirs k 0, r * rayDir2 s.dirs k 1⟩ : ℂ) =
        (r : ℂ) * (Complex.cos (rayAngle s.dirs k : ℝ) + Complex.sin (rayAngle s.dirs k : ℝ) * Complex.I) := by
      apply Complex.ext
      · simp [rayDir2, ← Complex.ofReal_cos, ← Complex.ofReal_sin]
      · simp [rayDir2, ← Complex.ofReal_cos, ← Complex.ofReal_sin]
    have h2 : ((atan2 (r * rayDir2 s.dirs k 1) (r * rayDir2 s.dirs k 0) : ℝ) : Real.Angle) =
        ((rayAngle s.dirs k : ℝ) : Real.Angle) := by
      unfold atan2
      rw [h1]
      have := Complex.arg_mul_cos_add_sin_mul_I_coe_angle hr (rayAngle s.dirs k : Real.Angle)
      rw [Real.Angle.cos_coe, Real.Angle.sin_coe, Complex.ofReal_cos, Complex.ofReal_sin] at this
      exact this
    obtain ⟨j, hj⟩ := Real.Angle.angle_eq_iff_two_pi_dvd_sub.mp h2
    exact ⟨j, by linarith⟩
  have hfrac : fracDirIdx s.dirs (rayAngle s.dirs k + j * (2 * Real.pi)) = ((k + j * s.dirs : Int) : ℝ) := by
    have hpi := Real.pi_ne_zero
    unfold fracDirIdx rayAngle
    push_cast
    field_simp
    ring
  have hrange := frac_range s.dirs hnd (r * rayDir2 s.dirs k 1) (r * rayDir2 s.dirs k 0)
  rw [hj, hfrac, Int.floor_intCast] at hrange
  rw [hj, hfrac]
  have ht : ((k : Int) + j * s.dirs + s.dirs).tmod s.dirs = k := by
    rw [Int.tmod_eq_emod_of_nonneg hrange, show (k : Int) + j * s.dirs + s.dirs = k + (j + 1) * s.dirs by ring,
      Int.add_mul_emod_self_right, Int.emod_eq_of_lt (by omega) (by omega)]
  have ht1 := Int.tmod_nonneg (s.dirs : Int) (by omega : 0 ≤ (k : Int) + j * s.dirs + 1 + s.dirs)
  have ht2 := Int.tmod_lt_of_pos ((k : Int) + j * s.dirs + 1 + s.dirs) (by exact_mod_cast hnd : (0 : Int) < s.dirs)
  obtain ⟨x, hx⟩ := hall ((((k : Int) + j * s.dirs + 1 + s.dirs).tmod s.dirs).toNat) (by omega)
  unfold interpDir
  simp only [Int.floor_intCast, sub_self, sub_zero, one_mul, zero_mul, add_zero, ht]
  rw [if_pos ⟨by omega, ht1⟩]
  simp only [readAt, Int.toNat_natCast, hy, hx, Outcome.ok_bind]

/-- unit vector at an angle -/
noncomputable def unitAt (a : ℝ) : Fin 2 → ℝ := ![Real.cos a, Real.sin a]

theorem unitAt_mid (a b : ℝ) (i : Fin 2) : unitAt a i + unitAt (a - 2 * b) i = 2 * Real.cos b * unitAt (a - b) i := by
  have h1 : a = (a - b) + b := by ring
  have h2 : a - 2 * b = (a - b) - b := by ring
  fin_cases i
  · show Real.cos a + Real.cos (a - 2 * b) = 2 * Real.cos b * Real.cos (a - b)
    have e1 := Real.cos_add (a - b) b
    have e2 := Real.cos_sub (a - b) b
    rw [← h1] at e1; rw [← h2] at e2; linarith
  · show Real.sin a + Real.sin (a - 2 * b) = 2 * Real.cos b * Real.sin (a - b)
    have e1 := Real.sin_add (a - b) b
    have e2 := Real.sin_sub (a - b) b
    rw [← h1] at e1; rw [← h2] at e2; linarith

theorem unitAt_turn (a : ℝ) : unitAt (a + 2 * Real.pi) = unitAt a := by
  unfold unitAt; rw [Real.cos_add_two_pi, Real.sin_add_two_pi]

theorem prev_dir (nd k : Nat) (hk : k < nd) :
    rayDir2 nd (if k = 0 then nd - 1 else k - 1) = unitAt (rayAngle nd k - 2 * (Real.pi / nd)) := by
  have hn : (nd : ℝ) ≠ 0 := by exact_mod_cast (by omega : nd ≠ 0)
  show unitAt (rayAngle nd _) = _
  split
  · subst k
    rw [← unitAt_turn (rayAngle nd 0 - _)]; congr 1
    unfold rayAngle; rw [Nat.cast_sub (by omega)]; push_cast; field_simp; ring
  · congr 1
    unfold rayAngle; rw [Nat.cast_sub (by omega)]; push_cast; field_simp; ring

theorem next_dir (nd k : Nat) (hk : k < nd) :
    rayDir2 nd (if k + 1 ≥ nd then 0 else k + 1) = unitAt (rayAngle nd k + 2 * (Real.pi / nd)) := by
  have hn : (nd : ℝ) ≠ 0 := by exact_mod_cast (by omega : nd ≠ 0)
  show unitAt (rayAngle nd _) = _
  split
  · rw [← unitAt_turn (rayAngle nd 0)]; congr 1
    have : (nd : ℝ) = k + 1 := by exact_mod_cast (by omega : nd = k + 1)
    unfold rayAngle; rw [this] at hn ⊢; push_cast; field_simp; ring
  · congr 1
    unfold rayAngle; push_cast; field_simp; ring

/-- **C96** (what the reprojecting merge looks at): for upper ray `r` of `R` it looks from the upper probe at the point dividing in
the ratio `r + 1/2 : R - r - 1/2` the segment that spans the cone of this ray, whose ends lie at the far end of the
interval on the two bisectors with the neighbouring rays of the same probe (at the chord's distance). -/
theorem C96_cone (e : Env) (n : Nat) (p : ProbeIdx2) (U V r : Nat) (hk : p.dir < (e.rays n).dirs)
    (hr : r < upperTexelsPerRay e.cfg n) :
    ∃ w : ℝ, w = (r + 1 / 2) / upperTexelsPerRay e.cfg n ∧ 0 < w ∧ w < 1 ∧ ∀ i,
      ![(probePos U (n + 1) : ℝ), (probePos V (n + 1) : ℝ)] i + parallaxDir e n p U V r i =
        ![(probePos p.u n : ℝ), (probePos p.v n : ℝ)] i +
          ((intervalLength e.cfg e.l e.num n).2 : ℝ) * Real.cos (Real.pi / (e.rays n).dirs) *
            ((1 - w) * unitAt (rayAngle (e.rays n).dirs p.dir - Real.pi / (e.rays n).dirs) i +
              w * unitAt (rayAngle (e.rays n).dirs p.dir + Real.pi / (e.rays n).dirs) i) := by
  have hR : (0 : ℝ) < upperTexelsPerRay e.cfg n := by exact_mod_cast texels_pos e.cfg n
  have hr' : (r : ℝ) + 1 ≤ upperTexelsPerRay e.cfg n := by exact_mod_cast hr
  refine ⟨_, rfl, by positivity, by rw [div_lt_one hR]; linarith, fun i => ?_⟩
  have hp := prev_dir _ _ hk
  have hn := next_dir _ _ hk
  have h1 := unitAt_mid (rayAngle (e.rays n).dirs p.dir) (Real.pi / (e.rays n).dirs) i
  have h2 := unitAt_mid (rayAngle (e.rays n).dirs p.dir) (-(Real.pi / (e.rays n).dirs)) i
  rw [Real.cos_neg, sub_neg_eq_add, show rayAngle (e.rays n).dirs p.dir - 2 * -(Real.pi / (e.rays n).dirs) =
    rayAngle (e.rays n).dirs p.dir + 2 * (Real.pi / (e.rays n).dirs) by ring] at h2
  have hd : rayDir2 (e.rays n).dirs p.dir = unitAt (rayAngle (e.rays n).dirs p.dir) := rfl
  simp only [parallaxDir, cone, Env.ray, rayProps, invertDirection, hp, hn, hd]
  generalize unitAt (rayAngle (e.rays n).dirs p.dir) i = A at *
  generalize unitAt (rayAngle (e.rays n).dirs p.dir - 2 * (Real.pi / (e.rays n).dirs)) i = B at *
  generalize unitAt (rayAngle (e.rays n).dirs p.dir + 2 * (Real.pi / (e.rays n).dirs)) i = C at *
  generalize unitAt (rayAngle (e.rays n).dirs p.dir - Real.pi / (e.rays n).dirs) i = B' at *
  generalize unitAt (rayAngle (e.rays n).dirs p.dir + Real.pi / (e.rays n).dirs) i = C' at *
  generalize ((intervalLength e.cfg e.l e.num n).2 : ℝ) = L
  generalize Real.cos (Real.pi / (e.rays n).dirs) = K at *
  generalize ![(probePos p.u n : ℝ), (probePos p.v n : ℝ)] i = P
  have e1 : B = 2 * K * B' - A := by linarith
  have e2 : C = 2 * K * C' - A := by linarith
  rw [e1, e2]
  field_simp
  ring

/-- Non-vacuity: the configuration of the default build, a medium of source function 2, an upper cascade full of 2. -/
noncomputable def exEnv (mode : RcMode) : Env :=
  { cfg := ⟨2, 1, 0, 4, mode⟩, l := ⟨3 / 2, true, 20000⟩, c0 := ⟨8, 8, 4, 1, 1⟩, num := 2, march := fun _ => ⟨1, 1 / 2, 1⟩ }

example (c : Conf) : Compiles c (exEnv .all).cfg ∧
    (∀ r, SourceIn 2 2 ((exEnv .all).march r)) ∧
    InPass2 (exEnv .all).cfg ((exEnv .all).rays 0) 0 ⟨3, 4, 2, 0, 0⟩ ∧
    UpperIn (exEnv .all) 0 0 ⟨3, 4, 2, 0, 0⟩ (List.replicate 256 2) 2 2 ∧
    CurrentIn (exEnv .all) 0 ⟨3, 4, 2, 0, 0⟩ (List.replicate 256 1) (List.replicate 256 (Real.log 2)) 2 2 := by
  refine ⟨⟨⟨by simp [exEnv], by simp [exEnv, RcCfg.vary]⟩, by simp [exEnv], fun _ => rfl⟩, fun r => ?_, ?_, ?_, ?_⟩
  · simp only [exEnv, SourceIn]; norm_num
  · simp [exEnv, InPass2, Env.rays, storageToRays, cascadeSize, nthRaysSubset, numFlatRaysExponent, RcCfg.vary]
  · rintro ⟨u, v, d, i, w⟩ ⟨h1, h2, h3, h4, h5, h6⟩ - -
    simp [exEnv, Env.rays, storageToRays, cascadeSize, nthRaysSubset, numFlatRaysExponent, RcCfg.vary] at h1 h2 h3 h4 h6
    refine ⟨2, ?_, le_rfl, le_rfl⟩
    rw [List.getElem?_replicate, if_pos]
    simp [exEnv, probeLinearIndex, cascadeSize, numFlatRaysExponent, RcCfg.vary]
    omega
  · intro d hd
    simp [exEnv, Env.rays, storageToRays, cascadeSize, numFlatRaysExponent, RcCfg.vary] at hd
    have hi : probeLinearIndex (exEnv .all).cfg ((exEnv .all).rays 0) ⟨3, 4, d, 0, 0⟩ < 256 := by
      simp [exEnv, Env.rays, storageToRays, probeLinearIndex, cascadeSize, numFlatRaysExponent, RcCfg.vary]
      omega
    refine ⟨1, Real.log 2, by rw [List.getElem?_replicate, if_pos hi], by rw [List.getElem?_replicate, if_pos hi],
      (Real.log_pos (by norm_num)).le, ?_, ?_⟩ <;>
    · rw [Real.exp_neg, Real.exp_log (by norm_num)]; norm_num

/-- Non-vacuity of the last two: the default build has four upper rays per ray, and four rays per probe. -/
example : upperTexelsPerRay (exEnv .all).cfg 0 = 2 * 2 ∧ 0 < ((exEnv .all).rays 0).dirs ∧
    ((exEnv .all).rays 1).dirs = ((exEnv .all).rays 0).dirs * upperTexelsPerRay (exEnv .all).cfg 0 ∧
    ∀ d, d < ((exEnv .all).rays 0).dirs → ∃ x, (List.replicate 256 (1 : ℝ))[probeLinearIndex (exEnv .all).cfg
      ((exEnv .all).rays 0) { (⟨3, 4, 0, 0, 0⟩ : ProbeIdx2) with dir := d }]? = some x := by
  refine ⟨rfl, ?_, ?_, fun d hd => ⟨1, ?_⟩⟩
  · simp [exEnv, Env.rays, storageToRays, cascadeSize, numFlatRaysExponent, RcCfg.vary]
  · simp [exEnv, Env.rays, storageToRays, cascadeSize, numFlatRaysExponent, RcCfg.vary, upperTexelsPerRay]
  · simp [exEnv, Env.rays, storageToRays, cascadeSize, numFlatRaysExponent, RcCfg.vary] at hd
    rw [List.getElem?_replicate, if_pos]
    simp [exEnv, Env.rays, storageToRays, probeLinearIndex, cascadeSize, numFlatRaysExponent, RcCfg.vary]
    omega

end DexRT.Merges
