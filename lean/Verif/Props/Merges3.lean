import Verif.Spec.Merges3
import Verif.Lemmas.Merges
import Verif.Lemmas.FormalSol3
import Verif.Props.Dirs
/-!
**C99** The trilinear-fix merge of the 3D formal solution.
-/
namespace DexRT.Merges3
open DexRT DexRT.Fs DexRT.Dir
open DexRT.Merges (SourceIn sumLoop_between)

/-- the environment of the shared lemmas -/
noncomputable def Env.env3 (e : Env) : Env3 ℝ :=
  { cfg := e.cfg, c0 := e.c0, num := e.num, pp := false, probes := fun _ => ⟨false, ⟨0, 0, 0⟩, []⟩,
    march := fun _ n p => e.march (e.ray n p) }

theorem upperAvg_between (e : Env) (ho : Ok e) {n t : Nat} {p : ProbeIdx3}
    (hp : InPass3 e.cfg (cascadeComputeSize3 e.cfg e.c0 n) t p) {upper : List ℝ} {m M : ℝ} (hu : UpperIn e n t upper m M)
    {U V W : Nat} (hU : U < probesOn e.c0.np0 (n + 1)) (hV : V < probesOn e.c0.np1 (n + 1))
    (hW : W < probesOn e.c0.np2 (n + 1)) :
    ∃ x, upperAvg e n upper ((p.polar * (upperTexels3 e.cfg.branch).2 : Nat) : Int)
      ((p.az * (upperTexels3 e.cfg.branch).1 : Nat) : Int) U V W = .ok x ∧ m ≤ x ∧ x ≤ M := by
  obtain ⟨ha, hpo⟩ := And.intro ho.texAz ho.texPolar
  obtain ⟨T, hT⟩ : ∃ T : ℝ, T = (((upperTexels3 e.cfg.branch).1 * (upperTexels3 e.cfg.branch).2 : Nat) : ℝ) := ⟨_, rfl⟩
  have hT0 : 0 < T := by rw [hT]; exact_mod_cast Nat.mul_pos ha hpo
  unfold upperAvg
  simp only
  rw [← hT]
  obtain ⟨s, s1, s2, s3⟩ := sumLoop_between (fun q : Nat × Nat =>
      if 0 ≤ ((p.polar * (upperTexels3 e.cfg.branch).2 : Nat) : Int) ∧ 0 ≤ ((p.az * (upperTexels3 e.cfg.branch).1 : Nat) : Int)
      then do
        let x ← readAt upper (probeLinearIndex3 e.cfg (cascadeSize3 e.cfg.branch e.c0 (n + 1))
          { u := U, v := V, w := W, polar := (((p.polar * (upperTexels3 e.cfg.branch).2 : Nat) : Int)).toNat + q.1,
            az := (((p.az * (upperTexels3 e.cfg.branch).1 : Nat) : Int)).toNat + q.2 })
        .ok (1 / T * x)
      else .ub) (fun _ => 1 / T * m) (fun _ => 1 / T * M)
    ((List.range (upperTexels3 e.cfg.branch).2).flatMap fun i =>
      (List.range (upperTexels3 e.cfg.branch).1).map fun j => (i, j)) 0 (by
    rintro ⟨i, j⟩ hij
    simp only [List.mem_flatMap, List.mem_map, List.mem_range, Prod.mk.injEq] at hij
    obtain ⟨i, hi, j, hj, rfl, rfl⟩ := hij
    obtain ⟨x, x1, x2, x3⟩ := hu _ (child_pass3 e.env3 ⟨ho.az, ho.polar⟩ (t := t) (n := n) hp hU hV hW hi hj)
    refine ⟨1 / T * x, ?_, mul_le_mul_of_nonneg_left x2 (by positivity), mul_le_mul_of_nonneg_left x3 (by positivity)⟩
    rw [if_pos ⟨by omega, by omega⟩]
    simp only [Int.toNat_natCast]
    have x1' : upper[probeLinearIndex3 e.cfg (cascadeSize3 e.cfg.branch e.c0 (n + 1))
      { u := U, v := V, w := W, polar := p.polar * (upperTexels3 e.cfg.branch).2 + i,
        az := p.az * (upperTexels3 e.cfg.branch).1 + j }]? = some x := x1
    simp only [readAt]
    rw [x1']
    rfl)
  have hlen : ∀ c : ℝ, (((List.range (upperTexels3 e.cfg.branch).2).flatMap fun i =>
      (List.range (upperTexels3 e.cfg.branch).1).map fun j => (i, j)).map fun _ : Nat × Nat => 1 / T * c).sum = c := by
    intro c
    rw [List.map_const', List.sum_replicate, List.length_flatMap]
    simp only [List.length_map, List.length_range, List.map_const', List.sum_replicate, nsmul_eq_mul, smul_eq_mul]
    have : (((upperTexels3 e.cfg.branch).2 * (upperTexels3 e.cfg.branch).1 : Nat) : ℝ) = T := by rw [hT, Nat.mul_comm]
    rw [this, ← mul_assoc, mul_one_div_cancel hT0.ne', one_mul]
  rw [hlen, zero_add] at s2 s3
  exact ⟨s, s1, s2, s3⟩

theorem merged_between {m M : ℝ} {s : Seg ℝ} (hs : SourceIn m M s) {x : ℝ} (h1 : m ≤ x) (h2 : x ≤ M) :
    m ≤ s.I + s.T * x ∧ s.I + s.T * x ≤ M := by
  obtain ⟨t0, -, i0, i1⟩ := hs
  constructor <;> nlinarith

/-- **C99** (bounds): below the last cascade, for every ray of the pass, the merge reads only rays of the same pass of the cascade
above, never outside it, and with source functions between `m` and `M` along the marched rays and radiation between `m` and `M` in
the cascade above, the result is between `m` and `M`. -/
theorem C99_between (e : Env) (ho : Ok e) (n t : Nat) (hn : n < e.num) (ht : t < subsetTasks3 e.cfg) (p : ProbeIdx3)
    (hp : InPass3 e.cfg (cascadeComputeSize3 e.cfg e.c0 n) t p) (upper : List ℝ) (m M : ℝ) (hu : UpperIn e n t upper m M)
    (hmarch : ∀ r, SourceIn m M (e.march r)) :
    ∃ I, mergeTri e n (some upper) p = .ok I ∧ m ≤ I ∧ I ≤ M := by
  have hr : Rays3 e.env3 := ⟨ho.az, ho.polar⟩
  have hnp := np_probesOn3 e.cfg.branch e.c0 (n + 1)
  have hnp0 := np_probesOn3 e.cfg.branch e.c0 n
  have hsh := (C13_shapes_agree e.cfg ho.az ho.polar e.c0 n).1
  have hu0 : p.u < probesOn e.c0.np0 n := by
    have := hp.1; rw [hsh] at this
    rw [← hnp0.1]; unfold storageToRays3 at this; split at this <;> exact this
  have hv0 : p.v < probesOn e.c0.np1 n := by
    have := hp.2.1; rw [hsh] at this
    rw [← hnp0.2.1]; unfold storageToRays3 at this; split at this <;> exact this
  have hw0 : p.w < probesOn e.c0.np2 n := by
    have := hp.2.2.1; rw [hsh] at this
    rw [← hnp0.2.2]; unfold storageToRays3 at this; split at this <;> exact this
  have hcu := cornerN_lt hu0
  have hcv := cornerN_lt hv0
  have hcw := cornerN_lt hw0
  obtain ⟨ha0, hp0, haz, hpol⟩ := pass3_range e.env3 hr (n := n) hp ht
  obtain ⟨oa, op⟩ := ho.fits n hn
  have e1 : (cascadeSize3 e.cfg.branch e.c0 (n + 1)).az =
      (cascadeSize3 e.cfg.branch e.c0 n).az * (upperTexels3 e.cfg.branch).1 := by
    simp only [cascadeSize3, azFactor_succ]; ring
  have e2 : (cascadeSize3 e.cfg.branch e.c0 (n + 1)).polar =
      (cascadeSize3 e.cfg.branch e.c0 n).polar * (upperTexels3 e.cfg.branch).2 := by
    simp only [cascadeSize3, polarFactor_succ]; ring
  have sA : upperStart3 p.az (cascadeSize3 e.cfg.branch e.c0 (n + 1)).az (cascadeSize3 e.cfg.branch e.c0 n).az =
      .ok ((p.az * (upperTexels3 e.cfg.branch).1 : Nat) : Int) := by
    rw [e1] at oa ⊢
    exact upperStart_eq ha0 (le_trans (Nat.mul_le_mul_right _ (le_of_lt haz)) oa)
  have sP : upperStart3 p.polar (cascadeSize3 e.cfg.branch e.c0 (n + 1)).polar (cascadeSize3 e.cfg.branch e.c0 n).polar =
      .ok ((p.polar * (upperTexels3 e.cfg.branch).2 : Nat) : Int) := by
    rw [e2] at op ⊢
    exact upperStart_eq hp0 (le_trans (Nat.mul_le_mul_right _ (le_of_lt hpol)) op)
  have tri := trilinear_nat p.u p.v p.w _ _ _ hcu hcv hcw
  have hpw : ∀ u b, 0 ≤ pickW u b := by
    intro u b
    have := frac_pos u
    unfold pickW; cases b
    · exact this.1.le
    · show 0 ≤ 1 - fracN u; linarith
  obtain ⟨w, hw⟩ : ∃ w : Nat → ℝ, w = fun k =>
      ((pickW p.u (bitsOf k).1 * pickW p.v (bitsOf k).2.1 * pickW p.w (bitsOf k).2.2 : ℚ) : ℝ) := ⟨_, rfl⟩
  have hw1 : ((List.range 8).map w).sum = 1 := by
    rw [hw]
    simp only [List.range_succ, List.range_zero, List.nil_append, List.cons_append, List.map_cons, List.map_nil,
      List.sum_cons, List.sum_nil, bitsOf, pickW, if_true, if_false, Bool.false_eq_true]
    push_cast
    ring
  unfold mergeTri
  simp only
  rw [sP, Outcome.ok_bind, sA, Outcome.ok_bind, hnp.1, hnp.2.1, hnp.2.2]
  obtain ⟨s, s1, s2, s3⟩ := sumLoop_between (fun k =>
      let s := trilinearSample p.u p.v p.w (probesOn e.c0.np0 (n + 1) : Nat) (probesOn e.c0.np1 (n + 1) : Nat)
        (probesOn e.c0.np2 (n + 1) : Nat) k
      if 0 ≤ s.1.1 ∧ 0 ≤ s.1.2.1 ∧ 0 ≤ s.1.2.2 then do
        let ri := e.march (triRay e n p s.1.1.toNat s.1.2.1.toNat s.1.2.2.toNat)
        let x ← upperAvg e n upper ((p.polar * (upperTexels3 e.cfg.branch).2 : Nat) : Int)
          ((p.az * (upperTexels3 e.cfg.branch).1 : Nat) : Int) s.1.1.toNat s.1.2.1.toNat s.1.2.2.toNat
        .ok ((s.2 : ℝ) * (ri.I + ri.T * x))
      else .ub) (fun k => w k * m) (fun k => w k * M) (List.range 8) 0 (by
    intro k _
    have hU := pickC_lt hcu (bitsOf k).1
    have hV := pickC_lt hcv (bitsOf k).2.1
    have hW := pickC_lt hcw (bitsOf k).2.2
    obtain ⟨x, x1, x2, x3⟩ := upperAvg_between e ho hp hu hU hV hW
    have hb := merged_between (hmarch (triRay e n p (pickC (probesOn e.c0.np0 (n + 1)) p.u (bitsOf k).1) (pickC (probesOn e.c0.np1 (n + 1)) p.v (bitsOf k).2.1)
      (pickC (probesOn e.c0.np2 (n + 1)) p.w (bitsOf k).2.2))) x2 x3
    have hk : 0 ≤ w k := by
      rw [hw]; simp only; exact Rat.cast_nonneg.mpr (mul_nonneg (mul_nonneg (hpw _ _) (hpw _ _)) (hpw _ _))
    refine ⟨w k * ((e.march (triRay e n p (pickC (probesOn e.c0.np0 (n + 1)) p.u (bitsOf k).1) (pickC (probesOn e.c0.np1 (n + 1)) p.v (bitsOf k).2.1)
      (pickC (probesOn e.c0.np2 (n + 1)) p.w (bitsOf k).2.2))).I + (e.march (triRay e n p (pickC (probesOn e.c0.np0 (n + 1)) p.u (bitsOf k).1) (pickC (probesOn e.c0.np1 (n + 1)) p.v (bitsOf k).2.1)
      (pickC (probesOn e.c0.np2 (n + 1)) p.w (bitsOf k).2.2))).T * x), ?_, mul_le_mul_of_nonneg_left hb.1 hk, mul_le_mul_of_nonneg_left hb.2 hk⟩
    simp only [tri k]
    rw [if_pos ⟨by omega, by omega, by omega⟩]
    simp only [Int.toNat_natCast]
    rw [x1, Outcome.ok_bind, hw])
  refine ⟨s, s1, ?_, ?_⟩
  · rw [List.sum_map_mul_right, hw1] at s2; linarith
  · rw [List.sum_map_mul_right, hw1] at s3; linarith

theorem upperAvg_value (e : Env) (ho : Ok e) {n t : Nat} {p : ProbeIdx3}
    (hp : InPass3 e.cfg (cascadeComputeSize3 e.cfg e.c0 n) t p) {upper : List ℝ} {X : ProbeIdx3 → ℝ}
    (hu : ∀ q : ProbeIdx3, InPass3 e.cfg (cascadeComputeSize3 e.cfg e.c0 (n + 1)) t q →
      upper[probeLinearIndex3 e.cfg (cascadeSize3 e.cfg.branch e.c0 (n + 1)) q]? = some (X q))
    {U V W : Nat} (hU : U < probesOn e.c0.np0 (n + 1)) (hV : V < probesOn e.c0.np1 (n + 1))
    (hW : W < probesOn e.c0.np2 (n + 1)) :
    upperAvg e n upper ((p.polar * (upperTexels3 e.cfg.branch).2 : Nat) : Int)
      ((p.az * (upperTexels3 e.cfg.branch).1 : Nat) : Int) U V W = .ok
      ((∑ i ∈ Finset.range (upperTexels3 e.cfg.branch).2, ∑ j ∈ Finset.range (upperTexels3 e.cfg.branch).1,
            X { u := U, v := V, w := W, polar := p.polar * (upperTexels3 e.cfg.branch).2 + i,
                az := p.az * (upperTexels3 e.cfg.branch).1 + j }) /
            (((upperTexels3 e.cfg.branch).1 * (upperTexels3 e.cfg.branch).2 : Nat) : ℝ)) := by
  obtain ⟨T, hT⟩ : ∃ T : ℝ, T = (((upperTexels3 e.cfg.branch).1 * (upperTexels3 e.cfg.branch).2 : Nat) : ℝ) := ⟨_, rfl⟩
  unfold upperAvg
  simp only
  rw [← hT, sumLoop_ok _ (fun q : Nat × Nat => 1 / T * X
      (ProbeIdx3.mk U V W (p.polar * (upperTexels3 e.cfg.branch).2 + q.1) (p.az * (upperTexels3 e.cfg.branch).1 + q.2)))]
  · congr 1
    rw [zero_add, sum_flatMap_range]
    simp only [List.map_map, Function.comp_def, sum_map_range]
    simp only [← Finset.mul_sum]
    ring
  · rintro ⟨i, j⟩ hij
    simp only [List.mem_flatMap, List.mem_map, List.mem_range, Prod.mk.injEq] at hij
    obtain ⟨i, hi, j, hj, rfl, rfl⟩ := hij
    have x1 : upper[probeLinearIndex3 e.cfg (cascadeSize3 e.cfg.branch e.c0 (n + 1))
      { u := U, v := V, w := W, polar := p.polar * (upperTexels3 e.cfg.branch).2 + i,
        az := p.az * (upperTexels3 e.cfg.branch).1 + j }]? = some _ :=
      hu _ (child_pass3 e.env3 ⟨ho.az, ho.polar⟩ (t := t) (n := n) hp hU hV hW hi hj)
    rw [if_pos ⟨by omega, by omega⟩]
    simp only [Int.toNat_natCast]
    simp only [readAt]
    rw [x1]
    rfl

/-- **C99** (value): below the last cascade the merge computes exactly the weighted average of the specification: which probes of
the cascade above, with which weights, through which rays, entered with the mean of which of their rays. -/
theorem C99_value (e : Env) (ho : Ok e) (n t : Nat) (hn : n < e.num) (ht : t < subsetTasks3 e.cfg) (p : ProbeIdx3)
    (hp : InPass3 e.cfg (cascadeComputeSize3 e.cfg e.c0 n) t p) (upper : List ℝ) (X : ProbeIdx3 → ℝ)
    (hu : ∀ q : ProbeIdx3, InPass3 e.cfg (cascadeComputeSize3 e.cfg e.c0 (n + 1)) t q →
      upper[probeLinearIndex3 e.cfg (cascadeSize3 e.cfg.branch e.c0 (n + 1)) q]? = some (X q)) :
    mergeTri e n (some upper) p = .ok (value e n p X) := by
  have hr : Rays3 e.env3 := ⟨ho.az, ho.polar⟩
  have hnp := np_probesOn3 e.cfg.branch e.c0 (n + 1)
  have hnp0 := np_probesOn3 e.cfg.branch e.c0 n
  have hsh := (C13_shapes_agree e.cfg ho.az ho.polar e.c0 n).1
  have hu0 : p.u < probesOn e.c0.np0 n := by
    have := hp.1; rw [hsh] at this
    rw [← hnp0.1]; unfold storageToRays3 at this; split at this <;> exact this
  have hv0 : p.v < probesOn e.c0.np1 n := by
    have := hp.2.1; rw [hsh] at this
    rw [← hnp0.2.1]; unfold storageToRays3 at this; split at this <;> exact this
  have hw0 : p.w < probesOn e.c0.np2 n := by
    have := hp.2.2.1; rw [hsh] at this
    rw [← hnp0.2.2]; unfold storageToRays3 at this; split at this <;> exact this
  have hcu := cornerN_lt hu0
  have hcv := cornerN_lt hv0
  have hcw := cornerN_lt hw0
  obtain ⟨ha0, hp0, haz, hpol⟩ := pass3_range e.env3 hr (n := n) hp ht
  obtain ⟨oa, op⟩ := ho.fits n hn
  have e1 : (cascadeSize3 e.cfg.branch e.c0 (n + 1)).az =
      (cascadeSize3 e.cfg.branch e.c0 n).az * (upperTexels3 e.cfg.branch).1 := by
    simp only [cascadeSize3, azFactor_succ]; ring
  have e2 : (cascadeSize3 e.cfg.branch e.c0 (n + 1)).polar =
      (cascadeSize3 e.cfg.branch e.c0 n).polar * (upperTexels3 e.cfg.branch).2 := by
    simp only [cascadeSize3, polarFactor_succ]; ring
  have sA : upperStart3 p.az (cascadeSize3 e.cfg.branch e.c0 (n + 1)).az (cascadeSize3 e.cfg.branch e.c0 n).az =
      .ok ((p.az * (upperTexels3 e.cfg.branch).1 : Nat) : Int) := by
    rw [e1] at oa ⊢
    exact upperStart_eq ha0 (le_trans (Nat.mul_le_mul_right _ (le_of_lt haz)) oa)
  have sP : upperStart3 p.polar (cascadeSize3 e.cfg.branch e.c0 (n + 1)).polar (cascadeSize3 e.cfg.branch e.c0 n).polar =
      .ok ((p.polar * (upperTexels3 e.cfg.branch).2 : Nat) : Int) := by
    rw [e2] at op ⊢
    exact upperStart_eq hp0 (le_trans (Nat.mul_le_mul_right _ (le_of_lt hpol)) op)
  have tri := trilinear_nat p.u p.v p.w _ _ _ hcu hcv hcw
  unfold mergeTri
  simp only
  rw [sP, Outcome.ok_bind, sA, Outcome.ok_bind, hnp.1, hnp.2.1, hnp.2.2]
  unfold value
  generalize hG : (fun U V W => (e.march (triRay e n p U V W)).I + (e.march (triRay e n p U V W)).T *
          ((∑ i ∈ Finset.range (upperTexels3 e.cfg.branch).2, ∑ j ∈ Finset.range (upperTexels3 e.cfg.branch).1,
            X { u := U, v := V, w := W, polar := p.polar * (upperTexels3 e.cfg.branch).2 + i,
                az := p.az * (upperTexels3 e.cfg.branch).1 + j }) /
            (((upperTexels3 e.cfg.branch).1 * (upperTexels3 e.cfg.branch).2 : Nat) : ℝ))) = G
  rw [sumLoop_ok _ (fun k =>
    ((pickW p.u (bitsOf k).1 * pickW p.v (bitsOf k).2.1 * pickW p.w (bitsOf k).2.2 : ℚ) : ℝ) *
      G (pickC (probesOn e.c0.np0 (n + 1)) p.u (bitsOf k).1) (pickC (probesOn e.c0.np1 (n + 1)) p.v (bitsOf k).2.1)
        (pickC (probesOn e.c0.np2 (n + 1)) p.w (bitsOf k).2.2))]
  · congr 1
    show _ = ∑ U ∈ Finset.range (probesOn e.c0.np0 (n + 1)), ∑ V ∈ Finset.range (probesOn e.c0.np1 (n + 1)),
      ∑ W ∈ Finset.range (probesOn e.c0.np2 (n + 1)),
      (axisWeight (probesOn e.c0.np0 (n + 1)) p.u U : ℝ) * ((axisWeight (probesOn e.c0.np1 (n + 1)) p.v V : ℝ) *
        ((axisWeight (probesOn e.c0.np2 (n + 1)) p.w W : ℝ) * (fun U V W => (e.march (triRay e n p U V W)).I +
          (e.march (triRay e n p U V W)).T *
          ((∑ i ∈ Finset.range (upperTexels3 e.cfg.branch).2, ∑ j ∈ Finset.range (upperTexels3 e.cfg.branch).1,
            X { u := U, v := V, w := W, polar := p.polar * (upperTexels3 e.cfg.branch).2 + i,
                az := p.az * (upperTexels3 e.cfg.branch).1 + j }) /
            (((upperTexels3 e.cfg.branch).1 * (upperTexels3 e.cfg.branch).2 : Nat) : ℝ))) U V W))
    rw [hG]
    simp only [← Finset.mul_sum]
    rw [axis_sum_pick _ p.u hcu]
    simp only [axis_sum_pick _ p.v hcv, axis_sum_pick _ p.w hcw]
    simp only [List.range_succ, List.range_zero, List.nil_append, List.cons_append, List.map_cons, List.map_nil,
      List.sum_cons, List.sum_nil, bitsOf]
    push_cast
    ring
  · intro k _
    have hU := pickC_lt hcu (bitsOf k).1
    have hV := pickC_lt hcv (bitsOf k).2.1
    have hW := pickC_lt hcw (bitsOf k).2.2
    simp only [tri k]
    rw [if_pos ⟨by omega, by omega, by omega⟩]
    simp only [Int.toNat_natCast]
    rw [upperAvg_value e ho hp hu hU hV hW, Outcome.ok_bind, ← hG]

/-- **C99** (no cascade above): the merge gives what the march of the ray gives. -/
theorem C99_top (e : Env) (n : Nat) (p : ProbeIdx3) : mergeTri e n none p = .ok (e.march (e.ray n p)).I := rfl

/-- **C99** (joined rays): with ends that differ, the ray marched for an upper probe has unit direction, ends at the near end of
the ray it replaces, and starts on the axis of that ray's direction through the upper probe, at the distance where that
probe's interval starts. -/
theorem C99_joined (e : Env) (n : Nat) (p : ProbeIdx3) (U V W : Nat)
    (hne : (triRay e n p U V W).t1 ≠ 0) :
    (∀ i, (triRay e n p U V W).pt (triRay e n p U V W).t1 i = (e.ray n p).pt (e.ray n p).t1 i) ∧
    ∑ i, (triRay e n p U V W).d i ^ 2 = 1 ∧
    (∀ i, (triRay e n p U V W).pt (triRay e n p U V W).t0 i = pos U V W (n + 1) i -
      ((intervalLength3 e.l e.num n).2 : ℝ) * (e.ray n p).d i) := by
  obtain ⟨E, hE⟩ : ∃ E : Fin 3 → ℝ, E = fun i => (pos p.u p.v p.w n i - rayDir3 (e.npix n) p.az i * ((intervalLength3 e.l e.num n).1 : ℝ)) -
    (pos U V W (n + 1) i - rayDir3 (e.npix n) p.az i * ((intervalLength3 e.l e.num n).2 : ℝ)) := ⟨_, rfl⟩
  have ht : (triRay e n p U V W).t1 = Real.sqrt (E 0 ^ 2 + E 1 ^ 2 + E 2 ^ 2) := by rw [hE]; rfl
  have hd : ∀ i, (triRay e n p U V W).d i = E i * (1 / (triRay e n p U V W).t1) := by intro i; rw [ht, hE]; rfl
  obtain ⟨T, hT⟩ : ∃ T, T = (triRay e n p U V W).t1 := ⟨_, rfl⟩
  have hs : T ^ 2 = E 0 ^ 2 + E 1 ^ 2 + E 2 ^ 2 := by
    rw [hT, ht, Real.sq_sqrt (by positivity)]
  refine ⟨fun i => ?_, ?_, fun i => ?_⟩
  · unfold RaySeg.pt
    rw [hd, ← hT]
    rw [← hT] at hne
    have : T * (E i * (1 / T)) = E i := by field_simp
    rw [this, hE]
    show (pos U V W (n + 1) i - _) + _ = pos p.u p.v p.w n i + (-((intervalLength3 e.l e.num n).1 : ℝ)) * rayDir3 (e.npix n) p.az i
    ring
  · rw [Fin.sum_univ_three, hd, hd, hd, ← hT]
    rw [← hT] at hne
    field_simp
    linarith
  · unfold RaySeg.pt
    show (pos U V W (n + 1) i - rayDir3 (e.npix n) p.az i * _) + 0 * _ = _ - _ * rayDir3 (e.npix n) p.az i
    ring

/-- Non-vacuity: HEALPix set of twelve directions, branching by four, a medium of source function 2, an upper cascade full of 2. -/
noncomputable def exEnv : Env :=
  { cfg := ⟨.healpix 1, 12, 1, false⟩, c0 := ⟨8, 8, 8, 12, 1⟩, l := ⟨3 / 2, 2, true, 20000, 20000⟩, num := 2,
    march := fun _ => ⟨1, 1 / 2, 1⟩ }

example : Ok exEnv ∧ (0 : Nat) < exEnv.num ∧ 0 < subsetTasks3 exEnv.cfg ∧ (∀ r, SourceIn 2 2 (exEnv.march r)) ∧
    InPass3 exEnv.cfg (cascadeComputeSize3 exEnv.cfg exEnv.c0 0) 0 ⟨3, 4, 5, 0, 7⟩ ∧
    UpperIn exEnv 0 0 (List.replicate 3072 2) 2 2 := by
  refine ⟨⟨?_, ?_, ?_, ?_, ?_⟩, ?_, ?_, ?_, ?_, ?_⟩
  · simp [exEnv]
  · simp [exEnv]
  · simp [exEnv, upperTexels3]
  · simp [exEnv, upperTexels3]
  · intro n hn
    have : n = 0 ∨ n = 1 := by simp [exEnv] at hn; omega
    rcases this with rfl | rfl <;> decide
  · simp [exEnv]
  · simp [exEnv, subsetTasks3]
  · intro r; simp only [exEnv, SourceIn]; norm_num
  · unfold InPass3; decide
  · rintro ⟨u, v, w, a, b⟩ h
    refine ⟨2, ?_, le_rfl, le_rfl⟩
    have hlt := lin_lt3 exEnv.env3 ⟨by simp [exEnv, Env.env3], by simp [exEnv, Env.env3]⟩ (n := 1) (t := 0) h
    rw [List.getElem?_replicate, if_pos]
    have he : cascadeEntries3 (cascadeSize3 exEnv.cfg.branch exEnv.c0 1) = 3072 := by decide
    exact lt_of_lt_of_eq hlt he

/-- **C99** (length): with unit directions the ray has positive length unless the two probes are exactly as far apart as the interval
is long. -/
theorem C99_length (e : Env) (n : Nat) (p : ProbeIdx3) (U V W : Nat) (hd : ∑ i, (e.ray n p).d i ^ 2 = 1)
    (h : (triRay e n p U V W).t1 = 0) :
    ∑ i, (pos U V W (n + 1) i - pos p.u p.v p.w n i) ^ 2 =
      (((intervalLength3 e.l e.num n).2 : ℝ) - ((intervalLength3 e.l e.num n).1 : ℝ)) ^ 2 := by
  have hE := (Real.sqrt_eq_zero (by positivity)).mp (show Real.sqrt _ = 0 from h)
  change ∑ i, rayDir3 (e.npix n) p.az i ^ 2 = 1 at hd
  rw [Fin.sum_univ_three] at hd ⊢
  generalize rayDir3 (e.npix n) p.az = d at *
  generalize pos U V W (n + 1) = q at *
  generalize pos p.u p.v p.w n = r at *
  generalize ((intervalLength3 e.l e.num n).2 : ℝ) = b at *
  generalize ((intervalLength3 e.l e.num n).1 : ℝ) = a at *
  have h0 : ∀ i, (r i - d i * a - (q i - d i * b)) ^ 2 = 0 := by
    have k := fun i => sq_nonneg (r i - d i * a - (q i - d i * b))
    intro i
    have k0 := k 0; have k1 := k 1; have k2 := k 2
    fin_cases i <;> simp only [Fin.zero_eta, Fin.mk_one, Fin.reduceFinMk, Fin.isValue] <;> linarith
  have g : ∀ i, q i - r i = d i * (b - a) := by
    intro i
    have := pow_eq_zero_iff (two_ne_zero) |>.mp (h0 i)
    linarith
  rw [g, g, g]
  linear_combination (b - a) ^ 2 * hd

example : ∀ q : ProbeIdx3, InPass3 exEnv.cfg (cascadeComputeSize3 exEnv.cfg exEnv.c0 1) 0 q →
    ((List.range 3072).map fun i : Nat => (i : ℝ))[probeLinearIndex3 exEnv.cfg (cascadeSize3 exEnv.cfg.branch exEnv.c0 1) q]? =
      some ((probeLinearIndex3 exEnv.cfg (cascadeSize3 exEnv.cfg.branch exEnv.c0 1) q : Nat) : ℝ) := by
  intro q h
  have hlt := lin_lt3 exEnv.env3 ⟨by simp [exEnv, Env.env3], by simp [exEnv, Env.env3]⟩ (n := 1) (t := 0) h
  have he : cascadeEntries3 (cascadeSize3 exEnv.cfg.branch exEnv.c0 1) = 3072 := by decide
  have hlt' : probeLinearIndex3 exEnv.cfg (cascadeSize3 exEnv.cfg.branch exEnv.c0 1) q < 3072 := lt_of_lt_of_eq hlt he
  rw [List.getElem?_map, List.getElem?_range hlt']
  rfl

/-- Non-vacuity of `C99_joined` and `C99_length`: unit direction, positive length. -/
example : ∑ i, (exEnv.ray 0 ⟨3, 4, 5, 0, 0⟩).d i ^ 2 = 1 ∧ (triRay exEnv 0 ⟨3, 4, 5, 0, 0⟩ 1 1 2).t1 ≠ 0 := by
  have h1 : ∑ i, (exEnv.ray 0 ⟨3, 4, 5, 0, 0⟩).d i ^ 2 = 1 := by
    have hn : exEnv.npix 0 = 12 * 4 ^ 0 := by
      unfold Env.npix; decide
    show ∑ i, rayDir3 (exEnv.npix 0) 0 i ^ 2 = 1
    rw [hn]
    exact C76_unit3 0 0 (by norm_num) (by norm_num)
  refine ⟨h1, fun h => ?_⟩
  have := C99_length exEnv 0 _ 1 1 2 h1 h
  rw [Fin.sum_univ_three] at this
  simp [pos, exEnv, intervalLength3, probePos] at this
  norm_num at this

end DexRT.Merges3
