import Verif.Lemmas.FormalSol2c
/-! Helper lemmas for the 3D formal solution: one cascade. -/
namespace DexRT.Fs
open DexRT

variable {K : Type} [Field K] [CharZero K]

/-- corner of an axis: the nearer or the other -/
def pickC (N u : Nat) (b : Bool) : Nat := if b then corner2 N u else cornerN u

/-- weight of a corner of an axis -/
def pickW (u : Nat) (b : Bool) : ℚ := if b then 1 - fracN u else fracN u

/-- which corner each sample of the trilinear interpolation is -/
def bitsOf : Nat → Bool × Bool × Bool
  | 0 => (false, false, false)
  | 1 => (true, false, false)
  | 2 => (false, true, false)
  | 3 => (false, false, true)
  | 4 => (true, true, false)
  | 5 => (true, false, true)
  | 6 => (false, true, true)
  | _ => (true, true, true)

theorem trilinear_nat (u v w Nu Nv Nw : Nat) (hu : cornerN u < Nu) (hv : cornerN v < Nv) (hw : cornerN w < Nw)
    (k : Nat) :
    trilinearSample (u : Int) (v : Int) (w : Int) (Nu : Int) (Nv : Int) (Nw : Int) k =
      ((((pickC Nu u (bitsOf k).1 : Nat) : Int), ((pickC Nv v (bitsOf k).2.1 : Nat) : Int),
        ((pickC Nw w (bitsOf k).2.2 : Nat) : Int)),
        pickW u (bitsOf k).1 * pickW v (bitsOf k).2.1 * pickW w (bitsOf k).2.2) := by
  have e0 : ∀ N c : Nat, cornerN c < N → min ((cornerN c : Nat) : Int) ((N : Int) - 1) = ((cornerN c : Nat) : Int) := by
    intro N c h; omega
  have e1 : ∀ N c : Nat, cornerN c < N → min (((cornerN c : Nat) : Int) + 1) ((N : Int) - 1) = ((corner2 N c : Nat) : Int) := by
    intro N c h
    unfold corner2
    split <;> omega
  simp only [trilinearSample, cornerAxis_nat, trilinearCoord]
  match k with
  | 0 => simp [bitsOf, pickC, pickW, trilinearWeight, fracN, e0 _ _ hu, e0 _ _ hv, e0 _ _ hw]
  | 1 => simp [bitsOf, pickC, pickW, trilinearWeight, fracN, e1 _ _ hu, e0 _ _ hv, e0 _ _ hw]
  | 2 => simp [bitsOf, pickC, pickW, trilinearWeight, fracN, e0 _ _ hu, e1 _ _ hv, e0 _ _ hw]
  | 3 => simp [bitsOf, pickC, pickW, trilinearWeight, fracN, e0 _ _ hu, e0 _ _ hv, e1 _ _ hw]
  | 4 => simp [bitsOf, pickC, pickW, trilinearWeight, fracN, e1 _ _ hu, e1 _ _ hv, e0 _ _ hw]
  | 5 => simp [bitsOf, pickC, pickW, trilinearWeight, fracN, e1 _ _ hu, e0 _ _ hv, e1 _ _ hw]
  | 6 => simp [bitsOf, pickC, pickW, trilinearWeight, fracN, e0 _ _ hu, e1 _ _ hv, e1 _ _ hw]
  | k + 7 => simp [bitsOf, pickC, pickW, trilinearWeight, fracN, e1 _ _ hu, e1 _ _ hv, e1 _ _ hw]

theorem pickC_lt {N u : Nat} (h : cornerN u < N) (b : Bool) : pickC N u b < N := by
  unfold pickC; cases b
  · exact h
  · exact corner2_lt h

theorem pickW_ne {N u : Nat} (h : cornerN u < N) (b : Bool) (hw : pickW u b ≠ 0) : axisWeight N u (pickC N u b) ≠ 0 := by
  unfold pickC pickW at *
  cases b
  · exact axisWeight_corner h
  · simp only [if_true] at hw ⊢
    exact axisWeight_corner2 h (fun h' => hw (by rw [h']; norm_num))

theorem axisWeight_pick {N u U : Nat} (h : cornerN u < N) (hne : axisWeight N u U ≠ 0) :
    ∃ b, U = pickC N u b ∧ pickW u b ≠ 0 := by
  rw [axisWeight_eq N u U h] at hne
  by_cases h1 : U = cornerN u
  · exact ⟨false, h1, ne_of_gt (frac_pos u).1⟩
  · rw [if_neg h1, zero_add] at hne
    by_cases h2 : U = corner2 N u
    · rw [if_pos h2] at hne; exact ⟨true, h2, hne⟩
    · rw [if_neg h2] at hne; exact absurd rfl hne

theorem np_probesOn3 (b : Branch3) (c0 : Casc3) (n : Nat) :
    (cascadeSize3 b c0 n).np0 = probesOn c0.np0 n ∧ (cascadeSize3 b c0 n).np1 = probesOn c0.np1 n ∧
    (cascadeSize3 b c0 n).np2 = probesOn c0.np2 n := by
  simp [cascadeSize3, probesOn, Nat.shiftRight_eq_div_pow]

/-- the value of ray `p` of cascade `n` -/
def val3 (e : Env3 K) (n : Nat) (p : ProbeIdx3) : K :=
  radiance3 e.march e.c0.np0 e.c0.np1 e.c0.np2 (upperTexels3 e.cfg.branch).1 (upperTexels3 e.cfg.branch).2 e.num
    (e.num - n) p

/-- a ray of pass `t` of cascade `n` -/
abbrev Pass3 (e : Env3 K) (t n : Nat) (p : ProbeIdx3) : Prop :=
  InPass3 e.cfg (cascadeComputeSize3 e.cfg e.c0 n) t p

/-- at least one direction per axis in cascade 0 -/
def Rays3 (e : Env3 K) : Prop := 0 < e.cfg.c0az ∧ 0 < e.cfg.c0polar

omit [CharZero K] in
theorem pass3_range (e : Env3 K) (hr : Rays3 e) {t n : Nat} {p : ProbeIdx3} (hp : Pass3 e t n p)
    (ht : t < subsetTasks3 e.cfg) :
    0 < (cascadeSize3 e.cfg.branch e.c0 n).az ∧ 0 < (cascadeSize3 e.cfg.branch e.c0 n).polar ∧
    p.az < (cascadeComputeSize3 e.cfg e.c0 n).az ∧ p.polar < (cascadeComputeSize3 e.cfg e.c0 n).polar := by
  obtain ⟨-, -, -, h1, h2, h3, h4⟩ := hp
  rw [(C13_shapes_agree e.cfg hr.1 hr.2 e.c0 n).1] at *
  unfold nthRaysSubset3 storageToRays3 at *
  unfold subsetTasks3 at ht
  by_cases hd : e.cfg.dirByDir = true
  · simp only [hd, if_true, Nat.mul_div_cancel _ hr.1, Nat.mul_div_cancel _ hr.2] at *
    generalize (cascadeSize3 e.cfg.branch e.c0 n).az = A at *
    generalize (cascadeSize3 e.cfg.branch e.c0 n).polar = P at *
    have hq : t / e.cfg.c0az < e.cfg.c0polar := by
      rw [Nat.div_lt_iff_lt_mul hr.1, Nat.mul_comm]; exact ht
    have hm : t - t / e.cfg.c0az * e.cfg.c0az < e.cfg.c0az := by
      have := Nat.mod_add_div t e.cfg.c0az
      have h5 := Nat.mod_lt t hr.1
      rw [Nat.mul_comm] at this
      omega
    refine ⟨by omega, by omega, ?_, ?_⟩
    · calc p.az < (t - t / e.cfg.c0az * e.cfg.c0az) * A + A := h2
        _ = (t - t / e.cfg.c0az * e.cfg.c0az + 1) * A := by ring
        _ ≤ e.cfg.c0az * A := Nat.mul_le_mul_right _ hm
        _ = A * e.cfg.c0az := by ring
    · calc p.polar < (t / e.cfg.c0az) * P + P := h4
        _ = (t / e.cfg.c0az + 1) * P := by ring
        _ ≤ e.cfg.c0polar * P := Nat.mul_le_mul_right _ hq
        _ = P * e.cfg.c0polar := by ring
  · simp only [hd] at *
    simp only [Bool.false_eq_true, if_false] at *
    omega

theorem upperStart_eq {i D T : Nat} (hD : 0 < D) (h : i * (D * T) ≤ 2147483647) :
    upperStart3 i (D * T) D = .ok ((i * T : Nat) : Int) := by
  have hf : fitsI32 ((i : Int) * ((D * T : Nat) : Int)) = true := by
    rw [fitsI32_iff]
    have h1 : ((i * (D * T) : Nat) : Int) ≤ 2147483647 := by exact_mod_cast h
    have h2 : (0 : Int) ≤ ((i * (D * T) : Nat) : Int) := Int.natCast_nonneg _
    rw [Nat.cast_mul] at h1 h2
    omega
  simp only [upperStart3, mulI32, hf, if_true, Outcome.ok_bind]
  have e : (i : Int) * ((D * T : Nat) : Int) = ((i * T : Nat) : Int) * (D : Int) := by
    push_cast; ring
  rw [e, Int.mul_tdiv_cancel]
  omega

omit [CharZero K] in
theorem child_pass3 (e : Env3 K) (hr : Rays3 e) {t n : Nat} {p : ProbeIdx3} (hp : Pass3 e t n p) {U V W i j : Nat}
    (hU : U < probesOn e.c0.np0 (n + 1)) (hV : V < probesOn e.c0.np1 (n + 1)) (hW : W < probesOn e.c0.np2 (n + 1))
    (hi : i < (upperTexels3 e.cfg.branch).2) (hj : j < (upperTexels3 e.cfg.branch).1) :
    Pass3 e t (n + 1) { u := U, v := V, w := W, polar := p.polar * (upperTexels3 e.cfg.branch).2 + i,
                        az := p.az * (upperTexels3 e.cfg.branch).1 + j } := by
  obtain ⟨-, -, -, h1, h2, h3, h4⟩ := hp
  have hc := C14_children_in_pass3 e.cfg hr.1 hr.2 e.c0 n t p.az p.polar j i hj hi ⟨h1, h2, h3, h4⟩
  have hn := np_probesOn3 e.cfg.branch e.c0 (n + 1)
  refine ⟨?_, ?_, ?_, hc.1, hc.2.1, hc.2.2.1, hc.2.2.2⟩
  · show U < (cascadeSize3 e.cfg.branch e.c0 (n + 1)).np0; rw [hn.1]; exact hU
  · show V < (cascadeSize3 e.cfg.branch e.c0 (n + 1)).np1; rw [hn.2.1]; exact hV
  · show W < (cascadeSize3 e.cfg.branch e.c0 (n + 1)).np2; rw [hn.2.2]; exact hW

omit [CharZero K] in
theorem lin_lt3 (e : Env3 K) (hr : Rays3 e) {t n : Nat} {p : ProbeIdx3} (hp : Pass3 e t n p) :
    probeLinearIndex3 e.cfg (cascadeSize3 e.cfg.branch e.c0 n) p < cascadeEntries3 (cascadeSize3 e.cfg.branch e.c0 n) := by
  have hs := (C13_shapes_agree e.cfg hr.1 hr.2 e.c0 n).1
  exact (C13_storage e.cfg hr.1 hr.2 (cascadeSize3 e.cfg.branch e.c0 n) t).1 p (by rw [← hs]; exact hp)

omit [CharZero K] in
theorem lin_inj3 (e : Env3 K) (hr : Rays3 e) {t n : Nat} {p q : ProbeIdx3} (hp : Pass3 e t n p) (hq : Pass3 e t n q)
    (h : probeLinearIndex3 e.cfg (cascadeSize3 e.cfg.branch e.c0 n) p =
      probeLinearIndex3 e.cfg (cascadeSize3 e.cfg.branch e.c0 n) q) : p = q := by
  have hs := (C13_shapes_agree e.cfg hr.1 hr.2 e.c0 n).1
  obtain ⟨r, -, -, hr'⟩ := (C13_storage e.cfg hr.1 hr.2 (cascadeSize3 e.cfg.branch e.c0 n) t).2 _ (lin_lt3 e hr hp)
  rw [hr' p (by rw [← hs]; exact hp) rfl, hr' q (by rw [← hs]; exact hq) h.symm]

/-- the buffer holds cascade `n` of the pass -/
def Holds3 (e : Env3 K) (t n : Nat) (buf : List K) : Prop :=
  ∀ p, Listed3 e n p.u p.v p.w → Pass3 e t n p →
    buf[probeLinearIndex3 e.cfg (cascadeSize3 e.cfg.branch e.c0 n) p]? = some (val3 e n p)

theorem sum_flatMap_range {M : Type} [AddCommMonoid M] {α : Type} (n : Nat) (f : Nat → List α) (g : α → M) :
    (((List.range n).flatMap f).map g).sum = ∑ i ∈ Finset.range n, ((f i).map g).sum := by
  induction n with
  | zero => simp
  | succ n ih =>
    rw [List.range_succ, List.flatMap_append, List.map_append, List.sum_append, ih, Finset.sum_range_succ]
    simp

theorem axis_sum_pick (N u : Nat) (hc : cornerN u < N) (g : Nat → K) :
    ∑ U ∈ Finset.range N, (axisWeight N u U : K) * g U =
      (pickW u false : K) * g (pickC N u false) + (pickW u true : K) * g (pickC N u true) := by
  rw [axis_sum N u hc]
  unfold pickC pickW
  simp

theorem interp3_ok (e : Env3 K) (hr : Rays3 e) (ho : NoOverflow3 e) (hp : Probes3Ok e)
    {t n : Nat} (hn : n < e.num) (ht : t < subsetTasks3 e.cfg) {p : ProbeIdx3} (hl : Listed3 e n p.u p.v p.w)
    (hpass : Pass3 e t n p) (upper : List K)
    (hlen : cascadeEntries3 (cascadeSize3 e.cfg.branch e.c0 (n + 1)) ≤ upper.length)
    (hold : Holds3 e t (n + 1) upper) :
    interp3 e n p upper = .ok
      (∑ U ∈ Finset.range (probesOn e.c0.np0 (n + 1)), ∑ V ∈ Finset.range (probesOn e.c0.np1 (n + 1)),
        ∑ W ∈ Finset.range (probesOn e.c0.np2 (n + 1)),
        ((axisWeight (probesOn e.c0.np0 (n + 1)) p.u U * axisWeight (probesOn e.c0.np1 (n + 1)) p.v V *
          axisWeight (probesOn e.c0.np2 (n + 1)) p.w W : ℚ) : K) *
          ((∑ i ∈ Finset.range (upperTexels3 e.cfg.branch).2, ∑ j ∈ Finset.range (upperTexels3 e.cfg.branch).1,
            val3 e (n + 1) { u := U, v := V, w := W, polar := p.polar * (upperTexels3 e.cfg.branch).2 + i,
                             az := p.az * (upperTexels3 e.cfg.branch).1 + j }) /
            (((upperTexels3 e.cfg.branch).1 * (upperTexels3 e.cfg.branch).2 : Nat) : K))) := by
  have hnp := np_probesOn3 e.cfg.branch e.c0 (n + 1)
  have hnp0 := np_probesOn3 e.cfg.branch e.c0 n
  have hu0 : p.u < probesOn e.c0.np0 n := by
    have := hpass.1; rw [(C13_shapes_agree e.cfg hr.1 hr.2 e.c0 n).1] at this
    rw [← hnp0.1]; unfold storageToRays3 at this; split at this <;> exact this
  have hv0 : p.v < probesOn e.c0.np1 n := by
    have := hpass.2.1; rw [(C13_shapes_agree e.cfg hr.1 hr.2 e.c0 n).1] at this
    rw [← hnp0.2.1]; unfold storageToRays3 at this; split at this <;> exact this
  have hw0 : p.w < probesOn e.c0.np2 n := by
    have := hpass.2.2.1; rw [(C13_shapes_agree e.cfg hr.1 hr.2 e.c0 n).1] at this
    rw [← hnp0.2.2]; unfold storageToRays3 at this; split at this <;> exact this
  have hcu := cornerN_lt hu0
  have hcv := cornerN_lt hv0
  have hcw := cornerN_lt hw0
  obtain ⟨ha0, hp0, haz, hpol⟩ := pass3_range e hr hpass ht
  obtain ⟨oa, op⟩ := ho n hn
  have e1 : (cascadeSize3 e.cfg.branch e.c0 (n + 1)).az =
      (cascadeSize3 e.cfg.branch e.c0 n).az * (upperTexels3 e.cfg.branch).1 := by
    simp only [cascadeSize3, azFactor_succ]; ring
  have e2 : (cascadeSize3 e.cfg.branch e.c0 (n + 1)).polar =
      (cascadeSize3 e.cfg.branch e.c0 n).polar * (upperTexels3 e.cfg.branch).2 := by
    simp only [cascadeSize3, polarFactor_succ]; ring
  have sA : upperStart3 p.az (cascadeSize3 e.cfg.branch e.c0 (n + 1)).az (cascadeSize3 e.cfg.branch e.c0 n).az =
      .ok ((p.az * (upperTexels3 e.cfg.branch).1 : Nat) : Int) := by
    rw [e1] at oa ⊢
    exact upperStart_eq ha0 (le_trans (Nat.mul_le_mul_right _ (le_of_lt haz)) oa)
  have sP : upperStart3 p.polar (cascadeSize3 e.cfg.branch e.c0 (n + 1)).polar (cascadeSize3 e.cfg.branch e.c0 n).polar =
      .ok ((p.polar * (upperTexels3 e.cfg.branch).2 : Nat) : Int) := by
    rw [e2] at op ⊢
    exact upperStart_eq hp0 (le_trans (Nat.mul_le_mul_right _ (le_of_lt hpol)) op)
  set Nu := probesOn e.c0.np0 (n + 1) with hNu
  set Nv := probesOn e.c0.np1 (n + 1) with hNv
  set Nw := probesOn e.c0.np2 (n + 1) with hNw
  set ta := (upperTexels3 e.cfg.branch).1 with hta
  set tp := (upperTexels3 e.cfg.branch).2 with htp
  let q : Nat → Nat → Nat → Nat → Nat → ProbeIdx3 := fun U V W i j =>
    { u := U, v := V, w := W, polar := p.polar * tp + i, az := p.az * ta + j }
  let S : Nat → Nat → Nat → K := fun U V W =>
    (∑ i ∈ Finset.range tp, ∑ j ∈ Finset.range ta, val3 e (n + 1) (q U V W i j)) / ((ta * tp : Nat) : K)
  have tri := trilinear_nat p.u p.v p.w Nu Nv Nw hcu hcv hcw
  have term : ∀ k i j, i < tp → j < ta →
      upperTerm3 e n p upper ((p.polar * tp : Nat) : Int) ((p.az * ta : Nat) : Int) k i j =
        .ok (1 / ((ta * tp : Nat) : K) *
          ((pickW p.u (bitsOf k).1 * pickW p.v (bitsOf k).2.1 * pickW p.w (bitsOf k).2.2 : ℚ) : K) *
          val3 e (n + 1) (q (pickC Nu p.u (bitsOf k).1) (pickC Nv p.v (bitsOf k).2.1) (pickC Nw p.w (bitsOf k).2.2) i j)) := by
    intro k i j hi hj
    set U := pickC Nu p.u (bitsOf k).1
    set V := pickC Nv p.v (bitsOf k).2.1
    set W := pickC Nw p.w (bitsOf k).2.2
    have hU : U < Nu := pickC_lt hcu _
    have hV : V < Nv := pickC_lt hcv _
    have hW : W < Nw := pickC_lt hcw _
    have hq : Pass3 e t (n + 1) (q U V W i j) := child_pass3 e hr hpass hU hV hW hi hj
    have hlin := lin_lt3 e hr hq
    unfold upperTerm3
    simp only [hnp.1, hnp.2.1, hnp.2.2]
    rw [tri k]
    simp only
    rw [if_pos ⟨by omega, by omega, by omega, by omega, by omega⟩]
    simp only [Int.toNat_natCast]
    have hget : upper[probeLinearIndex3 e.cfg (cascadeSize3 e.cfg.branch e.c0 (n + 1)) (q U V W i j)]? =
        some (upper[probeLinearIndex3 e.cfg (cascadeSize3 e.cfg.branch e.c0 (n + 1)) (q U V W i j)]'(by omega)) :=
      List.getElem?_eq_getElem _
    rw [readAt_ok hget, Outcome.ok_bind]
    by_cases hw0 : pickW p.u (bitsOf k).1 * pickW p.v (bitsOf k).2.1 * pickW p.w (bitsOf k).2.2 = 0
    · rw [hw0]; simp
    · have h1 := left_ne_zero_of_mul (left_ne_zero_of_mul hw0)
      have h2 := right_ne_zero_of_mul (left_ne_zero_of_mul hw0)
      have h3 := right_ne_zero_of_mul hw0
      have := hold (q U V W i j) (hp.closed n hn p.u p.v p.w hl U V W hU hV hW (pickW_ne hcu _ h1) (pickW_ne hcv _ h2)
        (pickW_ne hcw _ h3)) hq
      rw [hget] at this
      injection this with this
      rw [this]
  unfold interp3
  simp only
  rw [sP, Outcome.ok_bind, sA, Outcome.ok_bind]
  rw [sumLoop_ok _ (fun x : Nat × Nat × Nat => 1 / ((ta * tp : Nat) : K) *
      ((pickW p.u (bitsOf x.1).1 * pickW p.v (bitsOf x.1).2.1 * pickW p.w (bitsOf x.1).2.2 : ℚ) : K) *
      val3 e (n + 1) (q (pickC Nu p.u (bitsOf x.1).1) (pickC Nv p.v (bitsOf x.1).2.1) (pickC Nw p.w (bitsOf x.1).2.2)
        x.2.1 x.2.2))]
  · congr 1
    rw [zero_add, sum_flatMap_range]
    have inner : ∀ k, (((List.range tp).flatMap fun i => (List.range ta).map fun j => ((k, i, j) : Nat × Nat × Nat)).map
        (fun x : Nat × Nat × Nat => 1 / ((ta * tp : Nat) : K) *
          ((pickW p.u (bitsOf x.1).1 * pickW p.v (bitsOf x.1).2.1 * pickW p.w (bitsOf x.1).2.2 : ℚ) : K) *
          val3 e (n + 1) (q (pickC Nu p.u (bitsOf x.1).1) (pickC Nv p.v (bitsOf x.1).2.1)
            (pickC Nw p.w (bitsOf x.1).2.2) x.2.1 x.2.2))).sum =
        ((pickW p.u (bitsOf k).1 * pickW p.v (bitsOf k).2.1 * pickW p.w (bitsOf k).2.2 : ℚ) : K) *
          S (pickC Nu p.u (bitsOf k).1) (pickC Nv p.v (bitsOf k).2.1) (pickC Nw p.w (bitsOf k).2.2) := by
      intro k
      rw [sum_flatMap_range]
      simp only [List.map_map, Function.comp_def, sum_map_range]
      simp only [← Finset.mul_sum]
      simp only [S]
      ring
    rw [Finset.sum_congr rfl fun k _ => inner k]
    show _ = ∑ U ∈ Finset.range Nu, ∑ V ∈ Finset.range Nv, ∑ W ∈ Finset.range Nw,
      ((axisWeight Nu p.u U * axisWeight Nv p.v V * axisWeight Nw p.w W : ℚ) : K) * S U V W
    have f3 : ∀ U V, ∑ W ∈ Finset.range Nw,
        ((axisWeight Nu p.u U * axisWeight Nv p.v V * axisWeight Nw p.w W : ℚ) : K) * S U V W =
        (axisWeight Nu p.u U : K) * ((axisWeight Nv p.v V : K) *
          ∑ W ∈ Finset.range Nw, (axisWeight Nw p.w W : K) * S U V W) := by
      intro U V
      rw [Finset.mul_sum, Finset.mul_sum]
      exact Finset.sum_congr rfl fun W _ => by push_cast; ring
    simp only [f3, ← Finset.mul_sum]
    rw [axis_sum_pick Nu p.u hcu]
    simp only [axis_sum_pick Nv p.v hcv, axis_sum_pick Nw p.w hcw]
    simp only [Finset.sum_range_succ, Finset.sum_range_zero, zero_add, bitsOf]
    push_cast
    ring
  · intro x hx
    simp only [List.mem_flatMap, List.mem_range, List.mem_map] at hx
    obtain ⟨k, hk, i, hi, j, hj, rfl⟩ := hx
    exact term k i j hi hj

end DexRT.Fs
