import Verif.Lemmas.MeanJ2
/-! Helper lemmas for the mean intensity in 3D, and sums over passes. -/
namespace DexRT

variable {K : Type} [Field K] [CharZero K]

/-- The probes of a 3D run: number `i` is the cell stored in column `i` of J. -/
theorem run3_probes {e : MergeEnv3} {k nx ny nz : Nat} {Active : Coord3 → Prop} (h : Run3 e k nx ny nz Active) :
    ∃ f : Nat → Coord3, e.P.num = .ok (jCols3 e k nx ny nz) ∧ 0 ≤ jCols3 e k nx ny nz ∧
      (∀ i : Nat, (i : Int) < jCols3 e k nx ny nz → e.P.coord i = .ok (f i) ∧ e.ks (f i) = .ok (i : Int) ∧
        Computed3 e k nx ny nz Active (f i) ∧ JAddr3 e (f i) i ∧
        0 ≤ (f i).x ∧ (f i).x < ((nx * 2 ^ k : Nat) : Int) ∧ 0 ≤ (f i).y ∧ (f i).y < ((ny * 2 ^ k : Nat) : Int) ∧
        0 ≤ (f i).z ∧ (f i).z < ((nz * 2 ^ k : Nat) : Int)) ∧
      ∀ c, Computed3 e k nx ny nz Active c → ∃ a : Nat, (a : Int) < jCols3 e k nx ny nz ∧ f a = c ∧
        ∀ a', JAddr3 e c a' ↔ a' = a := by
  by_cases hs : e.P.sparse = true
  · have hl := h.active hs
    obtain ⟨hlen, hget⟩ := c0List3_get k nx ny nz Active e.bm h.axes.1 h.axes.2.1 h.axes.2.2 h.map e.P.active hl
    obtain ⟨l', hl', -, hmem⟩ := c0List3_spec k nx ny nz Active e.bm h.axes.1 h.axes.2.1 h.axes.2.2 h.map
    have hll : l' = e.P.active := by rw [hl] at hl'; injection hl' with hl'; exact hl'.symm
    subst hll
    have hcols : jCols3 e k nx ny nz = e.P.active.length := by
      unfold jCols3; rw [if_pos hs]; exact hlen.symm
    refine ⟨fun i => (e.P.active[i]?).getD {}, ?_, by rw [hcols]; omega, fun i hi => ?_, fun c hc => ?_⟩
    · unfold Probes3.num; rw [if_pos hs, hcols]
    · rw [hcols] at hi
      have hi' : i < e.P.active.length := by omega
      have hgi : e.P.active[i]? = some e.P.active[i] := List.getElem?_eq_getElem hi'
      obtain ⟨hd, s', hidx⟩ := hget i _ hgi
      have hbox := hasData3_box _ _ _ _ _ _ hd
      simp only [hgi, Option.getD_some]
      refine ⟨?_, ?_, ?_, ?_, hbox⟩
      · unfold Probes3.coord; rw [if_pos hs, hgi]
      · unfold MergeEnv3.ks; rw [if_pos hs, h.block, hidx]; rfl
      · unfold Computed3; rw [if_pos hs]; exact hd
      · unfold JAddr3; rw [if_pos hs, h.block]; exact ⟨s', hidx⟩
    · unfold Computed3 at hc; rw [if_pos hs] at hc
      obtain ⟨i, hi, rfl⟩ := List.mem_iff_getElem.1 ((hmem c).2 hc)
      have hgi : e.P.active[i]? = some e.P.active[i] := List.getElem?_eq_getElem hi
      obtain ⟨hd, s', hidx⟩ := hget i _ hgi
      refine ⟨i, by rw [hcols]; omega, by simp [hgi], fun a' => ?_⟩
      unfold JAddr3; rw [if_pos hs, h.block]
      constructor
      · rintro ⟨s'', h2⟩
        rw [hidx] at h2; injection h2 with h2
        have := congrArg Prod.fst h2
        simp only at this; omega
      · rintro rfl; exact ⟨s', hidx⟩
  · have hcols : jCols3 e k nx ny nz =
        ((nx * 2 ^ k : Nat) : Int) * ((ny * 2 ^ k : Nat) : Int) * ((nz * 2 ^ k : Nat) : Int) := by
      unfold jCols3; rw [if_neg hs]; push_cast; ring
    have hcl := h.cells
    have hk : 0 < 2 ^ k := Nat.two_pow_pos k
    have hW0 : 0 < nx * 2 ^ k := Nat.mul_pos h.some_cells.1 hk
    have hD0 : 0 < ny * 2 ^ k := Nat.mul_pos h.some_cells.2.1 hk
    have hH0 : 0 < nz * 2 ^ k := Nat.mul_pos h.some_cells.2.2 hk
    have hP := h.probes
    generalize hW : nx * 2 ^ k = W at *
    generalize hD : ny * 2 ^ k = D at *
    generalize hH : nz * 2 ^ k = H at *
    have hPx : e.P.np.x = (W : Int) := by rw [hP]
    have hPy : e.P.np.y = (D : Int) := by rw [hP]
    have hPz : e.P.np.z = (H : Int) := by rw [hP]
    have hWDH : (W : Int) * D * H = ((W * D * H : Nat) : Int) := by push_cast; ring
    rw [hWDH] at hcl hcols
    have hWD : W * D ≤ W * D * H := Nat.le_mul_of_pos_right _ hH0
    have hDH : D * H ≤ W * D * H := by
      rw [Nat.mul_assoc]; exact Nat.le_mul_of_pos_left _ hW0
    have eWD : (W : Int) * D = ((W * D : Nat) : Int) := by push_cast; ring
    unfold i32Max at hcl
    have hstride : mulI32 (W : Int) D = .ok ((W * D : Nat) : Int) := by
      unfold mulI32; rw [eWD, if_pos]; rw [fitsI32_iff]; omega
    refine ⟨fun i => { x := (i % W : Nat), y := (i / W % D : Nat), z := (i / W / D : Nat) }, ?_,
      by rw [hcols]; omega, fun i hi => ?_, fun c hc => ?_⟩
    · unfold Probes3.num; rw [if_neg hs, hcols, hPx, hPy, hPz, hstride]
      simp only [Outcome.ok_bind]; push_cast; rfl
    · rw [hcols] at hi
      have hi' : i < W * D * H := by omega
      have hm : i % W < W := Nat.mod_lt _ hW0
      have hd : i / W < D * H := by
        rw [Nat.div_lt_iff_lt_mul hW0]
        calc i < W * D * H := hi'
          _ = D * H * W := by ring
      have hm2 : i / W % D < D := Nat.mod_lt _ hD0
      have hd2 : i / W / D < H := by rw [Nat.div_lt_iff_lt_mul hD0, Nat.mul_comm]; exact hd
      have hdm := Nat.div_add_mod i W
      have hdm2 := Nat.div_add_mod (i / W) D
      have htd : i / (W * D) = i / W / D := (Nat.div_div_eq_div_mul i W D).symm
      have etd : (i : Int).tdiv ((W * D : Nat) : Int) = ((i / W / D : Nat) : Int) := by
        rw [Int.tdiv_eq_ediv_of_nonneg (by omega), ← htd]; push_cast; rfl
      simp only
      generalize hq : i / W = q at *
      generalize i % W = m at *
      generalize hz : q / D = z at *
      generalize q % D = y at *
      have hq2 : i = m + W * (y + D * z) := by rw [← hdm, ← hdm2]; ring
      have hzle : z * (W * D) ≤ i := by
        rw [hq2]; calc z * (W * D) = W * (D * z) := by ring
          _ ≤ m + W * (y + D * z) := by
            have : W * (D * z) ≤ W * (y + D * z) := Nat.mul_le_mul_left _ (by omega)
            omega
      have hrem : i - z * (W * D) = m + W * y := by
        rw [hq2, show m + W * (y + D * z) = (m + W * y) + z * (W * D) by ring]; omega
      have hyle : W * y ≤ m + W * y := by omega
      have hoff : mulI32 (z : Int) ((W * D : Nat) : Int) = .ok ((z * (W * D) : Nat) : Int) := by
        unfold mulI32
        rw [show (z : Int) * ((W * D : Nat) : Int) = ((z * (W * D) : Nat) : Int) by push_cast; ring, if_pos]
        rw [fitsI32_iff]; omega
      have hremI : (i : Int) - ((z * (W * D) : Nat) : Int) = ((m + W * y : Nat) : Int) := by omega
      have htd2 : (((m + W * y : Nat) : Int)).tdiv (W : Int) = (y : Int) := by
        rw [Int.tdiv_eq_ediv_of_nonneg (by omega)]
        have : (m + W * y) / W = y := mix_div hm
        rw [← Int.natCast_ediv, this]
      have ho2 : mulI32 (y : Int) (W : Int) = .ok ((W * y : Nat) : Int) := by
        unfold mulI32
        rw [show (y : Int) * (W : Int) = ((W * y : Nat) : Int) by push_cast; ring, if_pos]
        rw [fitsI32_iff]; omega
      have hzd : z * D + y ≤ D * H := by
        calc z * D + y ≤ z * D + D := by omega
          _ = D * (z + 1) := by ring
          _ ≤ D * H := Nat.mul_le_mul_left _ hd2
      have haddr : ((z : Int) * (D : Int) + y) * (W : Int) + m = (i : Int) := by
        rw [hq2]; push_cast; ring
      have hmz : mulI32 (z : Int) (D : Int) = .ok ((z * D : Nat) : Int) := by
        unfold mulI32
        rw [show (z : Int) * (D : Int) = ((z * D : Nat) : Int) by push_cast; ring, if_pos]
        rw [fitsI32_iff]; omega
      refine ⟨?_, ?_, ?_, ?_, ?_⟩
      · unfold Probes3.coord; rw [if_neg hs, hPx, hPy, hstride]
        simp only [Outcome.ok_bind, etd, hoff, hremI, htd2, ho2]
        congr 2
        omega
      · unfold MergeEnv3.ks; rw [if_neg hs, hPx, hPy]
        simp only [hmz, Outcome.ok_bind]
        rw [if_pos (by rw [fitsI32_iff]; omega)]
        rw [show (((z * D : Nat) : Int) + (y : Int)) * (W : Int) + (m : Int) = (i : Int) by
          rw [← haddr]; push_cast; ring]
      · unfold Computed3; rw [if_neg hs, hW, hD, hH]; simp only; omega
      · unfold JAddr3; rw [if_neg hs, hPx, hPy]; simp only; exact haddr.symm
      · omega
    · unfold Computed3 at hc; rw [if_neg hs, hW, hD, hH] at hc
      obtain ⟨h1, h2, h3, h4, h5, h6⟩ := hc
      obtain ⟨x, hx⟩ := Int.eq_ofNat_of_zero_le h1
      obtain ⟨y, hy⟩ := Int.eq_ofNat_of_zero_le h3
      obtain ⟨z, hz⟩ := Int.eq_ofNat_of_zero_le h5
      have hxW : x < W := by omega
      have hyD : y < D := by omega
      have hzH : z < H := by omega
      have hlt := mix_lt hyD hzH
      have hlt2 := mix_lt hxW hlt
      refine ⟨x + W * (y + D * z), by rw [hcols, Nat.mul_assoc]; omega, ?_, fun a' => ?_⟩
      · simp only [mix_mod hxW, mix_div hxW, mix_mod hyD, mix_div hyD]
        rw [← hx, ← hy, ← hz]
      · unfold JAddr3; rw [if_neg hs, hPx, hPy, hx, hy, hz]
        have : ((z : Int) * D + y) * W + x = ((x + W * (y + D * z) : Nat) : Int) := by push_cast; ring
        rw [this]; omega

/-- One pass of the 3D merge. -/
theorem merge_pass3 {e : MergeEnv3} {k nx ny nz : Nat} {Active : Coord3 → Prop} (h : Run3 e k nx ny nz Active)
    (f : Nat → Coord3)
    (hf : ∀ i : Nat, (i : Int) < jCols3 e k nx ny nz → e.P.coord i = .ok (f i) ∧ e.ks (f i) = .ok (i : Int) ∧
        Computed3 e k nx ny nz Active (f i) ∧ JAddr3 e (f i) i ∧
        0 ≤ (f i).x ∧ (f i).x < ((nx * 2 ^ k : Nat) : Int) ∧ 0 ≤ (f i).y ∧ (f i).y < ((ny * 2 ^ k : Nat) : Int) ∧
        0 ≤ (f i).z ∧ (f i).z < ((nz * 2 ^ k : Nat) : Int))
    (n : Nat) (hn : (n : Int) = jCols3 e k nx ny nz)
    (I : ProbeIdx3 → K) (t : Nat) (la : Nat)
    (c0 : List K) (hc0 : CascadeHolds3 e k nx ny nz Active I t c0)
    (sched : List JIter3) (hsched : sched.Perm (jIters3 n e.s.polar e.s.az))
    (J : Arr2 K) (hcols : J.cols = n) (hrows : J.rows = 1 ∨ la < J.rows) :
    ∃ J', mergeC0ToJ3 e la c0 sched J = .ok J' ∧ J'.rows = J.rows ∧ J'.cols = J.cols ∧
      ∀ r a, J'.get r a = J.get r a +
        if a < n ∧ r = (if J.rows = 1 then 0 else la) then
          ∑ p ∈ Finset.range e.s.polar, ∑ q ∈ Finset.range e.s.az,
            1 / ((e.cfg.c0az * e.cfg.c0polar : Nat) : K) *
              I ⟨(f a).x.toNat, (f a).y.toNat, (f a).z.toNat,
                (nthRaysSubset3 e.cfg (storageToRays3 e.cfg e.s) t).startPolar + p,
                (nthRaysSubset3 e.cfg (storageToRays3 e.cfg e.s) t).startAz + q⟩
        else 0 := by
  obtain ⟨haz, hpol⟩ := h.rays
  obtain ⟨row, hrow⟩ : ∃ row, row = if J.rows = 1 then 0 else la := ⟨_, rfl⟩
  have hrowlt : row < J.rows := by rw [hrow]; split <;> omega
  have hst := h.storage
  have hnp0 : e.s.np0 = nx * 2 ^ k := by rw [hst]; unfold raysToStorage3; split <;> rfl
  have hnp1 : e.s.np1 = ny * 2 ^ k := by rw [hst]; unfold raysToStorage3; split <;> rfl
  have hnp2 : e.s.np2 = nz * 2 ^ k := by rw [hst]; unfold raysToStorage3; split <;> rfl
  have hwt : rayWeight3 e.cfg e.s = 1 / ((e.cfg.c0az * e.cfg.c0polar : Nat) : K) := by
    have := C13_shapes_agree e.cfg haz hpol e.s 0
    rw [rayWeight3]
    have h1 : (cascadeComputeSize3 e.cfg e.s 0).az = e.cfg.c0az ∧
        (cascadeComputeSize3 e.cfg e.s 0).polar = e.cfg.c0polar := by
      rw [hst]
      unfold cascadeComputeSize3 raysToStorage3
      have a0 : azFactor e.cfg.branch 0 = 1 := by cases e.cfg.branch <;> simp [azFactor]
      have p0 : polarFactor e.cfg.branch 0 = 1 := by cases e.cfg.branch <;> simp [polarFactor]
      by_cases hd : e.cfg.dirByDir = true <;> simp [hd, a0, p0, Nat.div_self haz, Nat.div_self hpol]
    rw [h1.1, h1.2]
  let g : JIter3 → Int × Int × K := fun i =>
    ((row : Int), (i.k : Int), 1 / ((e.cfg.c0az * e.cfg.c0polar : Nat) : K) *
      I ⟨(f i.k).x.toNat, (f i.k).y.toNat, (f i.k).z.toNat,
        (nthRaysSubset3 e.cfg (storageToRays3 e.cfg e.s) t).startPolar + i.theta,
        (nthRaysSubset3 e.cfg (storageToRays3 e.cfg e.s) t).startAz + i.phi⟩)
  have key : ∀ i ∈ jIters3 n e.s.polar e.s.az, jBody3 e row c0 i = .ok (g i) ∧ 0 ≤ (g i).1 ∧
      (g i).1 < J.rows ∧ 0 ≤ (g i).2.1 ∧ (g i).2.1 < J.cols := by
    intro i hi
    rw [mem_jIters3] at hi
    obtain ⟨hik, hip, hit⟩ := hi
    obtain ⟨hco, hks, hcomp, -, b1, b2, b3, b4, b5, b6⟩ := hf i.k (by omega)
    refine ⟨?_, by simp only [g]; omega, by simp only [g]; omega, by simp only [g]; omega,
      by simp only [g]; omega⟩
    set p : ProbeIdx3 := ⟨(f i.k).x.toNat, (f i.k).y.toNat, (f i.k).z.toNat,
        (nthRaysSubset3 e.cfg (storageToRays3 e.cfg e.s) t).startPolar + i.theta,
        (nthRaysSubset3 e.cfg (storageToRays3 e.cfg e.s) t).startAz + i.phi⟩ with hp
    have hsz : (nthRaysSubset3 e.cfg (storageToRays3 e.cfg e.s) t).numAz = e.s.az ∧
        (nthRaysSubset3 e.cfg (storageToRays3 e.cfg e.s) t).numPolar = e.s.polar ∧
        (e.cfg.dirByDir = false → (nthRaysSubset3 e.cfg (storageToRays3 e.cfg e.s) t).startAz = 0 ∧
          (nthRaysSubset3 e.cfg (storageToRays3 e.cfg e.s) t).startPolar = 0) ∧
        (e.cfg.dirByDir = true → ∃ A P, (nthRaysSubset3 e.cfg (storageToRays3 e.cfg e.s) t).startAz = A * e.s.az ∧
          (nthRaysSubset3 e.cfg (storageToRays3 e.cfg e.s) t).startPolar = P * e.s.polar) := by
      by_cases hd : e.cfg.dirByDir = true
      · simp only [nthRaysSubset3, storageToRays3, hd, if_true, Nat.mul_div_cancel _ haz,
          Nat.mul_div_cancel _ hpol]
        exact ⟨trivial, trivial, by simp, fun _ => ⟨_, _, rfl, rfl⟩⟩
      · simp [nthRaysSubset3, storageToRays3, hd]
    obtain ⟨z1, z2, z3, z4⟩ := hsz
    have hin : InPass3 e.cfg (storageToRays3 e.cfg e.s) t p := by
      have hr1 : (storageToRays3 e.cfg e.s).np0 = e.s.np0 := by unfold storageToRays3; split <;> rfl
      have hr2 : (storageToRays3 e.cfg e.s).np1 = e.s.np1 := by unfold storageToRays3; split <;> rfl
      have hr3 : (storageToRays3 e.cfg e.s).np2 = e.s.np2 := by unfold storageToRays3; split <;> rfl
      unfold InPass3
      rw [hr1, hr2, hr3, z1, z2, hnp0, hnp1, hnp2, hp]
      refine ⟨by simp only; omega, by simp only; omega, by simp only; omega, by simp only; omega,
        by simp only; omega, by simp only; omega, by simp only; omega⟩
    have haddr : i.phi + e.s.az * (i.theta + e.s.polar * ((f i.k).x.toNat + e.s.np0 * ((f i.k).y.toNat +
        e.s.np1 * (f i.k).z.toNat))) = probeLinearIndex3 e.cfg e.s p := by
      rw [probeLinearIndex3_nest, hp]
      by_cases hd : e.cfg.dirByDir = true
      · obtain ⟨A, P, hA, hP⟩ := z4 hd
        simp only [hd, if_true, hA, hP, sub_div_mul]
        have q1 : (A * e.s.az + i.phi) % e.s.az = i.phi := by
          rw [Nat.mul_comm, Nat.add_comm, Nat.add_mul_mod_self_left, Nat.mod_eq_of_lt hit]
        have q2 : (P * e.s.polar + i.theta) % e.s.polar = i.theta := by
          rw [Nat.mul_comm, Nat.add_comm, Nat.add_mul_mod_self_left, Nat.mod_eq_of_lt hip]
        rw [q1, q2]
      · obtain ⟨hA, hP⟩ := z3 (by simpa using hd)
        simp [hd, hA, hP]
    have hfetch : fetch3 c0 e.s (f i.k) i.theta i.phi = .ok (I p) := by
      unfold fetch3; rw [if_pos ⟨b1, b3, b5⟩, haddr]
      exact readAt_of_get (hc0 _ p hcomp rfl rfl rfl hin)
    unfold jBody3
    rw [hco]; simp only [Outcome.ok_bind]
    rw [hks]; simp only [Outcome.ok_bind]
    rw [hfetch, hwt]; rfl
  obtain ⟨J', e1, e2, e3, e4⟩ := addAll_perm (jBody3 e row c0) g _ sched hsched J key
  refine ⟨J', by unfold mergeC0ToJ3; rw [← hrow]; exact e1, e2, e3, fun r a => ?_⟩
  rw [e4, sum_jIters3, ← hrow]
  congr 1
  exact contrib_collapse3 n e.s.polar e.s.az row r a (fun i => (g i).2.2)

theorem sum_range_mul (a b : Nat) (g : Nat → K) :
    ∑ t ∈ Finset.range (a * b), g t = ∑ p ∈ Finset.range b, ∑ q ∈ Finset.range a, g (p * a + q) := by
  induction b with
  | zero => simp
  | succ b ih =>
    rw [Nat.mul_succ, Finset.sum_range_add, ih, Finset.sum_range_succ]
    simp only [Nat.mul_comm a b]

end DexRT
