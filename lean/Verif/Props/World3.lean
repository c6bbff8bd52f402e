import Verif.Lemmas.World3
/-!
C79: the formal solution through a given atmosphere, rays, march, cascades and merge together (3D).
-/
namespace DexRT.Fs
open DexRT DexRT.Dir Classical

/-- **C79** (3D, bounds) as `C79_bounds2_partial`. -/
theorem C79_bounds3_partial (e : Env3 ℝ) (hr : 0 < e.cfg.c0az ∧ 0 < e.cfg.c0polar)
    (hb : 0 < (upperTexels3 e.cfg.branch).1 ∧ 0 < (upperTexels3 e.cfg.branch).2) (ho : NoOverflow3 e) (hp : Probes3Ok e)
    (hnum : 0 < e.num) (t : Nat) (ht : t < subsetTasks3 e.cfg) (sched : Task → List JIter3) (hs : Sched3 e t sched)
    (sizes : List Nat) (hfit : BuffersFit3 e sizes) (lambdaIterate : Bool) (m : Mem ℝ) (hmem : MemShape sizes m)
    (w : World .three) (l : LenCfg3) (la : ℤ) (hw : Marches3 w e l la) (hsc : 0 ≤ w.scale) (hi : ℝ) (hhi : 0 ≤ hi)
    (hsrc : w.SourceIn 0 hi) (hbc : ∀ la x mu, 0 ≤ w.bc la x mu ∧ w.bc la x mu ≤ hi) :
    ∃ m' c0, pass3 e t lambdaIterate sched m = .ok m' ∧ m'.bufs[0]? = some c0 ∧
      ∀ p, Listed3 e 0 p.u p.v p.w → InPass3 e.cfg (cascadeComputeSize3 e.cfg e.c0 0) t p →
        ∃ I, c0[probeLinearIndex3 e.cfg (cascadeSize3 e.cfg.branch e.c0 0) p]? = some I ∧ 0 ≤ I ∧ I ≤ hi := by
  obtain ⟨m', c0, h1, h2, -, h3, -⟩ := C74_pass3 e hr ho hp hnum t ht sched hs sizes hfit lambdaIterate m hmem
  refine ⟨m', c0, h1, h2, fun p a1 a2 => ⟨_, h3 p a1 a2, ?_⟩⟩
  refine radiance3_inV e.march _ _ _ _ _ hb.1 hb.2 e.num (Ray3 e)
    (fun n q U W X i j _ hq hU hW hX hi hj => ray3_child e n q U W X i j hq hU hW hX hi hj)
    (fun n q hq => ⟨hq.u, hq.v, hq.w⟩) hhi (fun n q hn hq => ?_) (fun q hq => ?_) p (ray3_of e hr hp t ht p a1 a2)
  · obtain ⟨fuel, res, k2, k3⟩ := hw.1 n q hn hq
    rw [k3]
    exact raymarch_segIn (w.args3 e l la false n q) hsc (fun m c => hsrc _ _ m c) rfl fuel res k2
  · obtain ⟨fuel, res, k2, k3⟩ := hw.2 q hq
    rw [k3]
    exact raymarch_between (w.args3 e l la true e.num q) hsc (fun m c => hsrc _ _ m c)
      (fun b => startI_in _ b ⟨le_rfl, hhi⟩ (hbc _ _ _)) fuel res k2

/-- **C79** (3D, equilibrium) as `C79_equilibrium2`, for the HEALPix directions: every ray whose light travels upwards
carries exactly `S`. -/
theorem C79_equilibrium3 (e : Env3 ℝ) (hr : 0 < e.cfg.c0az ∧ 0 < e.cfg.c0polar) (ho : NoOverflow3 e) (hp : Probes3Ok e)
    (hnum : 0 < e.num) (t : Nat) (ht : t < subsetTasks3 e.cfg) (sched : Task → List JIter3) (hs : Sched3 e t sched)
    (sizes : List Nat) (hfit : BuffersFit3 e sizes) (lambdaIterate : Bool) (m : Mem ℝ) (hmem : MemShape sizes m)
    (o k : Nat) (hbr : e.cfg.branch = .healpix o) (hk : npix3 e 0 = 12 * 4 ^ k) (hko : k + o * e.num ≤ 15)
    (w : World .three) (l : LenCfg3) (la : ℤ) (hla : 0 ≤ la) (hw : Marches3 w e l la) (hsc : 0 ≤ w.scale) (hinf : w.toInfty = true)
    (S : ℝ) (hS : 0 ≤ S) (hsrc : w.SourceIn S S) (hbc : ∀ la x mu, w.bc la x mu = S) :
    ∃ m' c0, pass3 e t lambdaIterate sched m = .ok m' ∧ m'.bufs[0]? = some c0 ∧
      ∀ p, Listed3 e 0 p.u p.v p.w → InPass3 e.cfg (cascadeComputeSize3 e.cfg e.c0 0) t p →
        ∃ I, c0[probeLinearIndex3 e.cfg (cascadeSize3 e.cfg.branch e.c0 0) p]? = some I ∧ 0 ≤ I ∧ I ≤ S ∧
          (0 < rayDir3 (npix3 e 0) p.az 2 → I = S) := by
  have hb : 0 < (upperTexels3 e.cfg.branch).1 ∧ 0 < (upperTexels3 e.cfg.branch).2 := by
    rw [hbr]; exact ⟨by show 0 < 2 ^ (2 * o); positivity, Nat.one_pos⟩
  obtain ⟨m', c0, h1, h2, -, h3, -⟩ := C74_pass3 e hr ho hp hnum t ht sched hs sizes hfit lambdaIterate m hmem
  have hsrc0 : w.SourceIn 0 S := by
    intro la mu m c
    obtain ⟨p, q, r⟩ := hsrc la mu m c
    have : (0 : ℝ) < 1e-15 := by norm_num
    exact ⟨p, le_trans (by rw [zero_mul]; exact mul_nonneg hS (by linarith)) q, r⟩
  obtain ⟨m2, c2, i1, i2, i3⟩ := C79_bounds3_partial e hr hb ho hp hnum t ht sched hs sizes hfit lambdaIterate m hmem w l la hw hsc S hS hsrc0
    (fun la x mu => by rw [hbc]; exact ⟨hS, le_rfl⟩)
  obtain rfl : m' = m2 := by rw [h1] at i1; injection i1
  obtain rfl : c0 = c2 := by rw [h2] at i2; exact Option.some.inj i2
  refine ⟨m', c0, h1, h2, fun p a1 a2 => ?_⟩
  obtain ⟨I, b1, b2, b3⟩ := i3 p a1 a2
  refine ⟨I, b1, b2, b3, fun hup => ?_⟩
  have hr0 := ray3_of e hr hp t ht p a1 a2
  have hnp := npix_eq e o k hbr hk
  have := radiance3_inV e.march e.c0.np0 e.c0.np1 e.c0.np2 (upperTexels3 e.cfg.branch).1 (upperTexels3 e.cfg.branch).2 hb.1 hb.2 e.num
    (fun n q => Ray3 e n q ∧ 0 < rayDir3 (npix3 e n) q.az 2)
    (fun n q U W X i j hn hq hU hW hX hi hj => ⟨ray3_child e n q U W X i j hq.1 hU hW hX hi hj, by
      show 0 < rayDir3 (npix3 e (n + 1)) (q.az * (upperTexels3 e.cfg.branch).1 + j) 2
      have ht4 : (upperTexels3 e.cfg.branch).1 = 4 ^ o := by
        rw [hbr]; show 2 ^ (2 * o) = 4 ^ o; rw [pow_mul]; norm_num
      have haz : q.az < 12 * 4 ^ (k + o * n) := by rw [← hnp n]; exact hq.1.az
      have hup' := hq.2
      rw [ht4] at hj ⊢
      rw [hnp n] at hup'
      rw [hnp (n + 1), show k + o * (n + 1) = (k + o * n) + o by ring]
      refine up_child (k + o * n) o q.az j ?_ haz hj hup'
      have : o * (n + 1) ≤ o * e.num := Nat.mul_le_mul_left _ hn
      rw [Nat.mul_add, Nat.mul_one] at this
      omega⟩)
    (fun n q hq => ⟨hq.1.u, hq.1.v, hq.1.w⟩) (le_refl S)
    (fun n q hn hq => by
      obtain ⟨fuel, res, k2, k3⟩ := hw.1 n q hn hq.1
      rw [k3]
      exact raymarch_segIn (w.args3 e l la false n q) hsc (fun m c => hsrc _ _ m c) rfl fuel res k2)
    (fun q hq => by
      obtain ⟨fuel, res, k2, k3⟩ := hw.2 q hq.1
      rw [k3]
      refine raymarch_between (w.args3 e l la true e.num q) hsc (fun m c => hsrc _ _ m c) (fun b => ?_) fuel res k2
      rw [startI_up _ b rfl hinf hq.2 (by show la ≠ -1; omega)]
      show S ≤ w.bc _ _ _ ∧ w.bc _ _ _ ≤ S
      rw [hbc]; exact ⟨le_rfl, le_rfl⟩)
    p ⟨hr0, hup⟩
  have e1 := h3 p a1 a2
  rw [b1] at e1
  rw [Option.some.inj e1]
  exact le_antisymm this.2 this.1

theorem marchRay3_add (w1 w2 : World .three) (h12 : w1.SameOpacity w2) (e : Env3 ℝ) (l : LenCfg3) (la : ℤ) (bc : Bool) (n : Nat)
    (p : ProbeIdx3) (s s1 s2 : Seg ℝ) (h : MarchRay3 (w1.plus w2) e l la bc n p s) (h1 : MarchRay3 w1 e l la bc n p s1)
    (h2 : MarchRay3 w2 e l la bc n p s2) :
    s.I = s1.I + s2.I ∧ s1.T = s.T ∧ s2.T = s.T := by
  obtain ⟨f, res, b, rfl⟩ := h
  obtain ⟨f1, res1, b1, rfl⟩ := h1
  obtain ⟨f2, res2, b2, rfl⟩ := h2
  have hs : SumArgs ((w1.plus w2).args3 e l la bc n p) (w1.args3 e l la bc n p) (w2.args3 e l la bc n p) :=
    { one := ⟨_, _, rfl⟩, two := by rw [h12]; exact ⟨_, _, rfl⟩, eta := fun m c => rfl,
      bc := by rw [h12]; rfl }
  obtain ⟨x, y, z⟩ := raymarch_add _ _ _ hs f f1 f2 res res1 res2 b b1 b2
  refine ⟨x, ?_, ?_⟩
  · show Real.exp _ = Real.exp _; rw [y]
  · show Real.exp _ = Real.exp _; rw [z]

theorem marchRay3_mono (w1 w2 : World .three) (h12 : w1.SameOpacity w2) (hsc : 0 ≤ w1.scale)
    (hchi : ∀ la mu m c, 0 ≤ w1.chi la mu m c) (heta : ∀ la mu m c, w1.eta la mu m c ≤ w2.eta la mu m c)
    (hbc : ∀ la x mu, w1.bc la x mu ≤ w2.bc la x mu) (e : Env3 ℝ) (l : LenCfg3) (la : ℤ) (bc : Bool) (n : Nat) (p : ProbeIdx3)
    (s1 s2 : Seg ℝ) (h1 : MarchRay3 w1 e l la bc n p s1) (h2 : MarchRay3 w2 e l la bc n p s2) :
    s1.I ≤ s2.I ∧ s2.T = s1.T ∧ 0 ≤ s1.T := by
  obtain ⟨η, β, rfl⟩ : ∃ η β, w2 = { w1 with eta := η, bc := β } := ⟨_, _, h12⟩
  obtain ⟨f, res, b, rfl⟩ := h1
  obtain ⟨f2, res2, b2, rfl⟩ := h2
  obtain ⟨x, y⟩ := raymarch_mono (w1.args3 e l la bc n p) _ _ hsc (fun m c => hchi _ _ m c) (fun m c => heta _ _ m c)
    (hbc _ _ _) f f2 res res2 b b2
  exact ⟨x, by show Real.exp _ = Real.exp _; rw [y], (Real.exp_pos _).le⟩

/-- **C79** (3D, superposition) as `C79_superposition2`. -/
theorem C79_superposition3 (e : Env3 ℝ) (hr : 0 < e.cfg.c0az ∧ 0 < e.cfg.c0polar) (ho : NoOverflow3 e) (hp : Probes3Ok e)
    (hnum : 0 < e.num) (t : Nat) (ht : t < subsetTasks3 e.cfg) (sched : Task → List JIter3) (hs : Sched3 e t sched)
    (sizes : List Nat) (hfit : BuffersFit3 e sizes) (lambdaIterate : Bool) (m m1 m2 : Mem ℝ)
    (hmem : ∀ x, x = m ∨ x = m1 ∨ x = m2 → MemShape sizes x)
    (w1 w2 : World .three) (h12 : w1.SameOpacity w2) (l : LenCfg3) (la : ℤ) (march1 march2 : Bool → Nat → ProbeIdx3 → Seg ℝ)
    (hw : Marches3 (w1.plus w2) e l la) (hw1 : Marches3 w1 { e with march := march1 } l la)
    (hw2 : Marches3 w2 { e with march := march2 } l la) :
    ∃ m' m1' m2' c c1 c2, pass3 e t lambdaIterate sched m = .ok m' ∧ m'.bufs[0]? = some c ∧
      pass3 { e with march := march1 } t lambdaIterate sched m1 = .ok m1' ∧ m1'.bufs[0]? = some c1 ∧
      pass3 { e with march := march2 } t lambdaIterate sched m2 = .ok m2' ∧ m2'.bufs[0]? = some c2 ∧
      ∀ p, Listed3 e 0 p.u p.v p.w → InPass3 e.cfg (cascadeComputeSize3 e.cfg e.c0 0) t p →
        ∃ I1 I2, c1[probeLinearIndex3 e.cfg (cascadeSize3 e.cfg.branch e.c0 0) p]? = some I1 ∧
          c2[probeLinearIndex3 e.cfg (cascadeSize3 e.cfg.branch e.c0 0) p]? = some I2 ∧
          c[probeLinearIndex3 e.cfg (cascadeSize3 e.cfg.branch e.c0 0) p]? = some (I1 + I2) := by
  have hp1 : ∀ mm, Probes3Ok ({ e with march := mm } : Env3 ℝ) := fun mm => ⟨hp.coords, hp.closed⟩
  obtain ⟨m', c, h1, h2, -, h3, -⟩ := C74_pass3 e hr ho hp hnum t ht sched hs sizes hfit lambdaIterate m (hmem m (by simp))
  obtain ⟨m1', c1, i1, i2, -, i3, -⟩ := C74_pass3 { e with march := march1 } hr ho (hp1 _) hnum t ht sched hs sizes hfit
    lambdaIterate m1 (hmem m1 (by simp))
  obtain ⟨m2', c2, j1, j2, -, j3, -⟩ := C74_pass3 { e with march := march2 } hr ho (hp1 _) hnum t ht sched hs sizes hfit
    lambdaIterate m2 (hmem m2 (by simp))
  refine ⟨m', m1', m2', c, c1, c2, h1, h2, i1, i2, j1, j2, fun p a1 a2 => ⟨_, _, i3 p a1 a2, j3 p a1 a2, ?_⟩⟩
  rw [h3 p a1 a2]
  congr 1
  have hr0 : Ray3 e (e.num - e.num) p := by rw [Nat.sub_self]; exact ray3_of e hr hp t ht p a1 a2
  exact radiance3_addV e.march march1 march2 _ _ _ _ _ e.num (Ray3 e)
    (fun n q U W X i j _ hq hU hW hX hi hj => ray3_child e n q U W X i j hq hU hW hX hi hj)
    (fun n q hn hq => marchRay3_add w1 w2 h12 e l la false n q _ _ _ (hw.1 n q hn hq)
      (hw1.1 n q hn ⟨hq.u, hq.v, hq.w, hq.az, hq.polar⟩) (hw2.1 n q hn ⟨hq.u, hq.v, hq.w, hq.az, hq.polar⟩))
    (fun q hq => (marchRay3_add w1 w2 h12 e l la true e.num q _ _ _ (hw.2 q hq)
      (hw1.2 q ⟨hq.u, hq.v, hq.w, hq.az, hq.polar⟩) (hw2.2 q ⟨hq.u, hq.v, hq.w, hq.az, hq.polar⟩)).1) e.num le_rfl p hr0

/-- **C79** (3D, monotonicity) as `C79_monotone2`. -/
theorem C79_monotone3 (e : Env3 ℝ) (hr : 0 < e.cfg.c0az ∧ 0 < e.cfg.c0polar) (ho : NoOverflow3 e) (hp : Probes3Ok e)
    (hnum : 0 < e.num) (t : Nat) (ht : t < subsetTasks3 e.cfg) (sched : Task → List JIter3) (hs : Sched3 e t sched)
    (sizes : List Nat) (hfit : BuffersFit3 e sizes) (lambdaIterate : Bool) (m m1 : Mem ℝ)
    (hmem : ∀ x, x = m ∨ x = m1 → MemShape sizes x)
    (w1 w2 : World .three) (h12 : w1.SameOpacity w2) (hsc : 0 ≤ w1.scale) (hchi : ∀ la mu m c, 0 ≤ w1.chi la mu m c)
    (heta : ∀ la mu m c, w1.eta la mu m c ≤ w2.eta la mu m c) (hbc : ∀ la x mu, w1.bc la x mu ≤ w2.bc la x mu)
    (l : LenCfg3) (la : ℤ) (march2 : Bool → Nat → ProbeIdx3 → Seg ℝ)
    (hw1 : Marches3 w1 e l la) (hw2 : Marches3 w2 { e with march := march2 } l la) :
    ∃ m' m1' c c1, pass3 e t lambdaIterate sched m = .ok m' ∧ m'.bufs[0]? = some c ∧
      pass3 { e with march := march2 } t lambdaIterate sched m1 = .ok m1' ∧ m1'.bufs[0]? = some c1 ∧
      ∀ p, Listed3 e 0 p.u p.v p.w → InPass3 e.cfg (cascadeComputeSize3 e.cfg e.c0 0) t p →
        ∃ I I1, c[probeLinearIndex3 e.cfg (cascadeSize3 e.cfg.branch e.c0 0) p]? = some I ∧
          c1[probeLinearIndex3 e.cfg (cascadeSize3 e.cfg.branch e.c0 0) p]? = some I1 ∧ I ≤ I1 := by
  obtain ⟨m', c, h1, h2, -, h3, -⟩ := C74_pass3 e hr ho hp hnum t ht sched hs sizes hfit lambdaIterate m (hmem m (by simp))
  obtain ⟨m1', c1, i1, i2, -, i3, -⟩ := C74_pass3 { e with march := march2 } hr ho ⟨hp.coords, hp.closed⟩ hnum t ht sched hs
    sizes hfit lambdaIterate m1 (hmem m1 (by simp))
  refine ⟨m', m1', c, c1, h1, h2, i1, i2, fun p a1 a2 => ⟨_, _, h3 p a1 a2, i3 p a1 a2, ?_⟩⟩
  refine radiance3_monoV e.march march2 _ _ _ _ _ e.num (Ray3 e)
    (fun n q U W X i j _ hq hU hW hX hi hj => ray3_child e n q U W X i j hq hU hW hX hi hj) (fun n q hn hq => ?_) (fun q hq => ?_)
    e.num le_rfl p (by rw [Nat.sub_self]; exact ray3_of e hr hp t ht p a1 a2)
  · exact marchRay3_mono w1 w2 h12 hsc hchi heta hbc e l la false n q _ _ (hw1.1 n q hn hq)
      (hw2.1 n q hn ⟨hq.u, hq.v, hq.w, hq.az, hq.polar⟩)
  · exact (marchRay3_mono w1 w2 h12 hsc hchi heta hbc e l la true e.num q _ _ (hw1.2 q hq)
      (hw2.2 q ⟨hq.u, hq.v, hq.w, hq.az, hq.polar⟩)).1

/-- **C79** (3D, the marches end) as `C79_dense2`, for the HEALPix directions; no set of directions is excluded. -/
theorem C79_dense3 (e : Env3 ℝ) (w : World .three) (l : LenCfg3) (la : ℤ) (hb : 1 ≤ w.block)
    (hdense : ∀ n c, (w.env n).inBounds c → 0 ≤ (w.env n).sampleLevel c)
    (o k : Nat) (hbr : e.cfg.branch = .healpix o) (hk : npix3 e 0 = 12 * 4 ^ k) (hko : k + o * e.num ≤ 16)
    (hlen : ∀ n, n ≤ e.num → ((intervalLength3 l e.num n).2 : ℝ) - (intervalLength3 l e.num n).1 ≤ 1e24) :
    (∃ march, Marches3 w { e with march := march } l la) ∧
    ∀ bc n p s s', MarchRay3 w e l la bc n p s → MarchRay3 w e l la bc n p s' → s = s' := by
  have hnp := npix_eq e o k hbr hk
  constructor
  · have hray : ∀ bc n p, n ≤ e.num → Ray3 e n p → ∃ s, MarchRay3 w e l la bc n p s := by
      intro bc n p hn hr
      have hg : GoodSeg (w.args3 e l la bc n p) := by
        refine ⟨fun i => ?_, fun i _ => Or.inl rfl⟩
        show |rayDir3 (npix3 e n) p.az i| ≤ 1
        have haz : p.az < npix3 e n := hr.az
        rw [hnp n] at haz ⊢
        have hle : k + o * n ≤ 16 := le_trans (Nat.add_le_add_left (Nat.mul_le_mul_left _ hn) _) hko
        have hu := C76_unit3 (k + o * n) p.az hle haz
        rw [abs_le_one_iff_mul_self_le_one, ← pow_two, ← hu]
        exact Finset.single_le_sum (f := fun i => rayDir3 (12 * 4 ^ (k + o * n)) p.az i ^ 2) (fun j _ => sq_nonneg _) (Finset.mem_univ i)
      obtain ⟨N, res, hN⟩ := dense_ends (w.args3 e l la bc n p) hb hg (hdense n)
        (by show -((intervalLength3 l e.num n).1 : ℝ) - -((intervalLength3 l e.num n).2 : ℝ) ≤ _; have := hlen n hn; linarith)
      exact ⟨segOf res, N, res, hN N le_rfl, rfl⟩
    haveI : Nonempty (Seg ℝ) := ⟨⟨0, 0, 0⟩⟩
    choose! f hf using hray
    exact ⟨f, fun n p hn hr => hf false n p hn.le ⟨hr.u, hr.v, hr.w, hr.az, hr.polar⟩,
      fun p hr => hf true e.num p le_rfl ⟨hr.u, hr.v, hr.w, hr.az, hr.polar⟩⟩
  · rintro bc n p s s' ⟨f, res, b, rfl⟩ ⟨f', res', b', rfl⟩
    rw [raymarch_unique _ f f' res res' b b']

end DexRT.Fs
