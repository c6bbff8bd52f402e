import Verif.Spec.World
import Verif.Lemmas.World
import Verif.Lemmas.FormalBounds2
import Verif.Props.FormalSol
import Verif.Props.Dirs
/-!
C79: the formal solution through a given atmosphere, rays, march, cascades and merge together (2D).
-/
namespace DexRT.Fs
open DexRT DexRT.Dir Classical

/-- the rays of a pass exist -/
theorem ray2_of (e : Env2 ℝ) (hp : Probes2Ok e) (t waves : Nat) (ht : t < subsetTasks e.cfg) (p : ProbeIdx2) (h1 : Listed2 e 0 p.u p.v)
    (h2 : p.wave < waves) (h3 : InPass2 e.cfg (cascadeComputeSize e.cfg e.c0 0) t p) : Ray2 e waves 0 p := by
  obtain ⟨l1, l2⟩ := listed2_lt hp (Nat.zero_le _) h1
  refine ⟨l1, l2, ?_, h2, h3.2.2.1⟩
  have h := h3.2.2.2.2.2
  generalize (cascadeComputeSize e.cfg e.c0 0) = R at h
  revert h
  unfold subsetTasks at ht
  unfold nthRaysSubset
  cases hm : e.cfg.mode with
  | dirByDir =>
    rw [hm] at ht
    simp only at ht ⊢
    intro h
    have h4 : t * (R.dirs / e.cfg.p0rays) + R.dirs / e.cfg.p0rays ≤ R.dirs := by
      calc t * (R.dirs / e.cfg.p0rays) + R.dirs / e.cfg.p0rays = (t + 1) * (R.dirs / e.cfg.p0rays) := by ring
        _ ≤ e.cfg.p0rays * (R.dirs / e.cfg.p0rays) := Nat.mul_le_mul_right _ ht
        _ ≤ R.dirs := Nat.mul_div_le _ _
    omega
  | _ => intro h; simpa using h

/-- the rays merged with exist -/
theorem ray2_child (e : Env2 ℝ) (hv : e.cfg.Valid) (hm : e.cfg.mode ≠ .preaverage) (waves n : Nat) (p : ProbeIdx2) (U W r : Nat)
    (h : Ray2 e waves n p) (hU : U < probesOn e.c0.np0 (n + 1)) (hW : W < probesOn e.c0.np1 (n + 1))
    (hr : r < upperTexelsPerRay e.cfg n) :
    Ray2 e waves (n + 1) { p with u := U, v := W, dir := p.dir * upperTexelsPerRay e.cfg n + r } := by
  refine ⟨hU, hW, ?_, h.wave, h.incl⟩
  show p.dir * upperTexelsPerRay e.cfg n + r < _
  rw [upper_dirs e.cfg hv hm]
  calc p.dir * upperTexelsPerRay e.cfg n + r < (p.dir + 1) * upperTexelsPerRay e.cfg n := by rw [Nat.add_mul]; omega
    _ ≤ _ := Nat.mul_le_mul_right _ h.dir

/-- **C79** (2D, bounds) Formal solution through any atmosphere with non-negative opacities, emissivities of at most
`hi` times the opacity, and a boundary that emits at most `hi`: for every grid, refinement, cascade configuration,
schedule and previous content of the buffers, every intensity left for the probes of cascade 0 is between 0 and `hi`. In
particular all are 0 in the dark (`hi = 0`). -/
theorem C79_bounds2_partial (e : Env2 ℝ) (hv : e.cfg.Valid) (hm : e.cfg.mode ≠ .preaverage) (hp : Probes2Ok e) (hnum : 0 < e.num)
    (t waves : Nat) (ht : t < subsetTasks e.cfg) (sched : Task → List JIter) (hs : Sched2 e t waves sched) (lambdaIterate : Bool) (m : Mem ℝ)
    (hmem : MemShape (bufferSizes e.pp (fun n => cascadeEntries (cascadeSize e.cfg e.c0 n)) e.num) m)
    (w : World .two) (g : Rays2) (hw : Marches2 w e g waves) (hsc : 0 ≤ w.scale) (hi : ℝ) (hhi : 0 ≤ hi)
    (hsrc : w.SourceIn 0 hi) (hbc : ∀ la x mu, 0 ≤ w.bc la x mu ∧ w.bc la x mu ≤ hi) :
    ∃ m' c0, pass2 e t lambdaIterate sched m = .ok m' ∧ m'.bufs[0]? = some c0 ∧
      ∀ p, Listed2 e 0 p.u p.v → p.wave < waves → InPass2 e.cfg (cascadeComputeSize e.cfg e.c0 0) t p →
        ∃ I, c0[probeLinearIndex e.cfg (cascadeSize e.cfg e.c0 0) p]? = some I ∧ 0 ≤ I ∧ I ≤ hi := by
  obtain ⟨m', c0, h1, h2, -, h3, -⟩ := C74_pass2 e hv hm hp hnum t waves sched hs lambdaIterate m hmem
  refine ⟨m', c0, h1, h2, fun p a1 a2 a3 => ⟨_, h3 p a1 a2 a3, ?_⟩⟩
  refine radiance2_inV e.march _ _ _ (texels_pos e.cfg) e.num (Ray2 e waves)
    (fun n q U W r _ hq hU hW hr => ray2_child e hv hm waves n q U W r hq hU hW hr) (fun n q hq => ⟨hq.u, hq.v⟩) hhi
    (fun n q hn hq => ?_) (fun q hq => ?_) p (ray2_of e hp t waves ht p a1 a2 a3)
  · obtain ⟨seg, fuel, res, -, k2, k3⟩ := hw.1 n q hn hq
    rw [k3]
    exact raymarch_segIn (w.args2 e g false n q seg) hsc (fun m c => hsrc _ _ m c) rfl fuel res k2
  · obtain ⟨seg, fuel, res, -, k2, k3⟩ := hw.2 q hq
    rw [k3]
    exact raymarch_between (w.args2 e g true e.num q seg) hsc (fun m c => hsrc _ _ m c)
      (fun b => startI_in _ b ⟨le_rfl, hhi⟩ (hbc _ _ _)) fuel res k2

/-- the rays that come from below -/
theorem dir_down (nd k : ℕ) (hk : k < nd) : rayDir2 nd k 1 < 0 ↔ nd ≤ 2 * k := by
  have hn : (0 : ℝ) < nd := by exact_mod_cast (by omega : 0 < nd)
  have hpi := Real.pi_pos
  have e0 : rayDir2 nd k 1 = Real.sin (rayAngle nd k) := rfl
  have e1 : rayAngle nd k = Real.pi * ((2 * k + 1) / nd) := by unfold rayAngle; field_simp
  have hk' : (k : ℝ) + 1 ≤ nd := by exact_mod_cast hk
  have hr0 : (0 : ℝ) < (2 * k + 1) / nd := by positivity
  have hr2 : ((2 * k + 1) / nd : ℝ) < 2 := by rw [div_lt_iff₀ hn]; linarith
  rw [e0, e1]
  constructor
  · intro h
    by_contra hc
    have hc' : (2 * k + 1 : ℝ) ≤ nd := by exact_mod_cast (by omega : 2 * k + 1 ≤ nd)
    have : ((2 * k + 1) / nd : ℝ) ≤ 1 := by rw [div_le_iff₀ hn]; linarith
    have h0 := Real.sin_nonneg_of_nonneg_of_le_pi (x := Real.pi * ((2 * k + 1) / nd)) (by positivity) (by nlinarith)
    linarith
  · intro h
    have hc' : (nd : ℝ) < 2 * k + 1 := by exact_mod_cast (by omega : nd < 2 * k + 1)
    have h1 : (1 : ℝ) < (2 * k + 1) / nd := by rw [lt_div_iff₀ hn]; linarith
    have : Real.sin (Real.pi * ((2 * k + 1) / nd)) = - Real.sin (Real.pi * ((2 * k + 1) / nd) - Real.pi) := by
      rw [Real.sin_sub_pi, neg_neg]
    rw [this]
    have := Real.sin_pos_of_pos_of_lt_pi (x := Real.pi * ((2 * k + 1) / nd) - Real.pi) (by nlinarith) (by nlinarith)
    linarith

theorem marchSeg2_d (c : RcCfg) (l : LenCfg) (num n nd : Nat) (u v : Int) (k : Nat) (seg : RaySeg 2)
    (h : marchSeg2 c l num n nd u v k = some seg) : (∀ i, seg.d i = - rayDir2 nd k i) ∧ seg.t0 = 0 ∧ ∀ i, seg.negZero i = false := by
  unfold marchSeg2 raySegOfProps at h
  split at h
  · simp at h
  · obtain rfl := Option.some.inj h
    exact ⟨fun i => rfl, rfl, fun _ => rfl⟩

/-- **C79** (2D, equilibrium) In a medium whose source function is `S` everywhere, lit from below by a boundary that
emits `S`, with the last cascade reaching the boundary (`LAST_CASCADE_TO_INFTY`): every ray that arrives at a probe from
below (light that travels upwards) carries exactly `S`, whatever the grid, refinement, opacities, cascade lengths,
branching and schedule; and no ray carries more than `S`. -/
theorem C79_equilibrium2 (e : Env2 ℝ) (hv : e.cfg.Valid) (hm : e.cfg.mode ≠ .preaverage) (hp : Probes2Ok e) (hnum : 0 < e.num)
    (t waves : Nat) (ht : t < subsetTasks e.cfg) (sched : Task → List JIter) (hs : Sched2 e t waves sched) (lambdaIterate : Bool) (m : Mem ℝ)
    (hmem : MemShape (bufferSizes e.pp (fun n => cascadeEntries (cascadeSize e.cfg e.c0 n)) e.num) m)
    (w : World .two) (g : Rays2) (hw : Marches2 w e g waves) (hsc : 0 ≤ w.scale) (hinf : w.toInfty = true) (hla : 0 ≤ g.laStart)
    (S : ℝ) (hS : 0 ≤ S) (hsrc : w.SourceIn S S) (hbc : ∀ la x mu, w.bc la x mu = S) :
    ∃ m' c0, pass2 e t lambdaIterate sched m = .ok m' ∧ m'.bufs[0]? = some c0 ∧
      ∀ p, Listed2 e 0 p.u p.v → p.wave < waves → InPass2 e.cfg (cascadeComputeSize e.cfg e.c0 0) t p →
        ∃ I, c0[probeLinearIndex e.cfg (cascadeSize e.cfg e.c0 0) p]? = some I ∧ 0 ≤ I ∧ I ≤ S ∧
          (rayDir2 (cascadeComputeSize e.cfg e.c0 0).dirs p.dir 1 < 0 → I = S) := by
  obtain ⟨m', c0, h1, h2, -, h3, -⟩ := C74_pass2 e hv hm hp hnum t waves sched hs lambdaIterate m hmem
  have hsrc0 : w.SourceIn 0 S := by
    intro la mu m c
    obtain ⟨p, q, r⟩ := hsrc la mu m c
    have : (0 : ℝ) < 1e-15 := by norm_num
    exact ⟨p, le_trans (by rw [zero_mul]; exact mul_nonneg hS (by linarith)) q, r⟩
  obtain ⟨m2, c2, i1, i2, i3⟩ := C79_bounds2_partial e hv hm hp hnum t waves ht sched hs lambdaIterate m hmem w g hw hsc S hS hsrc0
    (fun la x mu => by rw [hbc]; exact ⟨hS, le_rfl⟩)
  obtain rfl : m' = m2 := by rw [h1] at i1; injection i1
  obtain rfl : c0 = c2 := by rw [h2] at i2; exact Option.some.inj i2
  refine ⟨m', c0, h1, h2, fun p a1 a2 a3 => ?_⟩
  obtain ⟨I, b1, b2, b3⟩ := i3 p a1 a2 a3
  refine ⟨I, b1, b2, b3, fun hup => ?_⟩
  have hr0 := ray2_of e hp t waves ht p a1 a2 a3
  have := radiance2_inV e.march e.c0.np0 e.c0.np1 (upperTexelsPerRay e.cfg) (texels_pos e.cfg) e.num
    (fun n q => Ray2 e waves n q ∧ (cascadeComputeSize e.cfg e.c0 n).dirs ≤ 2 * q.dir)
    (fun n q U W r _ hq hU hW hr => ⟨ray2_child e hv hm waves n q U W r hq.1 hU hW hr, by
      show _ ≤ 2 * (q.dir * upperTexelsPerRay e.cfg n + r)
      rw [upper_dirs e.cfg hv hm]
      have := Nat.mul_le_mul_right (upperTexelsPerRay e.cfg n) hq.2
      nlinarith⟩)
    (fun n q hq => ⟨hq.1.u, hq.1.v⟩) (le_refl S)
    (fun n q hn hq => by
      obtain ⟨seg, fuel, res, -, k2, k3⟩ := hw.1 n q hn hq.1
      rw [k3]
      exact raymarch_segIn (w.args2 e g false n q seg) hsc (fun m c => hsrc _ _ m c) rfl fuel res k2)
    (fun q hq => by
      obtain ⟨seg, fuel, res, k1, k2, k3⟩ := hw.2 q hq.1
      rw [k3]
      refine raymarch_between (w.args2 e g true e.num q seg) hsc (fun m c => hsrc _ _ m c) (fun b => ?_) fuel res k2
      have hdown := (dir_down _ q.dir hq.1.dir).2 hq.2
      rw [startI_up _ b rfl hinf (by show 0 < - rayDir2 _ q.dir 1; linarith) (by show g.laStart + (q.wave : ℤ) ≠ -1; omega)]
      show S ≤ w.bc _ _ _ ∧ w.bc _ _ _ ≤ S
      rw [hbc]; exact ⟨le_rfl, le_rfl⟩)
    p ⟨hr0, (dir_down _ p.dir hr0.dir).1 hup⟩
  have e1 := h3 p a1 a2 a3
  rw [b1] at e1
  rw [Option.some.inj e1]
  exact le_antisymm this.2 this.1

theorem marchRay2_add (w1 w2 : World .two) (h12 : w1.SameOpacity w2) (e : Env2 ℝ) (g : Rays2) (bc : Bool) (n : Nat) (p : ProbeIdx2)
    (s s1 s2 : Seg ℝ) (h : MarchRay2 (w1.plus w2) e g bc n p s) (h1 : MarchRay2 w1 e g bc n p s1) (h2 : MarchRay2 w2 e g bc n p s2) :
    s.I = s1.I + s2.I ∧ s1.T = s.T ∧ s2.T = s.T := by
  obtain ⟨seg, f, res, a, b, rfl⟩ := h
  obtain ⟨seg1, f1, res1, a1, b1, rfl⟩ := h1
  obtain ⟨seg2, f2, res2, a2, b2, rfl⟩ := h2
  obtain rfl : seg = seg1 := Option.some.inj (a.symm.trans a1)
  obtain rfl : seg = seg2 := Option.some.inj (a.symm.trans a2)
  have hs : SumArgs ((w1.plus w2).args2 e g bc n p seg) (w1.args2 e g bc n p seg) (w2.args2 e g bc n p seg) :=
    { one := ⟨_, _, rfl⟩, two := by rw [h12]; exact ⟨_, _, rfl⟩, eta := fun m c => rfl,
      bc := by rw [h12]; rfl }
  obtain ⟨x, y, z⟩ := raymarch_add _ _ _ hs f f1 f2 res res1 res2 b b1 b2
  refine ⟨x, ?_, ?_⟩
  · show Real.exp _ = Real.exp _; rw [y]
  · show Real.exp _ = Real.exp _; rw [z]

/-- **C79** (2D, superposition) With the opacities unchanged, the intensities of a formal solution are the sum of those
for part of the emission (of the cells and of the boundary) and of those for the rest. -/
theorem C79_superposition2 (e : Env2 ℝ) (hv : e.cfg.Valid) (hm : e.cfg.mode ≠ .preaverage) (hp : Probes2Ok e) (hnum : 0 < e.num)
    (t waves : Nat) (ht : t < subsetTasks e.cfg) (sched : Task → List JIter) (hs : Sched2 e t waves sched) (lambdaIterate : Bool) (m m1 m2 : Mem ℝ)
    (hmem : ∀ x, x = m ∨ x = m1 ∨ x = m2 → MemShape (bufferSizes e.pp (fun n => cascadeEntries (cascadeSize e.cfg e.c0 n)) e.num) x)
    (w1 w2 : World .two) (h12 : w1.SameOpacity w2) (g : Rays2) (march1 march2 : Bool → Nat → ProbeIdx2 → Seg ℝ)
    (hw : Marches2 (w1.plus w2) e g waves) (hw1 : Marches2 w1 { e with march := march1 } g waves)
    (hw2 : Marches2 w2 { e with march := march2 } g waves) :
    ∃ m' m1' m2' c c1 c2, pass2 e t lambdaIterate sched m = .ok m' ∧ m'.bufs[0]? = some c ∧
      pass2 { e with march := march1 } t lambdaIterate sched m1 = .ok m1' ∧ m1'.bufs[0]? = some c1 ∧
      pass2 { e with march := march2 } t lambdaIterate sched m2 = .ok m2' ∧ m2'.bufs[0]? = some c2 ∧
      ∀ p, Listed2 e 0 p.u p.v → p.wave < waves → InPass2 e.cfg (cascadeComputeSize e.cfg e.c0 0) t p →
        ∃ I1 I2, c1[probeLinearIndex e.cfg (cascadeSize e.cfg e.c0 0) p]? = some I1 ∧
          c2[probeLinearIndex e.cfg (cascadeSize e.cfg e.c0 0) p]? = some I2 ∧
          c[probeLinearIndex e.cfg (cascadeSize e.cfg e.c0 0) p]? = some (I1 + I2) := by
  have hp1 : ∀ mm, Probes2Ok ({ e with march := mm } : Env2 ℝ) := fun mm => ⟨hp.coords, hp.closed⟩
  obtain ⟨m', c, h1, h2, -, h3, -⟩ := C74_pass2 e hv hm hp hnum t waves sched hs lambdaIterate m (hmem m (by simp))
  obtain ⟨m1', c1, i1, i2, -, i3, -⟩ := C74_pass2 { e with march := march1 } hv hm (hp1 _) hnum t waves sched hs
    lambdaIterate m1 (hmem m1 (by simp))
  obtain ⟨m2', c2, j1, j2, -, j3, -⟩ := C74_pass2 { e with march := march2 } hv hm (hp1 _) hnum t waves sched hs
    lambdaIterate m2 (hmem m2 (by simp))
  refine ⟨m', m1', m2', c, c1, c2, h1, h2, i1, i2, j1, j2, fun p a1 a2 a3 => ⟨_, _, i3 p a1 a2 a3, j3 p a1 a2 a3, ?_⟩⟩
  rw [h3 p a1 a2 a3]
  congr 1
  have hV := fun n q U W r (_ : n < e.num) (hq : Ray2 e waves n q) hU hW hr => ray2_child e hv hm waves n q U W r hq hU hW hr
  have hr0 := ray2_of e hp t waves ht p a1 a2 a3
  have hr0' : Ray2 e waves (e.num - e.num) p := by rw [Nat.sub_self]; exact hr0
  have hadd := fun n q (hn : n < e.num) (hq : Ray2 e waves n q) =>
    marchRay2_add w1 w2 h12 e g false n q _ _ _ (hw.1 n q hn hq) (hw1.1 n q hn ⟨hq.u, hq.v, hq.dir, hq.wave, hq.incl⟩)
      (hw2.1 n q hn ⟨hq.u, hq.v, hq.dir, hq.wave, hq.incl⟩)
  have haddt := fun q (hq : Ray2 e waves e.num q) =>
    marchRay2_add w1 w2 h12 e g true e.num q _ _ _ (hw.2 q hq) (hw1.2 q ⟨hq.u, hq.v, hq.dir, hq.wave, hq.incl⟩)
      (hw2.2 q ⟨hq.u, hq.v, hq.dir, hq.wave, hq.incl⟩)
  exact radiance2_addV e.march march1 march2 _ _ _ e.num (Ray2 e waves) hV hadd (fun q hq => (haddt q hq).1) e.num le_rfl p hr0'

theorem marchRay2_mono (w1 w2 : World .two) (h12 : w1.SameOpacity w2) (hsc : 0 ≤ w1.scale)
    (hchi : ∀ la mu m c, 0 ≤ w1.chi la mu m c) (heta : ∀ la mu m c, w1.eta la mu m c ≤ w2.eta la mu m c)
    (hbc : ∀ la x mu, w1.bc la x mu ≤ w2.bc la x mu) (e : Env2 ℝ) (g : Rays2) (bc : Bool) (n : Nat) (p : ProbeIdx2)
    (s1 s2 : Seg ℝ) (h1 : MarchRay2 w1 e g bc n p s1) (h2 : MarchRay2 w2 e g bc n p s2) :
    s1.I ≤ s2.I ∧ s2.T = s1.T ∧ 0 ≤ s1.T := by
  obtain ⟨η, β, rfl⟩ : ∃ η β, w2 = { w1 with eta := η, bc := β } := ⟨_, _, h12⟩
  obtain ⟨seg, f, res, a, b, rfl⟩ := h1
  obtain ⟨seg2, f2, res2, a2, b2, rfl⟩ := h2
  obtain rfl : seg = seg2 := Option.some.inj (a.symm.trans a2)
  obtain ⟨x, y⟩ := raymarch_mono (w1.args2 e g bc n p seg) _ _ hsc (fun m c => hchi _ _ m c) (fun m c => heta _ _ m c)
    (hbc _ _ _) f f2 res res2 b b2
  exact ⟨x, by show Real.exp _ = Real.exp _; rw [y], (Real.exp_pos _).le⟩

/-- **C79** (2D, monotonicity) With the opacities unchanged and not negative, raising the emission anywhere (in the cells or at
the boundary) lowers no intensity. -/
theorem C79_monotone2 (e : Env2 ℝ) (hv : e.cfg.Valid) (hm : e.cfg.mode ≠ .preaverage) (hp : Probes2Ok e) (hnum : 0 < e.num)
    (t waves : Nat) (ht : t < subsetTasks e.cfg) (sched : Task → List JIter) (hs : Sched2 e t waves sched) (lambdaIterate : Bool) (m m1 : Mem ℝ)
    (hmem : ∀ x, x = m ∨ x = m1 → MemShape (bufferSizes e.pp (fun n => cascadeEntries (cascadeSize e.cfg e.c0 n)) e.num) x)
    (w1 w2 : World .two) (h12 : w1.SameOpacity w2) (hsc : 0 ≤ w1.scale) (hchi : ∀ la mu m c, 0 ≤ w1.chi la mu m c)
    (heta : ∀ la mu m c, w1.eta la mu m c ≤ w2.eta la mu m c) (hbc : ∀ la x mu, w1.bc la x mu ≤ w2.bc la x mu)
    (g : Rays2) (march2 : Bool → Nat → ProbeIdx2 → Seg ℝ)
    (hw1 : Marches2 w1 e g waves) (hw2 : Marches2 w2 { e with march := march2 } g waves) :
    ∃ m' m1' c c1, pass2 e t lambdaIterate sched m = .ok m' ∧ m'.bufs[0]? = some c ∧
      pass2 { e with march := march2 } t lambdaIterate sched m1 = .ok m1' ∧ m1'.bufs[0]? = some c1 ∧
      ∀ p, Listed2 e 0 p.u p.v → p.wave < waves → InPass2 e.cfg (cascadeComputeSize e.cfg e.c0 0) t p →
        ∃ I I1, c[probeLinearIndex e.cfg (cascadeSize e.cfg e.c0 0) p]? = some I ∧
          c1[probeLinearIndex e.cfg (cascadeSize e.cfg e.c0 0) p]? = some I1 ∧ I ≤ I1 := by
  obtain ⟨m', c, h1, h2, -, h3, -⟩ := C74_pass2 e hv hm hp hnum t waves sched hs lambdaIterate m (hmem m (by simp))
  obtain ⟨m1', c1, i1, i2, -, i3, -⟩ := C74_pass2 { e with march := march2 } hv hm ⟨hp.coords, hp.closed⟩ hnum t waves sched hs
    lambdaIterate m1 (hmem m1 (by simp))
  refine ⟨m', m1', c, c1, h1, h2, i1, i2, fun p a1 a2 a3 => ⟨_, _, h3 p a1 a2 a3, i3 p a1 a2 a3, ?_⟩⟩
  refine radiance2_monoV e.march march2 _ _ _ e.num (Ray2 e waves)
    (fun n q U W r _ hq hU hW hr => ray2_child e hv hm waves n q U W r hq hU hW hr) (fun n q hn hq => ?_) (fun q hq => ?_)
    e.num le_rfl p (by rw [Nat.sub_self]; exact ray2_of e hp t waves ht p a1 a2 a3)
  · exact marchRay2_mono w1 w2 h12 hsc hchi heta hbc e g false n q _ _ (hw1.1 n q hn hq)
      (hw2.1 n q hn ⟨hq.u, hq.v, hq.dir, hq.wave, hq.incl⟩)
  · exact (marchRay2_mono w1 w2 h12 hsc hchi heta hbc e g true e.num q _ _ (hw1.2 q hq)
      (hw2.2 q ⟨hq.u, hq.v, hq.dir, hq.wave, hq.incl⟩)).1

/-- **C79** (2D, the marches end) In an atmosphere with data in every cell, every ray of every cascade has a segment and
its march ends, unless the number of directions of some cascade is 2 modulo 4 (C77): the hypothesis `Marches2` of the
theorems above is met by exactly one intensity and transmission per ray. -/
theorem C79_dense2 (e : Env2 ℝ) (w : World .two) (g : Rays2) (waves : Nat) (hb : 1 ≤ w.block)
    (hdense : ∀ n c, (w.env n).inBounds c → 0 ≤ (w.env n).sampleLevel c)
    (hdirs : ∀ n, n ≤ e.num → (cascadeComputeSize e.cfg e.c0 n).dirs % 4 ≠ 2)
    (hlen : ∀ n, n ≤ e.num → ((intervalLength e.cfg g.len e.num n).2 : ℝ) - (intervalLength e.cfg g.len e.num n).1 ≤ 1e24) :
    (∃ march, Marches2 w { e with march := march } g waves) ∧
    ∀ bc n p s s', MarchRay2 w e g bc n p s → MarchRay2 w e g bc n p s' → s = s' := by
  constructor
  · have hray : ∀ bc n p, n ≤ e.num → Ray2 e waves n p → ∃ s, MarchRay2 w e g bc n p s := by
      intro bc n p hn hr
      obtain ⟨seg, h1, h2⟩ := C77_segment2_partial e.cfg g.len e.num n (cascadeComputeSize e.cfg e.c0 n).dirs p.u p.v p.dir
        (lt_of_le_of_lt (Nat.zero_le _) hr.dir) (hdirs n hn) hr.dir
      simp only at h2
      obtain ⟨-, hl, -, -, hd, -⟩ := h2
      have hg : GoodSeg (w.args2 e g bc n p seg) := by
        refine ⟨fun i => ?_, fun i _ => Or.inl ((marchSeg2_d _ _ _ _ _ _ _ _ seg h1).2.2 i)⟩
        show |seg.d i| ≤ 1
        rw [hd]
        have hu := C76_unit2 (cascadeComputeSize e.cfg e.c0 n).dirs p.dir
        rw [Fin.sum_univ_two] at hu
        rw [abs_neg, abs_le_one_iff_mul_self_le_one]
        fin_cases i
        · show rayDir2 _ _ 0 * rayDir2 _ _ 0 ≤ 1; nlinarith [sq_nonneg (rayDir2 (cascadeComputeSize e.cfg e.c0 n).dirs p.dir 1)]
        · show rayDir2 _ _ 1 * rayDir2 _ _ 1 ≤ 1; nlinarith [sq_nonneg (rayDir2 (cascadeComputeSize e.cfg e.c0 n).dirs p.dir 0)]
      obtain ⟨N, res, hN⟩ := dense_ends (w.args2 e g bc n p seg) hb hg (hdense n) (by show seg.t1 - seg.t0 ≤ _; rw [hl]; exact hlen n hn)
      exact ⟨segOf res, seg, N, res, h1, hN N le_rfl, rfl⟩
    haveI : Nonempty (Seg ℝ) := ⟨⟨0, 0, 0⟩⟩
    choose! f hf using hray
    exact ⟨f, fun n p hn hr => hf false n p hn.le ⟨hr.u, hr.v, hr.dir, hr.wave, hr.incl⟩,
      fun p hr => hf true e.num p le_rfl ⟨hr.u, hr.v, hr.dir, hr.wave, hr.incl⟩⟩
  · rintro bc n p s s' ⟨seg, f, res, a, b, rfl⟩ ⟨seg', f', res', a', b', rfl⟩
    obtain rfl : seg = seg' := Option.some.inj (a.symm.trans a')
    rw [raymarch_unique _ f f' res res' b b']

end DexRT.Fs
