import Verif.Lemmas.FormalBounds2
import Verif.Props.FormalSol
import Verif.Props.FormalSol3
/-!
C75: the radiation field a formal solution leaves behind stays within the range of its sources and boundary, is
in equilibrium with a uniform source, depends linearly on emission and boundary, and never decreases when they
increase.
-/
namespace DexRT.Fs
open DexRT

/-- **C75** After a pass of the 2D formal solution, every intensity of cascade 0 lies between the smallest and the
largest of the source functions crossed and the boundary intensities. -/
theorem C75_bounds2 (e : Env2 ℝ) (hv : e.cfg.Valid) (hm : e.cfg.mode ≠ .preaverage) (hp : Probes2Ok e)
    (hnum : 0 < e.num) (t waves : Nat) (sched : Task → List JIter) (hs : Sched2 e t waves sched)
    (lambdaIterate : Bool) (m : Mem ℝ)
    (hmem : MemShape (bufferSizes e.pp (fun n => cascadeEntries (cascadeSize e.cfg e.c0 n)) e.num) m)
    (es : Bool) (scale : ℝ) (hsc : 0 ≤ scale) (invSin : ProbeIdx2 → ℝ) (his : ∀ p, 0 ≤ invSin p)
    (bd : ProbeIdx2 → ℝ) (steps : Nat → ProbeIdx2 → List Step)
    (hmarch : ∀ bc n p, e.march bc n p = realSeg es scale (invSin p) (if bc then bd p else 0) (steps n p))
    (lo hi : ℝ) (hbd : ∀ p, lo ≤ bd p ∧ bd p ≤ hi) (hst : ∀ n p, ∀ s ∈ steps n p, StepIn es lo hi s) :
    ∃ m' c0, pass2 e t lambdaIterate sched m = .ok m' ∧ m'.bufs[0]? = some c0 ∧
      ∀ p, Listed2 e 0 p.u p.v → p.wave < waves → InPass2 e.cfg (cascadeComputeSize e.cfg e.c0 0) t p →
        ∃ I, c0[probeLinearIndex e.cfg (cascadeSize e.cfg e.c0 0) p]? = some I ∧ lo ≤ I ∧ I ≤ hi := by
  obtain ⟨m', c0, h1, h2, -, h3, -⟩ := C74_pass2 e hv hm hp hnum t waves sched hs lambdaIterate m hmem
  refine ⟨m', c0, h1, h2, fun p a1 a2 a3 => ⟨_, h3 p a1 a2 a3, ?_⟩⟩
  obtain ⟨l1, l2⟩ := listed2_lt hp (Nat.zero_le _) a1
  refine radiance2_in e.march _ _ _ (texels_pos e.cfg) e.num (fun n q _ => ?_) (fun q => ?_) e.num (le_refl _) p ?_ ?_
  · rw [hmarch]
    exact realSeg_in es hsc (his q) _ (hst n q)
  · rw [hmarch]
    exact C24_between es hsc (his q) _ (hst _ q) (hbd q).1 (hbd q).2
  · rw [Nat.sub_self]; exact l1
  · rw [Nat.sub_self]; exact l2

/-- **C75** A uniform source function and a boundary of the same intensity give exactly that intensity everywhere. -/
theorem C75_equilibrium2 (e : Env2 ℝ) (hv : e.cfg.Valid) (hm : e.cfg.mode ≠ .preaverage) (hp : Probes2Ok e)
    (hnum : 0 < e.num) (t waves : Nat) (sched : Task → List JIter) (hs : Sched2 e t waves sched)
    (lambdaIterate : Bool) (m : Mem ℝ)
    (hmem : MemShape (bufferSizes e.pp (fun n => cascadeEntries (cascadeSize e.cfg e.c0 n)) e.num) m)
    (es : Bool) (scale : ℝ) (hsc : 0 ≤ scale) (invSin : ProbeIdx2 → ℝ) (his : ∀ p, 0 ≤ invSin p)
    (S : ℝ) (steps : Nat → ProbeIdx2 → List Step)
    (hmarch : ∀ bc n p, e.march bc n p = realSeg es scale (invSin p) (if bc then S else 0) (steps n p))
    (hst : ∀ n p, ∀ s ∈ steps n p, 0 ≤ s.chi ∧ 0 ≤ s.dt ∧ (s.sample = true → sourceFn es s = S)) :
    ∃ m' c0, pass2 e t lambdaIterate sched m = .ok m' ∧ m'.bufs[0]? = some c0 ∧
      ∀ p, Listed2 e 0 p.u p.v → p.wave < waves → InPass2 e.cfg (cascadeComputeSize e.cfg e.c0 0) t p →
        c0[probeLinearIndex e.cfg (cascadeSize e.cfg e.c0 0) p]? = some S := by
  obtain ⟨m', c0, h1, h2, h3⟩ := C75_bounds2 e hv hm hp hnum t waves sched hs lambdaIterate m hmem es scale hsc invSin
    his (fun _ => S) steps hmarch S S (fun _ => ⟨le_refl _, le_refl _⟩)
    (fun n p s h => ⟨(hst n p s h).1, (hst n p s h).2.1, fun hs' => by rw [(hst n p s h).2.2 hs']; exact ⟨le_refl _, le_refl _⟩⟩)
  refine ⟨m', c0, h1, h2, fun p a1 a2 a3 => ?_⟩
  obtain ⟨I, g1, g2, g3⟩ := h3 p a1 a2 a3
  rw [g1, le_antisymm g3 g2]

/-- **C75** Superposition: the intensities of a run whose intervals and boundary emit the sum of those of two others
(with the same absorption) are the sums of theirs. -/
theorem C75_superposition2 (e : Env2 ℝ) (hv : e.cfg.Valid) (hm : e.cfg.mode ≠ .preaverage) (hp : Probes2Ok e)
    (hnum : 0 < e.num) (t waves : Nat) (sched : Task → List JIter) (hs : Sched2 e t waves sched)
    (lambdaIterate : Bool) (m m1 m2 : Mem ℝ)
    (hmem : ∀ x, x = m ∨ x = m1 ∨ x = m2 → MemShape (bufferSizes e.pp (fun n => cascadeEntries (cascadeSize e.cfg e.c0 n)) e.num) x)
    (march1 march2 : Bool → Nat → ProbeIdx2 → Seg ℝ) (hT : ∀ n p, (march1 false n p).T = (march2 false n p).T)
    (hadd : ∀ bc n p, e.march bc n p = addSeg (march1 bc n p) (march2 bc n p)) :
    ∃ m' m1' m2' c c1 c2, pass2 e t lambdaIterate sched m = .ok m' ∧ m'.bufs[0]? = some c ∧
      pass2 { e with march := march1 } t lambdaIterate sched m1 = .ok m1' ∧ m1'.bufs[0]? = some c1 ∧
      pass2 { e with march := march2 } t lambdaIterate sched m2 = .ok m2' ∧ m2'.bufs[0]? = some c2 ∧
      ∀ p, Listed2 e 0 p.u p.v → p.wave < waves → InPass2 e.cfg (cascadeComputeSize e.cfg e.c0 0) t p →
        ∃ I1 I2, c1[probeLinearIndex e.cfg (cascadeSize e.cfg e.c0 0) p]? = some I1 ∧
          c2[probeLinearIndex e.cfg (cascadeSize e.cfg e.c0 0) p]? = some I2 ∧
          c[probeLinearIndex e.cfg (cascadeSize e.cfg e.c0 0) p]? = some (I1 + I2) := by
  have hp1 : ∀ mm, Probes2Ok ({ e with march := mm } : Env2 ℝ) := fun mm => ⟨hp.coords, hp.closed⟩
  obtain ⟨m', c, h1, h2, -, h3, -⟩ := C74_pass2 e hv hm hp hnum t waves sched hs lambdaIterate m (hmem m (by simp))
  obtain ⟨m1', c1, i1, i2, -, i3, -⟩ := C74_pass2 { e with march := march1 } hv hm (hp1 _) hnum t waves sched hs
    lambdaIterate m1 (hmem m1 (by simp))
  obtain ⟨m2', c2, j1, j2, -, j3, -⟩ := C74_pass2 { e with march := march2 } hv hm (hp1 _) hnum t waves sched hs
    lambdaIterate m2 (hmem m2 (by simp))
  refine ⟨m', m1', m2', c, c1, c2, h1, h2, i1, i2, j1, j2, fun p a1 a2 a3 => ⟨_, _, i3 p a1 a2 a3, j3 p a1 a2 a3, ?_⟩⟩
  rw [h3 p a1 a2 a3]
  have : e.march = fun bc n q => addSeg (march1 bc n q) (march2 bc n q) := by funext bc n q; exact hadd bc n q
  rw [this, radiance2_add march1 march2 hT]

/-- **C75** Monotonicity: more emission in any interval or at any boundary never lowers an intensity. -/
theorem C75_monotone2 (e : Env2 ℝ) (hv : e.cfg.Valid) (hm : e.cfg.mode ≠ .preaverage) (hp : Probes2Ok e)
    (hnum : 0 < e.num) (t waves : Nat) (sched : Task → List JIter) (hs : Sched2 e t waves sched)
    (lambdaIterate : Bool) (m m1 : Mem ℝ)
    (hmem : ∀ x, x = m ∨ x = m1 → MemShape (bufferSizes e.pp (fun n => cascadeEntries (cascadeSize e.cfg e.c0 n)) e.num) x)
    (more : Bool → Nat → ProbeIdx2 → Seg ℝ) (hT : ∀ n p, 0 ≤ (e.march false n p).T ∧ (e.march false n p).T = (more false n p).T)
    (hI : ∀ bc n p, (e.march bc n p).I ≤ (more bc n p).I) :
    ∃ m' m1' c c1, pass2 e t lambdaIterate sched m = .ok m' ∧ m'.bufs[0]? = some c ∧
      pass2 { e with march := more } t lambdaIterate sched m1 = .ok m1' ∧ m1'.bufs[0]? = some c1 ∧
      ∀ p, Listed2 e 0 p.u p.v → p.wave < waves → InPass2 e.cfg (cascadeComputeSize e.cfg e.c0 0) t p →
        ∃ I I1, c[probeLinearIndex e.cfg (cascadeSize e.cfg e.c0 0) p]? = some I ∧
          c1[probeLinearIndex e.cfg (cascadeSize e.cfg e.c0 0) p]? = some I1 ∧ I ≤ I1 := by
  obtain ⟨m', c, h1, h2, -, h3, -⟩ := C74_pass2 e hv hm hp hnum t waves sched hs lambdaIterate m (hmem m (by simp))
  obtain ⟨m1', c1, i1, i2, -, i3, -⟩ := C74_pass2 { e with march := more } hv hm ⟨hp.coords, hp.closed⟩ hnum t waves sched hs
    lambdaIterate m1 (hmem m1 (by simp))
  exact ⟨m', m1', c, c1, h1, h2, i1, i2, fun p a1 a2 a3 => ⟨_, _, h3 p a1 a2 a3, i3 p a1 a2 a3,
    radiance2_mono e.march more (fun n q => (hT n q).1) (fun n q => (hT n q).2) hI _ _ _ _ _ p⟩⟩

/-- **C75** What a 2D formal solution adds to J lies between `lo` and `hi` times the sum of the inclination weights
(one up to the rounding of the constants, C24), when the intervals emit within `[lo, hi]`. -/
theorem C75_J2 {K : Type} [Field K] [LinearOrder K] [IsStrictOrderedRing K] (e : Env2 K) (me : MergeEnv K) (k nx nz : Nat) (Active : Coord2 → Prop) (h : Run2 me k nx nz Active)
    (hcfg : me.cfg = e.cfg) (hc0 : me.s = e.c0) (hP : e.probes 0 = me.P) (hpos : 0 < nx ∧ 0 < nz)
    (hp : Probes2Ok e) (hnum : 0 < e.num) (waves : Nat) (hw : waves ≤ e.c0.wave)
    (sched : Nat → Task → List JIter) (hs : ∀ t, Sched2 e t waves (sched t))
    (jsched : Nat → List JIter)
    (hj : ∀ t n, me.P.num = .ok n → (jsched t).Perm (jIters n.toNat e.c0.dirs waves e.c0.incl))
    (lambdaIterate : Bool) (laStart : Nat) (m : Mem K)
    (hmem : MemShape (bufferSizes e.pp (fun n => cascadeEntries (cascadeSize e.cfg e.c0 n)) e.num) m)
    (J : Arr2 K) (hcols : (J.cols : Int) = jCols2 me k nx nz)
    (hrows : J.rows = e.c0.wave ∨ laStart + waves ≤ J.rows)
    (lo hi : K) (hseg : ∀ n p, n < e.num → SegIn lo hi (e.march false n p))
    (htop : ∀ p, lo ≤ (e.march true e.num p).I ∧ (e.march true e.num p).I ≤ hi) (hwt : ∀ x ∈ me.wmuy, 0 ≤ x) :
    let row := fun wave => if J.rows = e.c0.wave then wave else laStart + wave
    let W := ∑ th ∈ Finset.range e.c0.incl, me.wmuy.getD th 0
    ∃ m' J', formalSol2 e me laStart lambdaIterate sched jsched (List.range (subsetTasks e.cfg)) m J = .ok (m', J') ∧
      ∀ c, Computed2 me k nx nz Active c → ∃ a, a < J.cols ∧ (∀ a', JAddr2 me c a' ↔ a' = a) ∧
        ∀ wave, wave < waves → lo * W ≤ J'.get (row wave) a - J.get (row wave) a ∧
          J'.get (row wave) a - J.get (row wave) a ≤ hi * W := by
  intro row W
  obtain ⟨m', J', h1, -, -, h2, -⟩ := C74_J2 e me k nx nz Active h hcfg hc0 hP hpos hp hnum waves hw sched hs jsched hj
    lambdaIterate laStart m hmem J hcols hrows
  refine ⟨m', J', h1, fun c hc => ?_⟩
  obtain ⟨a, a1, a2, a3⟩ := h2 c hc
  refine ⟨a, a1, a2, fun wave hwv => ?_⟩
  have := a3 wave hwv
  show lo * W ≤ J'.get (if J.rows = e.c0.wave then wave else laStart + wave) a - J.get (if J.rows = e.c0.wave then wave else laStart + wave) a ∧ _
  rw [this, add_sub_cancel_left]
  have hrays : 0 < e.cfg.p0rays := by rw [← hcfg]; exact h.valid.1
  obtain ⟨l1, l2⟩ := listed2_lt hp (Nat.zero_le _) (computed2_listed h hP hc)
  exact mean2_in _ _ hrays _ hwt _ _ _ _ fun d th =>
    radiance2_in e.march _ _ _ (texels_pos e.cfg) e.num hseg htop e.num (le_refl _) _
      (by rw [Nat.sub_self]; exact l1) (by rw [Nat.sub_self]; exact l2)

/-- **C75** (3D bounds) as `C75_bounds2`. -/
theorem C75_bounds3 (e : Env3 ℝ) (hr : 0 < e.cfg.c0az ∧ 0 < e.cfg.c0polar)
    (hb : 0 < (upperTexels3 e.cfg.branch).1 ∧ 0 < (upperTexels3 e.cfg.branch).2) (ho : NoOverflow3 e) (hp : Probes3Ok e)
    (hnum : 0 < e.num) (t : Nat) (ht : t < subsetTasks3 e.cfg) (sched : Task → List JIter3) (hs : Sched3 e t sched)
    (sizes : List Nat) (hfit : BuffersFit3 e sizes) (lambdaIterate : Bool) (m : Mem ℝ) (hmem : MemShape sizes m)
    (es : Bool) (scale : ℝ) (hsc : 0 ≤ scale) (bd : ProbeIdx3 → ℝ) (steps : Nat → ProbeIdx3 → List Step)
    (hmarch : ∀ bc n p, e.march bc n p = realSeg es scale 1 (if bc then bd p else 0) (steps n p))
    (lo hi : ℝ) (hbd : ∀ p, lo ≤ bd p ∧ bd p ≤ hi) (hst : ∀ n p, ∀ s ∈ steps n p, StepIn es lo hi s) :
    ∃ m' c0, pass3 e t lambdaIterate sched m = .ok m' ∧ m'.bufs[0]? = some c0 ∧
      ∀ p, Listed3 e 0 p.u p.v p.w → InPass3 e.cfg (cascadeComputeSize3 e.cfg e.c0 0) t p →
        ∃ I, c0[probeLinearIndex3 e.cfg (cascadeSize3 e.cfg.branch e.c0 0) p]? = some I ∧ lo ≤ I ∧ I ≤ hi := by
  obtain ⟨m', c0, h1, h2, -, h3, -⟩ := C74_pass3 e hr ho hp hnum t ht sched hs sizes hfit lambdaIterate m hmem
  refine ⟨m', c0, h1, h2, fun p a1 a2 => ⟨_, h3 p a1 a2, ?_⟩⟩
  obtain ⟨l1, l2, l3⟩ := listed3_lt hp (Nat.zero_le _) a1
  refine radiance3_in e.march _ _ _ _ _ hb.1 hb.2 e.num (fun n q _ => ?_) (fun q => ?_) e.num (le_refl _) p ?_ ?_ ?_
  · rw [hmarch]
    exact realSeg_in es hsc zero_le_one _ (hst n q)
  · rw [hmarch]
    exact C24_between es hsc zero_le_one _ (hst _ q) (hbd q).1 (hbd q).2
  all_goals rw [Nat.sub_self]; assumption

/-- **C75** (3D equilibrium) as `C75_equilibrium2`. -/
theorem C75_equilibrium3 (e : Env3 ℝ) (hr : 0 < e.cfg.c0az ∧ 0 < e.cfg.c0polar)
    (hb : 0 < (upperTexels3 e.cfg.branch).1 ∧ 0 < (upperTexels3 e.cfg.branch).2) (ho : NoOverflow3 e) (hp : Probes3Ok e)
    (hnum : 0 < e.num) (t : Nat) (ht : t < subsetTasks3 e.cfg) (sched : Task → List JIter3) (hs : Sched3 e t sched)
    (sizes : List Nat) (hfit : BuffersFit3 e sizes) (lambdaIterate : Bool) (m : Mem ℝ) (hmem : MemShape sizes m)
    (es : Bool) (scale : ℝ) (hsc : 0 ≤ scale) (S : ℝ) (steps : Nat → ProbeIdx3 → List Step)
    (hmarch : ∀ bc n p, e.march bc n p = realSeg es scale 1 (if bc then S else 0) (steps n p))
    (hst : ∀ n p, ∀ s ∈ steps n p, 0 ≤ s.chi ∧ 0 ≤ s.dt ∧ (s.sample = true → sourceFn es s = S)) :
    ∃ m' c0, pass3 e t lambdaIterate sched m = .ok m' ∧ m'.bufs[0]? = some c0 ∧
      ∀ p, Listed3 e 0 p.u p.v p.w → InPass3 e.cfg (cascadeComputeSize3 e.cfg e.c0 0) t p →
        c0[probeLinearIndex3 e.cfg (cascadeSize3 e.cfg.branch e.c0 0) p]? = some S := by
  obtain ⟨m', c0, h1, h2, h3⟩ := C75_bounds3 e hr hb ho hp hnum t ht sched hs sizes hfit lambdaIterate m hmem es scale
    hsc (fun _ => S) steps hmarch S S (fun _ => ⟨le_refl _, le_refl _⟩)
    (fun n p s h => ⟨(hst n p s h).1, (hst n p s h).2.1, fun hs' => by rw [(hst n p s h).2.2 hs']; exact ⟨le_refl _, le_refl _⟩⟩)
  refine ⟨m', c0, h1, h2, fun p a1 a2 => ?_⟩
  obtain ⟨I, g1, g2, g3⟩ := h3 p a1 a2
  rw [g1, le_antisymm g3 g2]

/-- **C75** (3D superposition) as `C75_superposition2`. -/
theorem C75_superposition3 (e : Env3 ℝ) (hr : 0 < e.cfg.c0az ∧ 0 < e.cfg.c0polar) (ho : NoOverflow3 e) (hp : Probes3Ok e)
    (hnum : 0 < e.num) (t : Nat) (ht : t < subsetTasks3 e.cfg) (sched : Task → List JIter3) (hs : Sched3 e t sched)
    (sizes : List Nat) (hfit : BuffersFit3 e sizes) (lambdaIterate : Bool) (m m1 m2 : Mem ℝ)
    (hmem : ∀ x, x = m ∨ x = m1 ∨ x = m2 → MemShape sizes x)
    (march1 march2 : Bool → Nat → ProbeIdx3 → Seg ℝ) (hT : ∀ n p, (march1 false n p).T = (march2 false n p).T)
    (hadd : ∀ bc n p, e.march bc n p = addSeg (march1 bc n p) (march2 bc n p)) :
    ∃ m' m1' m2' c c1 c2, pass3 e t lambdaIterate sched m = .ok m' ∧ m'.bufs[0]? = some c ∧
      pass3 { e with march := march1 } t lambdaIterate sched m1 = .ok m1' ∧ m1'.bufs[0]? = some c1 ∧
      pass3 { e with march := march2 } t lambdaIterate sched m2 = .ok m2' ∧ m2'.bufs[0]? = some c2 ∧
      ∀ p, Listed3 e 0 p.u p.v p.w → InPass3 e.cfg (cascadeComputeSize3 e.cfg e.c0 0) t p →
        ∃ I1 I2, c1[probeLinearIndex3 e.cfg (cascadeSize3 e.cfg.branch e.c0 0) p]? = some I1 ∧
          c2[probeLinearIndex3 e.cfg (cascadeSize3 e.cfg.branch e.c0 0) p]? = some I2 ∧
          c[probeLinearIndex3 e.cfg (cascadeSize3 e.cfg.branch e.c0 0) p]? = some (I1 + I2) := by
  have hp1 : ∀ mm, Probes3Ok ({ e with march := mm } : Env3 ℝ) := fun mm => ⟨hp.coords, hp.closed⟩
  obtain ⟨m', c, h1, h2, -, h3, -⟩ := C74_pass3 e hr ho hp hnum t ht sched hs sizes hfit lambdaIterate m (hmem m (by simp))
  obtain ⟨m1', c1, i1, i2, -, i3, -⟩ := C74_pass3 { e with march := march1 } hr ho (hp1 _) hnum t ht sched hs sizes hfit
    lambdaIterate m1 (hmem m1 (by simp))
  obtain ⟨m2', c2, j1, j2, -, j3, -⟩ := C74_pass3 { e with march := march2 } hr ho (hp1 _) hnum t ht sched hs sizes hfit
    lambdaIterate m2 (hmem m2 (by simp))
  refine ⟨m', m1', m2', c, c1, c2, h1, h2, i1, i2, j1, j2, fun p a1 a2 => ⟨_, _, i3 p a1 a2, j3 p a1 a2, ?_⟩⟩
  rw [h3 p a1 a2]
  have : e.march = fun bc n q => addSeg (march1 bc n q) (march2 bc n q) := by funext bc n q; exact hadd bc n q
  rw [this, radiance3_add march1 march2 hT]

/-- **C75** (3D monotonicity) as `C75_monotone2`. -/
theorem C75_monotone3 (e : Env3 ℝ) (hr : 0 < e.cfg.c0az ∧ 0 < e.cfg.c0polar) (ho : NoOverflow3 e) (hp : Probes3Ok e)
    (hnum : 0 < e.num) (t : Nat) (ht : t < subsetTasks3 e.cfg) (sched : Task → List JIter3) (hs : Sched3 e t sched)
    (sizes : List Nat) (hfit : BuffersFit3 e sizes) (lambdaIterate : Bool) (m m1 : Mem ℝ)
    (hmem : ∀ x, x = m ∨ x = m1 → MemShape sizes x)
    (more : Bool → Nat → ProbeIdx3 → Seg ℝ) (hT : ∀ n p, 0 ≤ (e.march false n p).T ∧ (e.march false n p).T = (more false n p).T)
    (hI : ∀ bc n p, (e.march bc n p).I ≤ (more bc n p).I) :
    ∃ m' m1' c c1, pass3 e t lambdaIterate sched m = .ok m' ∧ m'.bufs[0]? = some c ∧
      pass3 { e with march := more } t lambdaIterate sched m1 = .ok m1' ∧ m1'.bufs[0]? = some c1 ∧
      ∀ p, Listed3 e 0 p.u p.v p.w → InPass3 e.cfg (cascadeComputeSize3 e.cfg e.c0 0) t p →
        ∃ I I1, c[probeLinearIndex3 e.cfg (cascadeSize3 e.cfg.branch e.c0 0) p]? = some I ∧
          c1[probeLinearIndex3 e.cfg (cascadeSize3 e.cfg.branch e.c0 0) p]? = some I1 ∧ I ≤ I1 := by
  obtain ⟨m', c, h1, h2, -, h3, -⟩ := C74_pass3 e hr ho hp hnum t ht sched hs sizes hfit lambdaIterate m (hmem m (by simp))
  obtain ⟨m1', c1, i1, i2, -, i3, -⟩ := C74_pass3 { e with march := more } hr ho ⟨hp.coords, hp.closed⟩ hnum t ht sched hs
    sizes hfit lambdaIterate m1 (hmem m1 (by simp))
  exact ⟨m', m1', c, c1, h1, h2, i1, i2, fun p a1 a2 => ⟨_, _, h3 p a1 a2, i3 p a1 a2,
    radiance3_mono e.march more (fun n q => (hT n q).1) (fun n q => (hT n q).2) hI _ _ _ _ _ _ _ p⟩⟩

/-- **C75** What a 3D formal solution adds to J lies between `lo` and `hi`, exactly. -/
theorem C75_J3 {K : Type} [Field K] [LinearOrder K] [IsStrictOrderedRing K] (e : Env3 K) (me : MergeEnv3) (k nx ny nz : Nat) (Active : Coord3 → Prop)
    (h : Run3 me k nx ny nz Active) (hcfg : me.cfg = e.cfg) (hc0 : me.s = e.c0) (hP : e.probes 0 = me.P)
    (hb : 0 < (upperTexels3 e.cfg.branch).1 ∧ 0 < (upperTexels3 e.cfg.branch).2)
    (ho : NoOverflow3 e) (hp : Probes3Ok e) (hnum : 0 < e.num)
    (sched : Nat → Task → List JIter3) (hs : ∀ t, Sched3 e t (sched t))
    (jsched : Nat → List JIter3)
    (hj : ∀ t n, me.P.num = .ok n → (jsched t).Perm (jIters3 n.toNat e.c0.polar e.c0.az))
    (lambdaIterate : Bool) (la : Nat) (sizes : List Nat) (hfit : BuffersFit3 e sizes) (m : Mem K)
    (hmem : MemShape sizes m)
    (J : Arr2 K) (hcols : (J.cols : Int) = jCols3 me k nx ny nz) (hrows : J.rows = 1 ∨ la < J.rows)
    (lo hi : K) (hseg : ∀ n p, n < e.num → SegIn lo hi (e.march false n p))
    (htop : ∀ p, lo ≤ (e.march true e.num p).I ∧ (e.march true e.num p).I ≤ hi) :
    let row := if J.rows = 1 then 0 else la
    ∃ m' J', formalSol3 e me la lambdaIterate sched jsched (List.range (subsetTasks3 e.cfg)) m J = .ok (m', J') ∧
      ∀ c, Computed3 me k nx ny nz Active c → ∃ a, a < J.cols ∧ (∀ a', JAddr3 me c a' ↔ a' = a) ∧
        lo ≤ J'.get row a - J.get row a ∧ J'.get row a - J.get row a ≤ hi := by
  intro row
  obtain ⟨m', J', h1, -, -, h2, -⟩ := C74_J3 e me k nx ny nz Active h hcfg hc0 hP ho hp hnum sched hs jsched hj
    lambdaIterate la sizes hfit m hmem J hcols hrows
  refine ⟨m', J', h1, fun c hc => ?_⟩
  obtain ⟨a, a1, a2, a3⟩ := h2 c hc
  refine ⟨a, a1, a2, ?_⟩
  show lo ≤ J'.get (if J.rows = 1 then 0 else la) a - J.get (if J.rows = 1 then 0 else la) a ∧ _
  rw [a3, add_sub_cancel_left]
  have hr := h.rays
  rw [hcfg] at hr
  obtain ⟨l1, l2, l3⟩ := listed3_lt hp (Nat.zero_le _) (computed3_listed h hP hc)
  exact mean3_in _ _ hr.1 hr.2 _ _ _ _ fun q d =>
    radiance3_in e.march _ _ _ _ _ hb.1 hb.2 e.num hseg htop e.num (le_refl _) _
      (by rw [Nat.sub_self]; exact l1) (by rw [Nat.sub_self]; exact l2) (by rw [Nat.sub_self]; exact l3)

/-- Non-vacuity: a cell of opacity 1 and source function 2 seen under a boundary of intensity 3 lies within [2, 3]. -/
example : StepIn true 2 3 ⟨true, 2 * chiUsed true 1, 1, 1⟩ ∧
    SegIn 2 3 (realSeg true 1 1 0 [⟨true, 2 * chiUsed true 1, 1, 1⟩]) := by
  have h : StepIn true 2 3 ⟨true, 2 * chiUsed true 1, 1, 1⟩ := by
    refine ⟨by norm_num, by norm_num, fun _ => ?_⟩
    have := chiUsed_pos true (show (0 : ℝ) ≤ 1 by norm_num)
    have h0 : chiUsed true 1 ≠ 0 := by linarith [show (0 : ℝ) < 1e-15 by norm_num]
    show 2 ≤ 2 * chiUsed true 1 / chiUsed true 1 ∧ 2 * chiUsed true 1 / chiUsed true 1 ≤ 3
    rw [mul_div_assoc, div_self h0]; norm_num
  exact ⟨h, realSeg_in true (by norm_num) (by norm_num) _ (by intro s hs; rw [List.mem_singleton.1 hs]; exact h)⟩

/-- Non-vacuity: rational intervals within [1, 4], opaque, transparent and half-transparent. -/
example : SegIn (1 : ℚ) 4 ⟨2, 0, 0⟩ ∧ SegIn (1 : ℚ) 4 ⟨0, 1, 0⟩ ∧ SegIn (1 : ℚ) 4 ⟨1, 1 / 2, 0⟩ := by
  refine ⟨⟨?_, ?_, ?_, ?_⟩, ⟨?_, ?_, ?_, ?_⟩, ⟨?_, ?_, ?_, ?_⟩⟩ <;> norm_num

end DexRT.Fs
