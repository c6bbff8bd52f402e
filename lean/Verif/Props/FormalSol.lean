import Verif.Lemmas.FormalSol2c
import Verif.Props.ActiveProbes
/-!
C74: what a 2D radiance-cascade formal solution computes.
-/
namespace DexRT.Fs
open DexRT

variable {K : Type} [Field K] [CharZero K]

/-- **C74** One pass of the 2D formal solution with at least one cascade above cascade 0, whatever the buffers held
before and in whatever order the iterations of each kernel run: no access is out of bounds, and afterwards
buffer 0 holds, where `probe_linear_index` looks for it, the specified radiance of every ray of the pass at every
computed probe; the diagonal operator holds that of each ray's own interval if it is wanted and zero for a
Lambda iteration. -/
theorem C74_pass2 (e : Env2 K) (hv : e.cfg.Valid) (hm : e.cfg.mode ≠ .preaverage) (hp : Probes2Ok e)
    (hnum : 0 < e.num) (t waves : Nat) (sched : Task → List JIter) (hs : Sched2 e t waves sched)
    (lambdaIterate : Bool) (m : Mem K)
    (hmem : MemShape (bufferSizes e.pp (fun n => cascadeEntries (cascadeSize e.cfg e.c0 n)) e.num) m) :
    ∃ m' c0, pass2 e t lambdaIterate sched m = .ok m' ∧ m'.bufs[0]? = some c0 ∧
      MemShape (bufferSizes e.pp (fun n => cascadeEntries (cascadeSize e.cfg e.c0 n)) e.num) m' ∧
      (∀ p, Listed2 e 0 p.u p.v → p.wave < waves → InPass2 e.cfg (cascadeComputeSize e.cfg e.c0 0) t p →
        c0[probeLinearIndex e.cfg (cascadeSize e.cfg e.c0 0) p]? =
          some (radiance2 e.march e.c0.np0 e.c0.np1 (upperTexelsPerRay e.cfg) e.num e.num p)) ∧
      (lambdaIterate = false → ∀ ps, m'.psi = some ps → ∀ p, Listed2 e 0 p.u p.v → p.wave < waves →
        InPass2 e.cfg (cascadeComputeSize e.cfg e.c0 0) t p →
        ps[probeLinearIndex e.cfg (cascadeSize e.cfg e.c0 0) p]? = some (e.march false 0 p).psi) ∧
      (lambdaIterate = true → ∀ ps, m'.psi = some ps → ∀ x ∈ ps, x = 0) ∧
      m'.psi.isSome = m.psi.isSome := by
  obtain ⟨m', b, h1, h2, h3, h4, h5, h6, h7⟩ := pass2_ok e hv hm hp hs (fits2 e) hnum lambdaIterate m hmem
  refine ⟨m', b, h1, h4, h2, fun p a1 a2 a3 => h5 p a1 a2 a3, h7, fun hl ps hps x hx => ?_, h3⟩
  rw [h6 hl] at hps
  unfold zeroPsi at hps
  simp only [Option.map_eq_some_iff] at hps
  obtain ⟨q, -, rfl⟩ := hps
  obtain ⟨_, _, rfl⟩ := List.mem_map.1 hx
  rfl

/-- **C74** The same for a pass of the static solution, which also works with cascade 0 alone. -/
theorem C74_static2 (e : Env2 K) (hv : e.cfg.Valid) (hm : e.cfg.mode ≠ .preaverage) (hp : Probes2Ok e)
    (t waves : Nat) (sched : Task → List JIter) (hs : Sched2 e t waves sched) (m : Mem K)
    (hmem : MemShape (bufferSizes e.pp (fun n => cascadeEntries (cascadeSize e.cfg e.c0 n)) e.num) m) :
    ∃ m' c0, passStatic2 e t sched m = .ok m' ∧ m'.bufs[0]? = some c0 ∧
      ∀ p, Listed2 e 0 p.u p.v → p.wave < waves → InPass2 e.cfg (cascadeComputeSize e.cfg e.c0 0) t p →
        c0[probeLinearIndex e.cfg (cascadeSize e.cfg e.c0 0) p]? =
          some (radiance2 e.march e.c0.np0 e.c0.np1 (upperTexelsPerRay e.cfg) e.num e.num p) := by
  obtain ⟨m', b, h1, h2, h3, h4, h5⟩ := passStatic2_ok e hv hm hp hs (fits2 e) m hmem
  exact ⟨m', b, h1, h4, fun p a1 a2 a3 => h5 p a1 a2 a3⟩

/-- **C74** The whole 2D formal solution: it adds to J, at every computed cell and wavelength of the batch, exactly
the angular mean of the specified radiance, and nothing anywhere else. -/
theorem C74_J2 (e : Env2 K) (me : MergeEnv K) (k nx nz : Nat) (Active : Coord2 → Prop) (h : Run2 me k nx nz Active)
    (hcfg : me.cfg = e.cfg) (hc0 : me.s = e.c0) (hP : e.probes 0 = me.P) (hpos : 0 < nx ∧ 0 < nz)
    (hp : Probes2Ok e) (hnum : 0 < e.num) (waves : Nat) (hw : waves ≤ e.c0.wave)
    (sched : Nat → Task → List JIter) (hs : ∀ t, Sched2 e t waves (sched t))
    (jsched : Nat → List JIter)
    (hj : ∀ t n, me.P.num = .ok n → (jsched t).Perm (jIters n.toNat e.c0.dirs waves e.c0.incl))
    (lambdaIterate : Bool) (laStart : Nat) (m : Mem K)
    (hmem : MemShape (bufferSizes e.pp (fun n => cascadeEntries (cascadeSize e.cfg e.c0 n)) e.num) m)
    (J : Arr2 K) (hcols : (J.cols : Int) = jCols2 me k nx nz)
    (hrows : J.rows = e.c0.wave ∨ laStart + waves ≤ J.rows) :
    let I := radiance2 e.march e.c0.np0 e.c0.np1 (upperTexelsPerRay e.cfg) e.num e.num
    let row := fun wave => if J.rows = e.c0.wave then wave else laStart + wave
    ∃ m' J', formalSol2 e me laStart lambdaIterate sched jsched (List.range (subsetTasks e.cfg)) m J = .ok (m', J') ∧
      J'.rows = J.rows ∧ J'.cols = J.cols ∧
      (∀ c, Computed2 me k nx nz Active c → ∃ a, a < J.cols ∧ (∀ a', JAddr2 me c a' ↔ a' = a) ∧
        ∀ wave, wave < waves → J'.get (row wave) a = J.get (row wave) a +
          meanIntensity2 e.cfg.p0rays e.c0.incl me.wmuy I c.x.toNat c.z.toNat wave) ∧
      (∀ r a, (∀ wave, wave < waves → r ≠ row wave) → J'.get r a = J.get r a) := by
  exact fs_J2 e me k nx nz Active h hcfg hc0 hP hpos waves hw jsched hj laStart m _ hmem _
    (fun t m hm' => by
      obtain ⟨m', b, h1, h2, -, h4, h5, -, -⟩ := pass2_ok e (hcfg ▸ h.valid) (hcfg ▸ h.mode) hp (hs t) (fits2 e)
        hnum lambdaIterate m hm'
      exact ⟨m', b, h1, h2, h4, h5⟩) J hcols hrows

/-- **C74** The whole static 2D formal solution, with any number of cascades: it adds to J, at every computed cell and wavelength of the batch, exactly
the angular mean of the specified radiance, and nothing anywhere else. -/
theorem C74_static_J2 (e : Env2 K) (me : MergeEnv K) (k nx nz : Nat) (Active : Coord2 → Prop) (h : Run2 me k nx nz Active)
    (hcfg : me.cfg = e.cfg) (hc0 : me.s = e.c0) (hP : e.probes 0 = me.P) (hpos : 0 < nx ∧ 0 < nz)
    (hp : Probes2Ok e) (waves : Nat) (hw : waves ≤ e.c0.wave)
    (sched : Nat → Task → List JIter) (hs : ∀ t, Sched2 e t waves (sched t))
    (jsched : Nat → List JIter)
    (hj : ∀ t n, me.P.num = .ok n → (jsched t).Perm (jIters n.toNat e.c0.dirs waves e.c0.incl))
    (laStart : Nat) (m : Mem K)
    (hmem : MemShape (bufferSizes e.pp (fun n => cascadeEntries (cascadeSize e.cfg e.c0 n)) e.num) m)
    (J : Arr2 K) (hcols : (J.cols : Int) = jCols2 me k nx nz)
    (hrows : J.rows = e.c0.wave ∨ laStart + waves ≤ J.rows) :
    let I := radiance2 e.march e.c0.np0 e.c0.np1 (upperTexelsPerRay e.cfg) e.num e.num
    let row := fun wave => if J.rows = e.c0.wave then wave else laStart + wave
    ∃ m' J', formalSolStatic2 e me laStart sched jsched (List.range (subsetTasks e.cfg)) m J = .ok (m', J') ∧
      J'.rows = J.rows ∧ J'.cols = J.cols ∧
      (∀ c, Computed2 me k nx nz Active c → ∃ a, a < J.cols ∧ (∀ a', JAddr2 me c a' ↔ a' = a) ∧
        ∀ wave, wave < waves → J'.get (row wave) a = J.get (row wave) a +
          meanIntensity2 e.cfg.p0rays e.c0.incl me.wmuy I c.x.toNat c.z.toNat wave) ∧
      (∀ r a, (∀ wave, wave < waves → r ≠ row wave) → J'.get r a = J.get r a) := by
  exact fs_J2 e me k nx nz Active h hcfg hc0 hP hpos waves hw jsched hj laStart m _ hmem _
    (fun t m hm' => by
      obtain ⟨m', b, h1, h2, -, h4, h5⟩ := passStatic2_ok e (hcfg ▸ h.valid) (hcfg ▸ h.mode) hp (hs t) (fits2 e) m hm'
      exact ⟨m', b, h1, h2, h4, h5⟩) J hcols hrows

/-- The hypothesis on the probe loops holds in every run without sparsity: all probes of all cascades are
computed. -/
theorem C74_probes_dense2 (e : Env2 K) (hpos : 0 < e.c0.np0 ∧ 0 < e.c0.np1)
    (hfit : (e.c0.np0 : Int) * (e.c0.np1 : Int) ≤ i32Max)
    (h : ∀ n, n ≤ e.num → e.probes n =
      { sparse := false, np := { x := probesOn e.c0.np0 n, z := probesOn e.c0.np1 n }, active := [] }) :
    Probes2Ok e ∧ ∀ n, n ≤ e.num → ∀ u v, u < probesOn e.c0.np0 n → v < probesOn e.c0.np1 n → Listed2 e n u v :=
  dense_ok e hpos hfit h

/-- The hypothesis on the probe loops holds with the lists of `compute_active_probe_lists` while the last cascade
is finer than a tile, or when all tiles are active. Missing: coarser cascades of a sparse run, where the lists are
not closed (`C20_refuted`), so the solution there interpolates probes that were never computed. -/
theorem C74_probes_sparse2_partial (e : Env2 K) (k nx nz : Nat) (Active : Coord2 → Prop) (bm : BlockMap Coord2)
    (order : Nat → List Coord2) (h : SparseRun2 e.cfg e.c0 k nx nz Active bm order)
    (hpr : ∀ n, n ≤ e.num → (e.probes n).sparse = true ∧
      activeList2 (2 ^ k) bm (probeDims2 e.cfg e.c0) order n = .ok (e.probes n).active)
    (hcase : e.num + 1 ≤ k ∨ (0 < nx ∧ 0 < nz ∧ ∀ t, Active t)) : Probes2Ok e := by
  refine sparse_ok e h hpr fun n hn => ?_
  rcases hcase with hk | ⟨hx, hz, hA⟩
  · exact C20_fine_partial h n (by omega)
  · have hA' : Active = fun _ => True := by funext t; simp [hA t]
    subst hA'
    obtain ⟨l, l1, -, l3, -⟩ := C20_lists h n
    obtain ⟨up, u1, u2⟩ := C20_all_active_partial hx hz h (n + 1)
    refine ⟨l, up, l1, u1, fun p hp j hj => ?_⟩
    intro s _
    apply u2
    have hd := l3 p hp
    unfold inDims2 at hd ⊢; rw [decide_eq_true_eq] at hd ⊢
    have e0 := np_probesOn e.cfg e.c0 n
    have e1 := np_probesOn e.cfg e.c0 (n + 1)
    have hD : (probeDims2 e.cfg e.c0 (n + 1)).x = ((probesOn e.c0.np0 (n + 1) : Nat) : Int) ∧
        (probeDims2 e.cfg e.c0 (n + 1)).z = ((probesOn e.c0.np1 (n + 1) : Nat) : Int) := by
      unfold probeDims2; exact ⟨by rw [e1.1], by rw [e1.2]⟩
    unfold probeDims2 at hd
    simp only [e0.1, e0.2] at hd
    obtain ⟨u, hu⟩ := Int.eq_ofNat_of_zero_le hd.1
    obtain ⟨v, hv⟩ := Int.eq_ofNat_of_zero_le hd.2.2.1
    have cu : cornerN u < probesOn e.c0.np0 (n + 1) := cornerN_lt (by omega)
    have cv : cornerN v < probesOn e.c0.np1 (n + 1) := cornerN_lt (by omega)
    have cu2 := corner2_lt cu
    have cv2 := corner2_lt cv
    have hs : s = bilinearSample (u : Int) (v : Int) ((probesOn e.c0.np0 (n + 1) : Nat) : Int)
        ((probesOn e.c0.np1 (n + 1) : Nat) : Int) j := by rw [← hD.1, ← hD.2, ← hu, ← hv]
    rw [bilinear_nat u v _ _ cu cv] at hs
    rw [hs, hD.1, hD.2]
    have : j = 0 ∨ j = 1 ∨ j = 2 ∨ j = 3 := by omega
    rcases this with rfl | rfl | rfl | rfl <;> (simp only; omega)

/-- **C74** is false with cascade 0 alone (`max_cascade = 0`, which the configuration accepts): the call that samples
the boundary is followed by one that does not and overwrites its result, so the boundary condition never reaches
J. -/
theorem C74_boundary_lost_refuted (e : Env2 K) (hv : e.cfg.Valid) (hm : e.cfg.mode ≠ .preaverage) (hp : Probes2Ok e)
    (hnum : e.num = 0) (t waves : Nat) (sched : Task → List JIter) (hs : Sched2 e t waves sched)
    (lambdaIterate : Bool) (m : Mem K)
    (hmem : MemShape (bufferSizes e.pp (fun n => cascadeEntries (cascadeSize e.cfg e.c0 n)) e.num) m) :
    ∃ m' c0, pass2 e t lambdaIterate sched m = .ok m' ∧ m'.bufs[0]? = some c0 ∧
      ∀ p, Listed2 e 0 p.u p.v → p.wave < waves → InPass2 e.cfg (cascadeComputeSize e.cfg e.c0 0) t p →
        c0[probeLinearIndex e.cfg (cascadeSize e.cfg e.c0 0) p]? = some (e.march false 0 p).I ∧
        radiance2 e.march e.c0.np0 e.c0.np1 (upperTexelsPerRay e.cfg) e.num e.num p = (e.march true 0 p).I := by
  obtain ⟨m1, b1, c1, c2, c3, c4, c5, c6⟩ := call2_ok e hv hm hp hs (fits2 e) ⟨e.num, true, false⟩
    (le_refl _) (by simp) (zeroPsi m) (zeroPsi_shape hmem) (by simp) (fun h => absurd h (by simp))
  obtain ⟨m', b, d1, d2, d3, d4, d5, d6⟩ := call2_ok e hv hm hp hs (fits2 e)
    ⟨0, false, m.psi.isSome && !lambdaIterate⟩ (Nat.zero_le _) (fun _ => rfl) m1 c2
    (fun h => by
      rw [c3]
      simp only [Bool.and_eq_true] at h
      unfold zeroPsi; simpa using h.1)
    (fun h => absurd h (by simp [hnum]))
  refine ⟨m', b, ?_, by rw [bufOf_zero] at d5; exact d5, fun p h1 h2 h3 => ⟨?_, ?_⟩⟩
  · unfold pass2 tasks2 middleTasks
    have : (List.range (e.num - 1)).reverse.map (fun k => ({ n := k + 1, bc := false, alo := false } : Task)) = [] := by
      rw [hnum]; rfl
    rw [this]
    show (call2 e t sched _ (zeroPsi m)).bind _ = _
    rw [c1]
    show (call2 e t sched _ m1).bind _ = _
    rw [d1]; rfl
  · rw [(d6 p h1 h2 h3).1]
    unfold callVal2
    rw [if_pos hnum.symm]
  · rw [hnum]; rfl

/-- Non-vacuity: 16 by 16 cells, three cascades above cascade 0, the default configuration; any intervals, any
buffer contents of the right sizes, the loops run in order. -/
def exEnv (march : Bool → Nat → ProbeIdx2 → Seg ℚ) (num : Nat) : Env2 ℚ :=
  { cfg := ⟨2, 2, 0, 4, .dirByDir⟩, c0 := ⟨16, 16, 1, 8, 4⟩, num := num, pp := true,
    probes := fun n => { sparse := false, np := { x := probesOn 16 n, z := probesOn 16 n }, active := [] },
    march := march }

example (march : Bool → Nat → ProbeIdx2 → Seg ℚ) (num : Nat) : Probes2Ok (exEnv march num) ∧ (exEnv march num).cfg.Valid ∧
    (exEnv march num).cfg.mode ≠ .preaverage ∧ Listed2 (exEnv march num) 0 5 9 := by
  obtain ⟨h1, h2⟩ := C74_probes_dense2 (exEnv march num) (by simp [exEnv]) (by simp [exEnv, i32Max]) (fun n _ => rfl)
  exact ⟨h1, ⟨by simp [exEnv], by simp [exEnv]⟩, by simp [exEnv],
    h2 0 (Nat.zero_le _) 5 9 (by simp [exEnv, probesOn]) (by simp [exEnv, probesOn])⟩

/-- Non-vacuity: schedules and buffers of the required form exist for every configuration. -/
example (e : Env2 ℚ) (t waves : Nat) (sizes : List Nat) (hne : sizes ≠ []) : (∃ sched, Sched2 e t waves sched) ∧
    ∃ m : Mem ℚ, MemShape sizes m ∧ m.psi.isSome = true := by
  refine ⟨⟨fun k => match (e.probes k.n).num with
    | .ok N => iters2 e k.n t waves N.toNat
    | _ => [], fun k N _ hN => by simp [hN]⟩,
    ⟨sizes.map fun s => List.replicate s 0, some (List.replicate (sizes[0]?.getD 0) 0)⟩, ⟨?_, ?_⟩, rfl⟩
  · simp [List.map_map, Function.comp_def]
  · intro ps hps
    injection hps with hps
    subst hps
    cases sizes with
    | nil => exact absurd rfl hne
    | cons a as => simp

/-- The loss is real: a ray that sees only the boundary has radiance 1, but 0 is stored. -/
example : radiance2 (fun bc _ _ => (⟨if bc then 1 else 0, 1, 0⟩ : Seg ℚ)) 16 16 (fun _ => 4) 0 0 ⟨0, 0, 0, 0, 0⟩ = 1 := rfl

end DexRT.Fs
