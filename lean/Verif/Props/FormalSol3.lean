import Verif.Lemmas.FormalSol3d
/-!
C74: what a 3D radiance-cascade formal solution computes.
-/
namespace DexRT.Fs
open DexRT

variable {K : Type} [Field K] [CharZero K]

/-- **C74** One pass of the 3D formal solution with at least one cascade above cascade 0: as `C74_pass2`. -/
theorem C74_pass3 (e : Env3 K) (hr : 0 < e.cfg.c0az ∧ 0 < e.cfg.c0polar) (ho : NoOverflow3 e) (hp : Probes3Ok e)
    (hnum : 0 < e.num) (t : Nat) (ht : t < subsetTasks3 e.cfg) (sched : Task → List JIter3) (hs : Sched3 e t sched)
    (sizes : List Nat) (hfit : BuffersFit3 e sizes) (lambdaIterate : Bool) (m : Mem K) (hmem : MemShape sizes m) :
    ∃ m' c0, pass3 e t lambdaIterate sched m = .ok m' ∧ m'.bufs[0]? = some c0 ∧ MemShape sizes m' ∧
      (∀ p, Listed3 e 0 p.u p.v p.w → InPass3 e.cfg (cascadeComputeSize3 e.cfg e.c0 0) t p →
        c0[probeLinearIndex3 e.cfg (cascadeSize3 e.cfg.branch e.c0 0) p]? =
          some (radiance3 e.march e.c0.np0 e.c0.np1 e.c0.np2 (upperTexels3 e.cfg.branch).1
            (upperTexels3 e.cfg.branch).2 e.num e.num p)) ∧
      (lambdaIterate = false → ∀ ps, m'.psi = some ps → ∀ p, Listed3 e 0 p.u p.v p.w →
        InPass3 e.cfg (cascadeComputeSize3 e.cfg e.c0 0) t p →
        ps[probeLinearIndex3 e.cfg (cascadeSize3 e.cfg.branch e.c0 0) p]? = some (e.march false 0 p).psi) ∧
      (lambdaIterate = true → ∀ ps, m'.psi = some ps → ∀ x ∈ ps, x = 0) ∧
      m'.psi.isSome = m.psi.isSome := by
  obtain ⟨m', b, h1, h2, h3, h4, h5, h6, h7⟩ := pass3_ok e hr ho hp ht hs (fits3 e hfit) hnum lambdaIterate m hmem
  refine ⟨m', b, h1, h4, h2, fun p a1 a2 => h5 p a1 a2, h7, fun hl ps hps x hx => ?_, h3⟩
  rw [h6 hl] at hps
  unfold zeroPsi at hps
  simp only [Option.map_eq_some_iff] at hps
  obtain ⟨q, -, rfl⟩ := hps
  obtain ⟨_, _, rfl⟩ := List.mem_map.1 hx
  rfl

/-- **C74** The whole 3D formal solution: it adds to J, at every computed cell, exactly the angular mean of the
specified radiance, and nothing anywhere else. -/
theorem C74_J3 (e : Env3 K) (me : MergeEnv3) (k nx ny nz : Nat) (Active : Coord3 → Prop)
    (h : Run3 me k nx ny nz Active) (hcfg : me.cfg = e.cfg) (hc0 : me.s = e.c0) (hP : e.probes 0 = me.P)
    (ho : NoOverflow3 e) (hp : Probes3Ok e) (hnum : 0 < e.num)
    (sched : Nat → Task → List JIter3) (hs : ∀ t, Sched3 e t (sched t))
    (jsched : Nat → List JIter3)
    (hj : ∀ t n, me.P.num = .ok n → (jsched t).Perm (jIters3 n.toNat e.c0.polar e.c0.az))
    (lambdaIterate : Bool) (la : Nat) (sizes : List Nat) (hfit : BuffersFit3 e sizes) (m : Mem K)
    (hmem : MemShape sizes m)
    (J : Arr2 K) (hcols : (J.cols : Int) = jCols3 me k nx ny nz) (hrows : J.rows = 1 ∨ la < J.rows) :
    let I := radiance3 e.march e.c0.np0 e.c0.np1 e.c0.np2 (upperTexels3 e.cfg.branch).1
      (upperTexels3 e.cfg.branch).2 e.num e.num
    let row := if J.rows = 1 then 0 else la
    ∃ m' J', formalSol3 e me la lambdaIterate sched jsched (List.range (subsetTasks3 e.cfg)) m J = .ok (m', J') ∧
      J'.rows = J.rows ∧ J'.cols = J.cols ∧
      (∀ c, Computed3 me k nx ny nz Active c → ∃ a, a < J.cols ∧ (∀ a', JAddr3 me c a' ↔ a' = a) ∧
        J'.get row a = J.get row a +
          meanIntensity3 e.cfg.c0az e.cfg.c0polar I c.x.toNat c.y.toNat c.z.toNat) ∧
      (∀ r a, r ≠ row → J'.get r a = J.get r a) := by
  intro I row
  have hr : Rays3 e := by have := h.rays; rw [hcfg] at this; exact this
  exact J3_of_pass e me k nx ny nz Active h hcfg hc0 hP jsched hj la sizes hfit m hmem
    (fun t m => pass3 e t lambdaIterate (sched t) m) (fun t ht m hm => by
      obtain ⟨m', b, h1, h2, -, h4, h5, -, -⟩ := pass3_ok e hr ho hp ht (hs t) (fits3 e hfit) hnum lambdaIterate m hm
      exact ⟨m', b, h1, h2, h4, h5⟩) J hcols hrows

/-- The hypothesis on the probe loops holds in every run without sparsity. -/
theorem C74_probes_dense3 (e : Env3 K) (hpos : 0 < e.c0.np0 ∧ 0 < e.c0.np1 ∧ 0 < e.c0.np2)
    (hfit : e.c0.np0 * e.c0.np1 * e.c0.np2 ≤ 2147483647)
    (h : ∀ n, n ≤ e.num → e.probes n =
      { sparse := false, np := { x := probesOn e.c0.np0 n, y := probesOn e.c0.np1 n, z := probesOn e.c0.np2 n },
        active := [] }) :
    Probes3Ok e ∧ ∀ n, n ≤ e.num → ∀ u v w, u < probesOn e.c0.np0 n → v < probesOn e.c0.np1 n →
      w < probesOn e.c0.np2 n → Listed3 e n u v w :=
  dense_ok3 e hpos hfit h

/-- The hypothesis on the probe loops holds in every sparse 3D run, whichever tiles are active. -/
theorem C74_probes_sparse3 (e : Env3 K) (k nx ny nz : Nat) (Active : Coord3 → Prop) (bm : BlockMap Coord3)
    (hx : FitsI32Axis k nx) (hy : FitsI32Axis k ny) (hz : FitsI32Axis k nz)
    (hm : MapFor3 (2 ^ k) nx ny nz Active bm)
    (h0 : e.c0.np0 = nx * 2 ^ k) (h1 : e.c0.np1 = ny * 2 ^ k) (h2 : e.c0.np2 = nz * 2 ^ k)
    (hpr : ∀ n, n ≤ e.num → (e.probes n).sparse = true ∧
      activeList3 (2 ^ k) bm (probeDims3 e.cfg.branch e.c0) n = .ok (e.probes n).active) : Probes3Ok e :=
  sparse_ok3 e k nx ny nz Active bm hx hy hz hm h0 h1 h2 hpr

/-- The hypothesis on the buffers holds in the default 3D configuration (Healpix order 1, buffers allocated one per cascade but
indexed in pairs), with any number of stored directions, when every side has at least `2^num` cells.
Missing: smaller grids, where a buffer is overrun (`C17_overrun3_refuted`). -/
theorem C74_buffers3_partial (e : Env3 K) (hb : e.cfg.branch = .healpix 1) (hp : e.pp = true)
    (h0 : 2 ^ e.num ≤ e.c0.np0) (h1 : 2 ^ e.num ≤ e.c0.np1) (h2 : 2 ^ e.num ≤ e.c0.np2) :
    BuffersFit3 e (bufferSizes false (fun n => cascadeEntries3 (cascadeSize3 e.cfg.branch e.c0 n)) e.num) := by
  intro n hn
  rw [cascadeIndices_eq, hp]
  have hlt : n % 2 < e.num + 1 := by omega
  refine ⟨cascadeEntries3 (cascadeSize3 e.cfg.branch e.c0 (n % 2)), ?_, ?_⟩
  · simp [bufferSizes, bufOf, hlt]
  · have := C17_sizes3_partial e.c0.np0 e.c0.np1 e.c0.np2 e.num h0 h1 h2 n hn
    unfold defaultEntries3 cascadeEntries3 cascadeSize3 at this
    unfold cascadeEntries3 cascadeSize3
    rw [hb]
    simp only [polarFactor] at this ⊢
    have e12 : ∀ a b : Nat, a * (12 * b) * (1 * 1) = 12 * (a * b) := by intros; ring
    have ez : ∀ a b : Nat, a * (e.c0.az * b) * (e.c0.polar * 1) = (e.c0.az * e.c0.polar) * (a * b) := by intros; ring
    rw [e12, e12] at this
    rw [ez, ez]
    exact Nat.mul_le_mul_left _ (Nat.le_of_mul_le_mul_left this (by norm_num))

/-- **C74** is false with cascade 0 alone in 3D too: no kernel samples the boundary. -/
theorem C74_boundary_lost3_refuted (alo : Bool) : ∀ k ∈ tasks3 0 alo, k.bc = false := by
  cases alo <;> decide

/-- Non-vacuity: the default 3D configuration with five cascades above cascade 0 on 64 by 128 by 32 cells. -/
def exEnv3 (march : Bool → Nat → ProbeIdx3 → Seg ℚ) : Env3 ℚ :=
  { cfg := ⟨.healpix 1, 12, 1, true⟩, c0 := ⟨64, 128, 32, 1, 1⟩, num := 5, pp := true,
    probes := fun n => { sparse := false, np := { x := probesOn 64 n, y := probesOn 128 n, z := probesOn 32 n },
                         active := [] },
    march := march }

example (march : Bool → Nat → ProbeIdx3 → Seg ℚ) : Probes3Ok (exEnv3 march) ∧ NoOverflow3 (exEnv3 march) ∧
    BuffersFit3 (exEnv3 march) (bufferSizes false
      (fun n => cascadeEntries3 (cascadeSize3 (exEnv3 march).cfg.branch (exEnv3 march).c0 n)) 5) := by
  refine ⟨?_, ?_, ?_⟩
  · refine (C74_probes_dense3 (exEnv3 march) ?_ ?_ (fun n _ => rfl)).1
    · refine ⟨?_, ?_, ?_⟩ <;> simp only [exEnv3] <;> omega
    · simp only [exEnv3]; omega
  · intro n hn
    have : n < 5 := hn
    interval_cases n <;> simp [exEnv3, cascadeComputeSize3, cascadeSize3, azFactor, polarFactor]
  · exact C74_buffers3_partial (exEnv3 march) rfl rfl (by simp [exEnv3]) (by simp [exEnv3]) (by simp [exEnv3])

/-- Non-vacuity: schedules and buffers of the required form exist. -/
example (e : Env3 ℚ) (t : Nat) (sizes : List Nat) (hne : sizes ≠ []) : (∃ sched, Sched3 e t sched) ∧
    ∃ m : Mem ℚ, MemShape sizes m ∧ m.psi.isSome = true := by
  refine ⟨⟨fun k => match (e.probes k.n).num with
    | .ok N => iters3 e k.n t N.toNat
    | _ => [], fun k N _ hN => by simp [hN]⟩,
    ⟨sizes.map fun s => List.replicate s 0, some (List.replicate (sizes[0]?.getD 0) 0)⟩, ⟨?_, ?_⟩, rfl⟩
  · simp [List.map_map, Function.comp_def]
  · intro ps hps
    injection hps with hps
    subst hps
    cases sizes with
    | nil => exact absurd rfl hne
    | cons a as => simp

end DexRT.Fs
