import Verif.Lemmas.FormalSol2b
import Verif.Lemmas.RcInterp
import Verif.Props.MeanJ
import Verif.Props.ActiveProbes
/-! Helper lemmas for the 2D formal solution: passes, probe loops, and the addition to J. -/
namespace DexRT.Fs
open DexRT

variable {K : Type} [Field K] [CharZero K]

omit [Field K] [CharZero K] in
theorem bufOf_zero (pp : Bool) : bufOf pp 0 = 0 := by cases pp <;> rfl

/-- entries of cascade `n` -/
abbrev entries2 (e : Env2 K) (n : Nat) : Nat := cascadeEntries (cascadeSize e.cfg e.c0 n)

omit [CharZero K] in
theorem fits2 (e : Env2 K) : Fits e.pp (bufferSizes e.pp (entries2 e) e.num) (entries2 e) e.num :=
  fun n hn => bufferSizes_ok e.pp (entries2 e) e.num n hn

/-- after the last cascade and those down to `lo` -/
theorem top_middle2 (e : Env2 K) (hv : e.cfg.Valid) (hm : e.cfg.mode ≠ .preaverage) (hp : Probes2Ok e)
    {t waves : Nat} {sched : Task → List JIter} (hs : Sched2 e t waves sched) {sizes : List Nat}
    (hfit : Fits e.pp sizes (entries2 e) e.num) (lo j : Nat) (hlj : lo + j = e.num) (m : Mem K)
    (hmem : MemShape sizes m) :
    ∃ m', runTasks (call2 e t sched) ({ n := e.num, bc := true, alo := false } ::
        (List.range j).reverse.map fun k => { n := lo + k, bc := false, alo := false }) m = .ok m' ∧
      MemShape sizes m' ∧ m'.psi = m.psi ∧ ∃ b, m'.bufs[bufOf e.pp lo]? = some b ∧ Holds2 e t waves lo b := by
  obtain ⟨m1, b1, c1, c2, c3, c4, c5, c6⟩ := call2_ok e hv hm hp hs hfit ⟨e.num, true, false⟩
    (le_refl _) (by simp) m hmem (by simp) (fun h => absurd h (by simp))
  obtain ⟨m', d1, d2, d3, d4⟩ := middle2 e hv hm hp hs hfit lo j (by omega) m1 c2
    (by
      rw [hlj]
      exact ⟨b1, c5, fun p h1 h2 h3 => by rw [val2_top]; exact (c6 p h1 h2 h3).1⟩)
  refine ⟨m', ?_, d2, by rw [d3, c4 rfl], d4⟩
  show (call2 e t sched ⟨e.num, true, false⟩ m).bind _ = _
  rw [c1]
  exact d1

theorem pass2_ok (e : Env2 K) (hv : e.cfg.Valid) (hm : e.cfg.mode ≠ .preaverage) (hp : Probes2Ok e)
    {t waves : Nat} {sched : Task → List JIter} (hs : Sched2 e t waves sched) {sizes : List Nat}
    (hfit : Fits e.pp sizes (entries2 e) e.num) (hnum : 0 < e.num) (li : Bool) (m : Mem K)
    (hmem : MemShape sizes m) :
    ∃ m' b, pass2 e t li sched m = .ok m' ∧ MemShape sizes m' ∧ m'.psi.isSome = m.psi.isSome ∧
      m'.bufs[0]? = some b ∧ Holds2 e t waves 0 b ∧ (li = true → m'.psi = (zeroPsi m).psi) ∧
      (li = false → ∀ ps, m'.psi = some ps → ∀ p, Listed2 e 0 p.u p.v → p.wave < waves → Pass2 e t 0 p →
        ps[probeLinearIndex e.cfg (cascadeSize e.cfg e.c0 0) p]? = some (e.march false 0 p).psi) := by
  obtain ⟨m1, d1, d2, d3, d4⟩ := top_middle2 e hv hm hp hs hfit 1 (e.num - 1) (by omega) (zeroPsi m)
    (zeroPsi_shape hmem)
  have hz : (zeroPsi m).psi.isSome = m.psi.isSome := by unfold zeroPsi; simp
  obtain ⟨m', b, c1, c2, c3, c4, c5, c6⟩ := call2_ok e hv hm hp hs hfit
    ⟨0, false, m.psi.isSome && !li⟩ (Nat.zero_le _) (fun _ => rfl) m1 d2
    (fun h => by
      rw [d3, hz]
      simp only [Bool.and_eq_true] at h
      exact h.1)
    (fun _ => d4)
  refine ⟨m', b, ?_, c2, by rw [c3, d3, hz], by rw [bufOf_zero] at c5; exact c5, ?_, ?_, ?_⟩
  · unfold pass2 tasks2
    rw [middleTasks_eq, ← List.cons_append, runTasks_append, d1]
    show (call2 e t sched _ m1).bind _ = _
    rw [c1]; rfl
  · intro p h1 h2 h3
    rw [val2_below e hnum]
    exact (c6 p h1 h2 h3).1
  · intro h
    rw [c4 (by simp [h]), d3]
  · intro h ps hps p h1 h2 h3
    have hsome : m.psi.isSome = true := by rw [← hz, ← d3, ← c3, hps]; rfl
    exact (c6 p h1 h2 h3).2 (by simp [h, hsome]) ps hps

theorem passStatic2_ok (e : Env2 K) (hv : e.cfg.Valid) (hm : e.cfg.mode ≠ .preaverage) (hp : Probes2Ok e)
    {t waves : Nat} {sched : Task → List JIter} (hs : Sched2 e t waves sched) {sizes : List Nat}
    (hfit : Fits e.pp sizes (entries2 e) e.num) (m : Mem K) (hmem : MemShape sizes m) :
    ∃ m' b, passStatic2 e t sched m = .ok m' ∧ MemShape sizes m' ∧ m'.psi = m.psi ∧
      m'.bufs[0]? = some b ∧ Holds2 e t waves 0 b := by
  obtain ⟨m1, d1, d2, d3, b, d4, d5⟩ := top_middle2 e hv hm hp hs hfit 0 e.num (by omega) m hmem
  refine ⟨m1, b, ?_, d2, d3, by rw [bufOf_zero] at d4; exact d4, d5⟩
  unfold passStatic2 tasksStatic2
  simpa using d1

/-! ### probe loops -/

omit [Field K] [CharZero K] in
theorem dense_coord (a b : Nat) (h : (a : Int) * (b : Int) ≤ i32Max) (ha : 0 < a) (k : Nat)
    (hk : (k : Int) < (a : Int) * b) :
    Probes2.coord { sparse := false, np := { x := a, z := b }, active := [] } k =
      .ok { x := ((k % a : Nat) : Int), z := ((k / a : Nat) : Int) } := by
  unfold Probes2.coord
  simp only [Bool.false_eq_true, if_false]
  have h1 : (k : Int).tdiv (a : Int) = ((k / a : Nat) : Int) := by
    rw [Int.tdiv_eq_ediv_of_nonneg (by omega)]; rfl
  rw [h1]
  have h2 : a * (k / a) ≤ k := Nat.mul_div_le k a
  have h3 : (k : Int) ≤ i32Max := by omega
  have h4 : mulI32 (a : Int) ((k / a : Nat) : Int) = .ok (((a * (k / a) : Nat) : Int)) := by
    unfold mulI32
    rw [if_pos]
    · push_cast; rfl
    · have : ((a : Int) * ((k / a : Nat) : Int)) = ((a * (k / a) : Nat) : Int) := by push_cast; rfl
      rw [this]
      unfold fitsI32
      unfold i32Max at *
      rw [decide_eq_true_eq]; constructor <;> omega
  rw [h4, Outcome.ok_bind]
  congr 1
  congr 1
  have := Nat.mod_add_div k a
  omega

/-- a run without sparsity: every probe of every cascade is computed -/
theorem dense_ok (e : Env2 K) (hpos : 0 < e.c0.np0 ∧ 0 < e.c0.np1)
    (hfit : (e.c0.np0 : Int) * (e.c0.np1 : Int) ≤ i32Max)
    (h : ∀ n, n ≤ e.num → e.probes n =
      { sparse := false, np := { x := probesOn e.c0.np0 n, z := probesOn e.c0.np1 n }, active := [] }) :
    Probes2Ok e ∧ ∀ n, n ≤ e.num → ∀ u v, u < probesOn e.c0.np0 n → v < probesOn e.c0.np1 n → Listed2 e n u v := by
  have hle : ∀ N n, 0 < N → 0 < probesOn N n ∧ probesOn N n ≤ N := by
    intro N n hN
    unfold probesOn
    have := Nat.div_le_self N (2 ^ n)
    omega
  have hprod : ∀ n, ((probesOn e.c0.np0 n : Nat) : Int) * ((probesOn e.c0.np1 n : Nat) : Int) ≤ i32Max := by
    intro n
    have h0 := (hle e.c0.np0 n hpos.1).2
    have h1 := (hle e.c0.np1 n hpos.2).2
    refine le_trans ?_ hfit
    exact_mod_cast Nat.mul_le_mul h0 h1
  have hnum : ∀ n, n ≤ e.num → (e.probes n).num = .ok (((probesOn e.c0.np0 n * probesOn e.c0.np1 n : Nat)) : Int) := by
    intro n hn
    rw [h n hn]
    unfold Probes2.num mulI32
    simp only [Bool.false_eq_true, if_false]
    rw [if_pos]
    · push_cast; rfl
    · have := hprod n
      have h0 : (0 : Int) ≤ ((probesOn e.c0.np0 n : Nat) : Int) * ((probesOn e.c0.np1 n : Nat) : Int) := by positivity
      unfold fitsI32
      unfold i32Max at *
      rw [decide_eq_true_eq]; constructor <;> omega
  have hlisted : ∀ n, n ≤ e.num → ∀ u v, u < probesOn e.c0.np0 n → v < probesOn e.c0.np1 n → Listed2 e n u v := by
    intro n hn u v hu hv'
    have hlt : v * probesOn e.c0.np0 n + u < probesOn e.c0.np0 n * probesOn e.c0.np1 n := by
      calc v * probesOn e.c0.np0 n + u < v * probesOn e.c0.np0 n + probesOn e.c0.np0 n := by omega
        _ = (v + 1) * probesOn e.c0.np0 n := by ring
        _ ≤ probesOn e.c0.np1 n * probesOn e.c0.np0 n := Nat.mul_le_mul_right _ hv'
        _ = _ := by ring
    refine ⟨v * probesOn e.c0.np0 n + u, _, hnum n hn, by exact_mod_cast hlt, ?_⟩
    rw [h n hn, dense_coord _ _ (hprod n) (hle _ n hpos.1).1 _ (by exact_mod_cast hlt)]
    have hp0 := (hle e.c0.np0 n hpos.1).1
    have e1 : (v * probesOn e.c0.np0 n + u) % probesOn e.c0.np0 n = u := by
      rw [Nat.mul_comm, Nat.mul_add_mod, Nat.mod_eq_of_lt hu]
    have e2 : (v * probesOn e.c0.np0 n + u) / probesOn e.c0.np0 n = v := by
      rw [Nat.mul_comm, Nat.mul_add_div hp0, Nat.div_eq_of_lt hu, Nat.add_zero]
    rw [e1, e2]
  refine ⟨⟨fun n hn => ⟨_, hnum n hn, fun k hk => ?_⟩, fun n hn u v _ U V hU hV _ _ => hlisted (n + 1) (by omega) U V hU hV⟩, hlisted⟩
  refine ⟨k % probesOn e.c0.np0 n, k / probesOn e.c0.np0 n, ?_, Nat.mod_lt _ (hle _ n hpos.1).1, ?_⟩
  · rw [h n hn]
    exact dense_coord _ _ (hprod n) (hle _ n hpos.1).1 _ (by exact_mod_cast hk)
  · rw [Nat.div_lt_iff_lt_mul (hle _ n hpos.1).1, Nat.mul_comm]; exact hk

/-! ### J -/

/-- The passes and the additions to J separate. `P t b`: buffer 0 after pass `t` is `b`, as wanted. -/
theorem passesJ_split (pass : Nat → Mem K → Outcome (Mem K)) (merge : Nat → List K → Arr2 K → Outcome (Arr2 K))
    (solJ : (Nat → List K) → List Nat → Arr2 K → Outcome (Arr2 K))
    (hnil : ∀ c J, solJ c [] J = .ok J)
    (hcons : ∀ c t ts J, solJ c (t :: ts) J = (merge t (c t) J).bind (solJ c ts))
    (Q : Mem K → Prop) (P : Nat → List K → Prop)
    (h : ∀ t m, Q m → ∃ m' b, pass t m = .ok m' ∧ Q m' ∧ m'.bufs[0]? = some b ∧ P t b) :
    ∀ (ts : List Nat) (_ : ts.Nodup) (m : Mem K) (_ : Q m),
      ∃ (c0 : Nat → List K) (m' : Mem K), Q m' ∧ (∀ t ∈ ts, P t (c0 t)) ∧
        ∀ J, passesJ pass merge ts m J = (solJ c0 ts J).bind fun J' => .ok (m', J')
  | [], _, m, hmem => ⟨fun _ => [], m, hmem, by simp, fun J => by rw [hnil]; rfl⟩
  | t :: ts, hnd, m, hmem => by
    obtain ⟨m1, b, p1, p2, p4, p5⟩ := h t m hmem
    rw [List.nodup_cons] at hnd
    obtain ⟨c0, m', q1, q2, q3⟩ := passesJ_split pass merge solJ hnil hcons Q P h ts hnd.2 m1 p2
    have hagree : ∀ t' ∈ ts, (fun s => if s = t then b else c0 s) t' = c0 t' := by
      intro t' ht'
      simp only
      rw [if_neg]
      rintro rfl
      exact hnd.1 ht'
    have hcongr : ∀ (ts : List Nat) (c c' : Nat → List K), (∀ t ∈ ts, c t = c' t) → ∀ J,
        solJ c ts J = solJ c' ts J := by
      intro ts
      induction ts with
      | nil => intro c c' _ J; rw [hnil, hnil]
      | cons a as ih =>
        intro c c' h J
        rw [hcons, hcons, h a (by simp)]
        congr 1
        funext J'
        exact ih c c' (fun t ht => h t (by simp [ht])) J'
    refine ⟨fun s => if s = t then b else c0 s, m', q1, ?_, fun J => ?_⟩
    · intro t' ht'
      rcases List.mem_cons.1 ht' with rfl | ht'
      · simp only [if_true]; exact p5
      · rw [hagree t' ht']; exact q2 t' ht'
    · unfold passesJ
      rw [hcons, p1, Outcome.ok_bind, readAt_ok p4, Outcome.ok_bind]
      simp only [if_true]
      cases merge t b J with
      | ok J1 =>
        show passesJ pass merge ts m1 J1 = (solJ _ ts J1).bind _
        rw [q3, hcongr ts _ c0 hagree]
      | throws => rfl
      | ub => rfl

/-- A formal solution whose passes leave the specified radiance in buffer 0 adds its angular mean to J. -/
theorem fs_J2 (e : Env2 K) (me : MergeEnv K) (k nx nz : Nat) (Active : Coord2 → Prop) (h : Run2 me k nx nz Active)
    (hcfg : me.cfg = e.cfg) (hc0 : me.s = e.c0) (hP : e.probes 0 = me.P) (hpos : 0 < nx ∧ 0 < nz)
    (waves : Nat) (hw : waves ≤ e.c0.wave)
    (jsched : Nat → List JIter)
    (hj : ∀ t n, me.P.num = .ok n → (jsched t).Perm (jIters n.toNat e.c0.dirs waves e.c0.incl))
    (laStart : Nat) (m : Mem K) (sizes : List Nat) (hmem : MemShape sizes m)
    (pass : Nat → Mem K → Outcome (Mem K))
    (hpass : ∀ t m, MemShape sizes m →
      ∃ m' b, pass t m = .ok m' ∧ MemShape sizes m' ∧ m'.bufs[0]? = some b ∧ Holds2 e t waves 0 b)
    (J : Arr2 K) (hcols : (J.cols : Int) = jCols2 me k nx nz)
    (hrows : J.rows = e.c0.wave ∨ laStart + waves ≤ J.rows) :
    let I := radiance2 e.march e.c0.np0 e.c0.np1 (upperTexelsPerRay e.cfg) e.num e.num
    let row := fun wave => if J.rows = e.c0.wave then wave else laStart + wave
    ∃ m' J', passesJ pass (fun t c0 J => mergeC0ToJ me laStart c0 (jsched t) J)
        (List.range (subsetTasks e.cfg)) m J = .ok (m', J') ∧
      J'.rows = J.rows ∧ J'.cols = J.cols ∧
      (∀ c, Computed2 me k nx nz Active c → ∃ a, a < J.cols ∧ (∀ a', JAddr2 me c a' ↔ a' = a) ∧
        ∀ wave, wave < waves → J'.get (row wave) a = J.get (row wave) a +
          meanIntensity2 e.cfg.p0rays e.c0.incl me.wmuy I c.x.toNat c.z.toNat wave) ∧
      (∀ r a, (∀ wave, wave < waves → r ≠ row wave) → J'.get r a = J.get r a) := by
  intro I row
  have hv : e.cfg.Valid := hcfg ▸ h.valid
  obtain ⟨c0, m', q1, q2, q3⟩ := passesJ_split pass
    (fun t c0 J => mergeC0ToJ me laStart c0 (jsched t) J) (fun c => formalSolJ me laStart c jsched)
    (fun _ _ => rfl) (fun _ _ _ _ => rfl) (MemShape sizes) (fun t b => Holds2 e t waves 0 b) hpass
    (List.range (subsetTasks e.cfg)) List.nodup_range m hmem
  have hsize : cascadeSize e.cfg e.c0 0 = me.s := by
    obtain ⟨w, i, hs⟩ := h.storage
    have h0 : e.c0.np0 = nx * 2 ^ k := by rw [← hc0, hs]; unfold raysToStorage; split <;> rfl
    have h1 : e.c0.np1 = nz * 2 ^ k := by rw [← hc0, hs]; unfold raysToStorage; split <;> rfl
    have p0 : 0 < e.c0.np0 := by rw [h0]; exact Nat.mul_pos hpos.1 (Nat.two_pow_pos k)
    have p1 : 0 < e.c0.np1 := by rw [h1]; exact Nat.mul_pos hpos.2 (Nat.two_pow_pos k)
    rw [hc0]
    have hx : numFlatRaysExponent e.cfg 0 = 0 := by
      unfold numFlatRaysExponent RcCfg.vary
      by_cases hsw : e.cfg.switch > 0
      · rw [if_pos (by simpa using hsw), if_pos hsw]; rfl
      · rw [if_neg (by simpa using hsw)]; rfl
    unfold cascadeSize
    simp [Nat.max_eq_right p0, Nat.max_eq_right p1, hx]
  obtain ⟨f, hnum', hpos', hf, hback⟩ := run2_probes h
  have hholds : ∀ t, t < subsetTasks me.cfg → CascadeHolds2 me k nx nz Active waves I t (c0 t) := by
    intro t ht c p hc hu hv' hwv hin
    have := q2 t (List.mem_range.2 (by rw [← hcfg]; exact ht)) p ?_ hwv ?_
    · rw [hsize] at this
      rw [hcfg]
      exact this
    · obtain ⟨a, ha, hfa, -⟩ := hback c hc
      obtain ⟨g1, -, -, -, g2, -, g3, -⟩ := hf a ha
      refine ⟨a, _, by rw [hP]; exact hnum', ha, ?_⟩
      rw [hP, g1, hfa]
      rw [hfa] at g2 g3
      congr 1
      cases c
      simp only [Coord2.mk.injEq] at *
      omega
    · show InPass2 e.cfg (cascadeComputeSize e.cfg e.c0 0) t p
      rw [(C12_shapes_agree e.cfg hv e.c0 0).1, hsize, ← hcfg]
      exact hin
  obtain ⟨J', r1, r2, r3, r4, r5⟩ := C62_mean_intensity2 me k nx nz Active h I waves laStart (by rw [hc0]; exact hw)
    c0 hholds jsched (fun t n hn => by rw [hc0]; exact hj t n hn) J hcols (by rw [hc0]; exact hrows)
  refine ⟨m', J', ?_, r2, r3, ?_, ?_⟩
  · rw [q3, ← hcfg, r1]; rfl
  · rw [hcfg, hc0] at r4; exact r4
  · rw [hc0] at r5; exact r5

/-! ### sparse probe lists -/

/-- sparse lists that are merge-closed are usable -/
theorem sparse_ok (e : Env2 K) {k nx nz : Nat} {Active : Coord2 → Prop} {bm : BlockMap Coord2}
    {order : Nat → List Coord2} (h : SparseRun2 e.cfg e.c0 k nx nz Active bm order)
    (hpr : ∀ n, n ≤ e.num → (e.probes n).sparse = true ∧
      activeList2 (2 ^ k) bm (probeDims2 e.cfg e.c0) order n = .ok (e.probes n).active)
    (hclosed : ∀ n, n < e.num → MergeClosed2 (2 ^ k) bm (probeDims2 e.cfg e.c0) order n) : Probes2Ok e := by
  have hnum : ∀ n, n ≤ e.num → (e.probes n).num = .ok (((e.probes n).active.length : Nat) : Int) := by
    intro n hn
    unfold Probes2.num
    rw [if_pos (hpr n hn).1]
  have hcoord : ∀ n, n ≤ e.num → ∀ k c, (e.probes n).active[k]? = some c → (e.probes n).coord k = .ok c := by
    intro n hn k c hc
    unfold Probes2.coord
    rw [if_pos (hpr n hn).1, hc]
  refine ⟨fun n hn => ⟨_, hnum n hn, fun i hi => ?_⟩, fun n hn u v hl U V hU hV hwU hwV => ?_⟩
  · obtain ⟨l, h1, -, h3, -⟩ := C20_lists h n
    rw [(hpr n hn).2] at h1; injection h1 with h1; subst h1
    have hget : (e.probes n).active[i]? = some (e.probes n).active[i] := List.getElem?_eq_getElem hi
    have hd := h3 _ (List.getElem_mem hi)
    unfold inDims2 at hd; rw [decide_eq_true_eq] at hd
    unfold probeDims2 at hd
    simp only [(np_probesOn e.cfg e.c0 n).1, (np_probesOn e.cfg e.c0 n).2] at hd
    refine ⟨(e.probes n).active[i].x.toNat, (e.probes n).active[i].z.toNat, ?_, by omega, by omega⟩
    rw [hcoord n hn i _ hget, Int.toNat_of_nonneg (by omega), Int.toNat_of_nonneg (by omega)]
  · obtain ⟨i, N, hN, hi, hc⟩ := hl
    rw [hnum n (by omega)] at hN; injection hN with hN
    have hi' : i < (e.probes n).active.length := by omega
    have hget : (e.probes n).active[i]? = some (e.probes n).active[i] := List.getElem?_eq_getElem hi'
    rw [hcoord n (by omega) i _ hget] at hc; injection hc with hc
    obtain ⟨lo, up, g1, g2, g3⟩ := hclosed n hn
    rw [(hpr n (by omega)).2] at g1; injection g1 with g1; subst g1
    rw [(hpr (n + 1) (by omega)).2] at g2; injection g2 with g2; subst g2
    obtain ⟨l, h1, -, h3, -⟩ := C20_lists h n
    rw [(hpr n (by omega)).2] at h1; injection h1 with h1; subst h1
    have hmem : ({ x := (u : Int), z := (v : Int) } : Coord2) ∈ (e.probes n).active := hc ▸ List.getElem_mem hi'
    have hd := h3 _ hmem
    unfold inDims2 at hd; rw [decide_eq_true_eq] at hd
    unfold probeDims2 at hd
    simp only [(np_probesOn e.cfg e.c0 n).1, (np_probesOn e.cfg e.c0 n).2] at hd
    have hu : u < probesOn e.c0.np0 n := by omega
    have hv : v < probesOn e.c0.np1 n := by omega
    have cu := cornerN_lt hu
    have cv := cornerN_lt hv
    have hD : (probeDims2 e.cfg e.c0 (n + 1)).x = ((probesOn e.c0.np0 (n + 1) : Nat) : Int) ∧
        (probeDims2 e.cfg e.c0 (n + 1)).z = ((probesOn e.c0.np1 (n + 1) : Nat) : Int) := by
      unfold probeDims2
      exact ⟨by rw [(np_probesOn e.cfg e.c0 (n + 1)).1], by rw [(np_probesOn e.cfg e.c0 (n + 1)).2]⟩
    have key := g3 _ hmem
    simp only [hD.1, hD.2] at key
    have bil := bilinear_nat u v _ _ cu cv
    have fu := frac_pos u
    have fv := frac_pos v
    -- which corner
    have pick : ∀ N w W, cornerN w < N → axisWeight N w W ≠ 0 →
        W = cornerN w ∨ (W = corner2 N w ∧ 1 - fracN w ≠ 0) := by
      intro N w W hc hne
      rw [axisWeight_eq N w W hc] at hne
      by_cases h1 : W = cornerN w
      · exact Or.inl h1
      · rw [if_neg h1, zero_add] at hne
        by_cases h2 : W = corner2 N w
        · rw [if_pos h2] at hne; exact Or.inr ⟨h2, hne⟩
        · rw [if_neg h2] at hne; exact absurd rfl hne
    have hin : ({ x := (U : Int), z := (V : Int) } : Coord2) ∈ (e.probes (n + 1)).active := by
      rcases pick _ _ _ cu hwU with rfl | ⟨rfl, hu1⟩ <;> rcases pick _ _ _ cv hwV with rfl | ⟨rfl, hv1⟩
      · have := key 0 (by omega); rw [bil 0] at this
        exact this (mul_ne_zero (ne_of_gt fu.1) (ne_of_gt fv.1))
      · have := key 2 (by omega); rw [bil 2] at this
        exact this (mul_ne_zero (ne_of_gt fu.1) hv1)
      · have := key 1 (by omega); rw [bil 1] at this
        exact this (mul_ne_zero hu1 (ne_of_gt fv.1))
      · have := key 3 (by omega); rw [bil 3] at this
        exact this (mul_ne_zero hu1 hv1)
    obtain ⟨j, hj⟩ := List.mem_iff_getElem?.1 hin
    have hj' : j < (e.probes (n + 1)).active.length := by
      by_contra hcon; rw [List.getElem?_eq_none (by omega)] at hj; simp at hj
    exact ⟨j, _, hnum (n + 1) (by omega), by omega, hcoord (n + 1) (by omega) j _ hj⟩

end DexRT.Fs
