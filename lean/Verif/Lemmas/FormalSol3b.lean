import Verif.Lemmas.FormalSol3
/-! Helper lemmas for the 3D formal solution: a kernel call, a pass, and the addition to J. -/
namespace DexRT.Fs
open DexRT

variable {K : Type} [Field K] [CharZero K]

/-- what a kernel call stores for ray `p` -/
def callVal3 (e : Env3 K) (bc : Bool) (n : Nat) (p : ProbeIdx3) : K :=
  if n = e.num then (e.march bc n p).I
  else (e.march bc n p).I + (e.march bc n p).T *
      ∑ U ∈ Finset.range (probesOn e.c0.np0 (n + 1)), ∑ V ∈ Finset.range (probesOn e.c0.np1 (n + 1)),
        ∑ W ∈ Finset.range (probesOn e.c0.np2 (n + 1)),
        ((axisWeight (probesOn e.c0.np0 (n + 1)) p.u U * axisWeight (probesOn e.c0.np1 (n + 1)) p.v V *
          axisWeight (probesOn e.c0.np2 (n + 1)) p.w W : ℚ) : K) *
          ((∑ i ∈ Finset.range (upperTexels3 e.cfg.branch).2, ∑ j ∈ Finset.range (upperTexels3 e.cfg.branch).1,
            val3 e (n + 1) { u := U, v := V, w := W, polar := p.polar * (upperTexels3 e.cfg.branch).2 + i,
                             az := p.az * (upperTexels3 e.cfg.branch).1 + j }) /
            (((upperTexels3 e.cfg.branch).1 * (upperTexels3 e.cfg.branch).2 : Nat) : K))

omit [CharZero K] in
theorem val3_top (e : Env3 K) (p : ProbeIdx3) : val3 e e.num p = callVal3 e true e.num p := by
  unfold val3 callVal3; rw [Nat.sub_self, if_pos rfl]; rfl

omit [CharZero K] in
theorem val3_below (e : Env3 K) {n : Nat} (hn : n < e.num) (p : ProbeIdx3) :
    val3 e n p = callVal3 e false n p := by
  obtain ⟨m, hm⟩ : ∃ m, e.num - n = m + 1 := ⟨e.num - n - 1, by omega⟩
  unfold val3 callVal3
  rw [hm, if_neg (by omega)]
  have e1 : e.num - (m + 1) = n := by omega
  have e2 : e.num - (n + 1) = m := by omega
  unfold radiance3
  simp only [e1]
  unfold val3
  rw [e2]

/-- the ray an iteration computes -/
def probeOf3 (e : Env3 K) (n t : Nat) (u v w : Nat) (it : JIter3) : ProbeIdx3 :=
  { u := u, v := v, w := w,
    polar := it.theta + (nthRaysSubset3 e.cfg (cascadeComputeSize3 e.cfg e.c0 n) t).startPolar,
    az := it.phi + (nthRaysSubset3 e.cfg (cascadeComputeSize3 e.cfg e.c0 n) t).startAz }

omit [CharZero K] in
theorem body3_eq (e : Env3 K) (bc : Bool) (n t : Nat) (ip : Option Nat)
    (bufs : List (List K)) (it : JIter3) (u v w : Nat) (hc : (e.probes n).coord it.k = .ok { x := u, y := v, z := w })
    (upper : Option (List K)) (hup : ∀ j, ip = some j → ∃ b, bufs[j]? = some b ∧ upper = some b)
    (hnone : ip = none → upper = none) (I psi : K)
    (h : marchMerge3 e bc n upper (probeOf3 e n t u v w it) = .ok (I, psi)) :
    body3 e bc n t ip bufs it =
      .ok (probeLinearIndex3 e.cfg (cascadeSize3 e.cfg.branch e.c0 n) (probeOf3 e n t u v w it), I, psi) := by
  unfold body3
  rw [hc, Outcome.ok_bind]
  simp only
  rw [if_pos ⟨by omega, by omega, by omega⟩]
  have hupper : readUpper bufs ip = .ok upper := by
    unfold readUpper
    cases ip with
    | none => rw [hnone rfl]
    | some j =>
      obtain ⟨b, hb, hu⟩ := hup j rfl
      simp only
      rw [readAt_ok hb, hu]; rfl
  rw [hupper, Outcome.ok_bind]
  simp only [Int.toNat_natCast]
  have h' : marchMerge3 e bc n upper
      { u := u, v := v, w := w,
        polar := it.theta + (nthRaysSubset3 e.cfg (cascadeComputeSize3 e.cfg e.c0 n) t).startPolar,
        az := it.phi + (nthRaysSubset3 e.cfg (cascadeComputeSize3 e.cfg e.c0 n) t).startAz } = .ok (I, psi) := h
  rw [h', Outcome.ok_bind]
  rfl

theorem call3_ok (e : Env3 K) (hr : Rays3 e) (ho : NoOverflow3 e) (hp : Probes3Ok e)
    {t : Nat} (ht : t < subsetTasks3 e.cfg) {sched : Task → List JIter3} (hs : Sched3 e t sched) {sizes : List Nat}
    (hfit : Fits e.pp sizes (fun n => cascadeEntries3 (cascadeSize3 e.cfg.branch e.c0 n)) e.num)
    (k : Task) (hk : k.n ≤ e.num) (halo : k.alo = true → k.n = 0) (m : Mem K) (hmem : MemShape sizes m)
    (hpsi : k.alo = true → m.psi.isSome = true)
    (hup : k.n < e.num → ∃ b, m.bufs[bufOf e.pp (k.n + 1)]? = some b ∧ Holds3 e t (k.n + 1) b) :
    ∃ m' b', call3 e t sched k m = .ok m' ∧ MemShape sizes m' ∧ m'.psi.isSome = m.psi.isSome ∧
      (k.alo = false → m'.psi = m.psi) ∧ m'.bufs[bufOf e.pp k.n]? = some b' ∧
      ∀ p, Listed3 e k.n p.u p.v p.w → Pass3 e t k.n p →
        b'[probeLinearIndex3 e.cfg (cascadeSize3 e.cfg.branch e.c0 k.n) p]? = some (callVal3 e k.bc k.n p) ∧
        (k.alo = true → ∀ ps, m'.psi = some ps →
          ps[probeLinearIndex3 e.cfg (cascadeSize3 e.cfg.branch e.c0 k.n) p]? = some (e.march k.bc k.n p).psi) := by
  obtain ⟨n, bc, alo⟩ := k
  simp only at *
  obtain ⟨N, hN, hcoord⟩ := hp.coords n hk
  have hperm := hs ⟨n, bc, alo⟩ N hk hN
  simp only at hperm
  obtain ⟨len, hlen1, hlen2⟩ := hfit n hk
  simp only at hlen2
  obtain ⟨b, hb, hblen⟩ := shape_buf hmem hlen1
  have hex : ∀ k : Nat, ∃ uv : Nat × Nat × Nat, k < N →
      (e.probes n).coord k = .ok { x := (uv.1 : Int), y := (uv.2.1 : Int), z := (uv.2.2 : Int) } ∧
      uv.1 < probesOn e.c0.np0 n ∧ uv.2.1 < probesOn e.c0.np1 n ∧ uv.2.2 < probesOn e.c0.np2 n := by
    intro k
    by_cases h : k < N
    · obtain ⟨u, v, w, h1, h2, h3⟩ := hcoord k h
      exact ⟨(u, v, w), fun _ => ⟨h1, h2, h3⟩⟩
    · exact ⟨(0, 0, 0), fun h' => absurd h' h⟩
  choose uv huv using hex
  let P : JIter3 → ProbeIdx3 := fun it => probeOf3 e n t (uv it.k).1 (uv it.k).2.1 (uv it.k).2.2 it
  have hnp := np_probesOn3 e.cfg.branch e.c0 n
  have hmem_it : ∀ it, it ∈ sched ⟨n, bc, alo⟩ ↔ it.k < N ∧
      it.theta < (nthRaysSubset3 e.cfg (cascadeComputeSize3 e.cfg e.c0 n) t).numPolar ∧
      it.phi < (nthRaysSubset3 e.cfg (cascadeComputeSize3 e.cfg e.c0 n) t).numAz := by
    intro it
    rw [hperm.mem_iff]
    exact mem_jIters3 _ _ _ it
  have hPpass : ∀ it, it ∈ sched ⟨n, bc, alo⟩ → Pass3 e t n (P it) ∧ Listed3 e n (P it).u (P it).v (P it).w := by
    intro it hit
    obtain ⟨h1, h2, h3⟩ := (hmem_it it).1 hit
    obtain ⟨c1, c2, c3, c4⟩ := huv it.k h1
    refine ⟨⟨?_, ?_, ?_, ?_, ?_, ?_, ?_⟩, ⟨it.k, N, hN, by omega, c1⟩⟩
    · show (uv it.k).1 < (cascadeSize3 e.cfg.branch e.c0 n).np0; rw [hnp.1]; exact c2
    · show (uv it.k).2.1 < (cascadeSize3 e.cfg.branch e.c0 n).np1; rw [hnp.2.1]; exact c3
    · show (uv it.k).2.2 < (cascadeSize3 e.cfg.branch e.c0 n).np2; rw [hnp.2.2]; exact c4
    · show _ ≤ it.phi + _; omega
    · show it.phi + _ < _; omega
    · show _ ≤ it.theta + _; omega
    · show it.theta + _ < _; omega
  have hmerge : ∀ it, it ∈ sched ⟨n, bc, alo⟩ → ∀ b' : List K,
      body3 e bc n t (if n = e.num then none else some (bufOf e.pp (n + 1))) (m.bufs.set (bufOf e.pp n) b') it =
      .ok (probeLinearIndex3 e.cfg (cascadeSize3 e.cfg.branch e.c0 n) (P it), callVal3 e bc n (P it), (e.march bc n (P it)).psi) := by
    intro it hit b'
    obtain ⟨q1, q2⟩ := hPpass it hit
    obtain ⟨c1, -, -⟩ := huv it.k ((hmem_it it).1 hit).1
    by_cases hne : n = e.num
    · refine body3_eq e bc n t _ _ it _ _ _ c1 none ?_ (fun _ => rfl) _ _ ?_
      · intro j hj; rw [if_pos hne] at hj; exact absurd hj (by simp)
      · show Outcome.ok ((e.march bc n (P it)).I + (e.march bc n (P it)).T * 0, (e.march bc n (P it)).psi) = _
        unfold callVal3; rw [if_pos hne, mul_zero, add_zero]
    · have hlt : n < e.num := by omega
      obtain ⟨ub, hub1, hub2⟩ := hup hlt
      obtain ⟨l2, l21, l22⟩ := hfit (n + 1) (by omega)
      simp only at l22
      obtain ⟨ub', hub', hubl⟩ := shape_buf hmem l21
      rw [hub1] at hub'; injection hub' with hub'; subst hub'
      refine body3_eq e bc n t _ _ it _ _ _ c1 (some ub) ?_ ?_ _ _ ?_
      · intro j hj
        rw [if_neg hne] at hj; injection hj with hj; subst hj
        exact ⟨ub, by rw [List.getElem?_set_ne (bufOf_ne e.pp n)]; exact hub1, rfl⟩
      · intro h; rw [if_neg hne] at h; simp at h
      · show (do let x ← interp3 e n (P it) ub; Outcome.ok ((e.march bc n (P it)).I + (e.march bc n (P it)).T * x, (e.march bc n (P it)).psi)) = _
        rw [interp3_ok e hr ho hp hlt ht q2 q1 ub (by omega) hub2, Outcome.ok_bind]
        unfold callVal3; rw [if_neg hne]
  have hi : bufOf e.pp n < m.bufs.length := by
    by_contra hc; rw [List.getElem?_eq_none (by omega)] at hb; simp at hb
  obtain ⟨b', ps', r1, r2, r3, r4, r5⟩ := rcLoop_spec
    (body3 e bc n t (if n = e.num then none else some (bufOf e.pp (n + 1))))
    (bufOf e.pp n) alo (fun it => probeLinearIndex3 e.cfg (cascadeSize3 e.cfg.branch e.c0 n) (P it))
    (fun it => callVal3 e bc n (P it)) (fun it => (e.march bc n (P it)).psi) m.bufs len (sched ⟨n, bc, alo⟩) [] b m.psi
    hblen hi (fun h => Option.isSome_iff_exists.1 (hpsi h))
    (fun q hq h => by
      have h0 := halo h
      have := hmem.2 q hq
      have hb0 : bufOf e.pp n = 0 := by rw [h0]; exact bufOf_zero e.pp
      rw [hb0, this] at hlen1; injection hlen1 with h'; omega)
    (fun it hit => by have := lin_lt3 e hr (hPpass it hit).1; omega)
    (fun b' it hit => hmerge it hit b')
    (fun it hit it' hit' he => by
      rw [List.nil_append] at hit
      have := lin_inj3 e hr (hPpass it hit).1 (hPpass it' hit').1 he
      simp only [this, and_self])
    (by simp)
  rw [set_self hb] at r1
  refine ⟨{ bufs := m.bufs.set (bufOf e.pp n) b', psi := ps' }, b', ?_, ?_, r3.1, r4, ?_, ?_⟩
  · unfold call3
    rw [cascadeIndices_eq]
    exact r1
  · refine ⟨?_, ?_⟩
    · simp only
      rw [← hmem.1]
      apply List.ext_getElem?
      intro j
      rw [List.getElem?_map, List.getElem?_map]
      by_cases hj : bufOf e.pp n = j
      · subst hj; rw [List.getElem?_set_self hi, hb]; simp [r2, hblen]
      · rw [List.getElem?_set_ne hj]
    · intro ps hps
      have hps' : ps' = some ps := hps
      have : m.psi.isSome = true := by rw [← r3.1, hps']; rfl
      obtain ⟨q, hq⟩ := Option.isSome_iff_exists.1 this
      rw [r3.2 q ps hq hps]; exact hmem.2 q hq
  · exact List.getElem?_set_self hi
  · intro p hl hpass
    obtain ⟨kk, N', hN', hkk, hck⟩ := hl
    rw [hN] at hN'; injection hN' with hN'
    have hkN : kk < N := by omega
    obtain ⟨c1, -, -⟩ := huv kk hkN
    rw [hck] at c1; injection c1 with c1
    have hx := congrArg Coord3.x c1; have hy := congrArg Coord3.y c1; have hz := congrArg Coord3.z c1
    simp only [Nat.cast_inj] at hx hy hz
    obtain ⟨p1, p2, p3, p4, p5, p6, p7⟩ := hpass
    let it : JIter3 := { k := kk,
                         theta := p.polar - (nthRaysSubset3 e.cfg (cascadeComputeSize3 e.cfg e.c0 n) t).startPolar,
                         phi := p.az - (nthRaysSubset3 e.cfg (cascadeComputeSize3 e.cfg e.c0 n) t).startAz }
    have hPit : P it = p := by
      show probeOf3 e n t (uv kk).1 (uv kk).2.1 (uv kk).2.2 it = p
      unfold probeOf3
      rw [← hx, ← hy, ← hz]
      show ({ u := p.u, v := p.v, w := p.w, polar := p.polar - _ + _, az := p.az - _ + _ } : ProbeIdx3) = p
      rw [Nat.sub_add_cancel p4, Nat.sub_add_cancel p6]
    have hit : it ∈ sched ⟨n, bc, alo⟩ := by
      rw [hmem_it]
      refine ⟨hkN, ?_, ?_⟩
      · show p.polar - _ < _; omega
      · show p.az - _ < _; omega
    have := r5 it (by simpa using hit)
    simp only [hPit] at this
    exact ⟨this.1, fun h ps hps => this.2 ps hps h⟩

/-- The calls below a cascade already done. -/
theorem middle3 (e : Env3 K) (hr : Rays3 e) (ho : NoOverflow3 e) (hp : Probes3Ok e)
    {t : Nat} (ht : t < subsetTasks3 e.cfg) {sched : Task → List JIter3} (hs : Sched3 e t sched) {sizes : List Nat}
    (hfit : Fits e.pp sizes (fun n => cascadeEntries3 (cascadeSize3 e.cfg.branch e.c0 n)) e.num) (lo : Nat) :
    ∀ (j : Nat) (_ : lo + j ≤ e.num) (m : Mem K) (_ : MemShape sizes m)
      (_ : ∃ b, m.bufs[bufOf e.pp (lo + j)]? = some b ∧ Holds3 e t (lo + j) b),
    ∃ m', runTasks (call3 e t sched) ((List.range j).reverse.map fun k => { n := lo + k, bc := false, alo := false }) m =
        .ok m' ∧ MemShape sizes m' ∧ m'.psi = m.psi ∧
      ∃ b, m'.bufs[bufOf e.pp lo]? = some b ∧ Holds3 e t lo b
  | 0, _, m, hmem, h => ⟨m, rfl, hmem, rfl, h⟩
  | j + 1, hj, m, hmem, h => by
    obtain ⟨m1, b1, c1, c2, c3, c4, c5, c6⟩ := call3_ok e hr ho hp ht hs hfit ⟨lo + j, false, false⟩
      (by simp only; omega) (by simp) m hmem (by simp) (fun _ => h)
    obtain ⟨m', d1, d2, d3, d4⟩ := middle3 e hr ho hp ht hs hfit lo j (by omega) m1 c2
      ⟨b1, c5, fun p h1 h2 => by rw [val3_below e (by omega)]; exact (c6 p h1 h2).1⟩
    refine ⟨m', ?_, d2, by rw [d3, c4 rfl], d4⟩
    rw [List.range_succ, List.reverse_append, List.reverse_singleton, List.singleton_append, List.map_cons]
    show (call3 e t sched ⟨lo + j, false, false⟩ m).bind _ = _
    rw [c1]
    exact d1

theorem pass3_ok (e : Env3 K) (hr : Rays3 e) (ho : NoOverflow3 e) (hp : Probes3Ok e)
    {t : Nat} (ht : t < subsetTasks3 e.cfg) {sched : Task → List JIter3} (hs : Sched3 e t sched) {sizes : List Nat}
    (hfit : Fits e.pp sizes (fun n => cascadeEntries3 (cascadeSize3 e.cfg.branch e.c0 n)) e.num) (hnum : 0 < e.num)
    (li : Bool) (m : Mem K) (hmem : MemShape sizes m) :
    ∃ m' b, pass3 e t li sched m = .ok m' ∧ MemShape sizes m' ∧ m'.psi.isSome = m.psi.isSome ∧
      m'.bufs[0]? = some b ∧ Holds3 e t 0 b ∧ (li = true → m'.psi = (zeroPsi m).psi) ∧
      (li = false → ∀ ps, m'.psi = some ps → ∀ p, Listed3 e 0 p.u p.v p.w → Pass3 e t 0 p →
        ps[probeLinearIndex3 e.cfg (cascadeSize3 e.cfg.branch e.c0 0) p]? = some (e.march false 0 p).psi) := by
  obtain ⟨m0, b0, a1, a2, a3, a4, a5, a6⟩ := call3_ok e hr ho hp ht hs hfit ⟨e.num, true, false⟩
    (le_refl _) (by simp) (zeroPsi m) (zeroPsi_shape hmem) (by simp) (fun h => absurd h (by simp))
  obtain ⟨m1, d1, d2, d3, d4⟩ := middle3 e hr ho hp ht hs hfit 1 (e.num - 1) (by omega) m0 a2
    (by
      rw [show 1 + (e.num - 1) = e.num by omega]
      exact ⟨b0, a5, fun p h1 h2 => by rw [val3_top]; exact (a6 p h1 h2).1⟩)
  have hz : (zeroPsi m).psi.isSome = m.psi.isSome := by unfold zeroPsi; simp
  obtain ⟨m', b, c1, c2, c3, c4, c5, c6⟩ := call3_ok e hr ho hp ht hs hfit
    ⟨0, false, m.psi.isSome && !li⟩ (Nat.zero_le _) (fun _ => rfl) m1 d2
    (fun h => by
      rw [d3, a4 rfl, hz]
      simp only [Bool.and_eq_true] at h
      exact h.1)
    (fun _ => d4)
  refine ⟨m', b, ?_, c2, by rw [c3, d3, a4 rfl, hz], by rw [bufOf_zero] at c5; exact c5, ?_, ?_, ?_⟩
  · unfold pass3 tasks3
    rw [if_pos hnum, middleTasks_eq, List.singleton_append]
    show (call3 e t sched _ (zeroPsi m)).bind _ = _
    rw [a1]
    show runTasks _ _ m0 = _
    rw [runTasks_append, d1]
    show (call3 e t sched _ m1).bind _ = _
    rw [c1]; rfl
  · intro p h1 h2
    rw [val3_below e hnum]
    exact (c6 p h1 h2).1
  · intro h
    rw [c4 (by simp [h]), d3, a4 rfl]
  · intro h ps hps p h1 h2
    have hsome : m.psi.isSome = true := by rw [← hz, ← a4 rfl, ← d3, ← c3, hps]; rfl
    exact (c6 p h1 h2).2 (by simp [h, hsome]) ps hps

end DexRT.Fs
