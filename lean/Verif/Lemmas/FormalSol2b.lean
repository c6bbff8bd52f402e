import Verif.Lemmas.FormalSol2
/-! Helper lemmas for the 2D formal solution: a kernel call and a whole pass. -/
namespace DexRT.Fs
open DexRT

variable {K : Type} [Field K] [CharZero K]

/-- what a kernel call stores for ray `p` -/
def callVal2 (e : Env2 K) (bc : Bool) (n : Nat) (p : ProbeIdx2) : K :=
  if n = e.num then (e.march bc n p).I
  else (e.march bc n p).I + (e.march bc n p).T *
      ∑ U ∈ Finset.range (probesOn e.c0.np0 (n + 1)), ∑ V ∈ Finset.range (probesOn e.c0.np1 (n + 1)),
        ((axisWeight (probesOn e.c0.np0 (n + 1)) p.u U * axisWeight (probesOn e.c0.np1 (n + 1)) p.v V : ℚ) : K) *
          ((∑ r ∈ Finset.range (upperTexelsPerRay e.cfg n), val2 e (n + 1)
            { p with u := U, v := V, dir := p.dir * upperTexelsPerRay e.cfg n + r }) /
              (upperTexelsPerRay e.cfg n : K))

omit [CharZero K] in
theorem val2_top (e : Env2 K) (p : ProbeIdx2) : val2 e e.num p = callVal2 e true e.num p := by
  unfold val2 callVal2; rw [Nat.sub_self, if_pos rfl]; rfl

omit [CharZero K] in
theorem val2_below (e : Env2 K) {n : Nat} (hn : n < e.num) (p : ProbeIdx2) :
    val2 e n p = callVal2 e false n p := by
  obtain ⟨m, hm⟩ : ∃ m, e.num - n = m + 1 := ⟨e.num - n - 1, by omega⟩
  unfold val2 callVal2
  rw [hm, if_neg (by omega)]
  have e1 : e.num - (m + 1) = n := by omega
  have e2 : e.num - (n + 1) = m := by omega
  unfold radiance2
  simp only [e1]
  unfold val2
  rw [e2]

/-- buffers large enough for every cascade -/
def Fits (pp : Bool) (sizes : List Nat) (entries : Nat → Nat) (num : Nat) : Prop :=
  ∀ n, n ≤ num → ∃ s, sizes[bufOf pp n]? = some s ∧ entries n ≤ s

omit [CharZero K] in
theorem shape_buf {sizes : List Nat} {m : Mem K} (h : MemShape sizes m) {i s : Nat} (hs : sizes[i]? = some s) :
    ∃ b, m.bufs[i]? = some b ∧ b.length = s := by
  rw [← h.1, List.getElem?_map] at hs
  cases hb : m.bufs[i]? with
  | none => rw [hb] at hs; simp at hs
  | some b => rw [hb] at hs; exact ⟨b, rfl, by simpa using hs⟩

omit [CharZero K] in
theorem set_self {bufs : List (List K)} {i : Nat} {b : List K} (h : bufs[i]? = some b) : bufs.set i b = bufs := by
  apply List.ext_getElem?
  intro j
  by_cases hj : i = j
  · subst hj
    have : i < bufs.length := by
      by_contra hc; rw [List.getElem?_eq_none (by omega)] at h; simp at h
    rw [List.getElem?_set_self this, h]
  · rw [List.getElem?_set_ne hj]

theorem call2_ok (e : Env2 K) (hv : e.cfg.Valid) (hm : e.cfg.mode ≠ .preaverage) (hp : Probes2Ok e)
    {t waves : Nat} {sched : Task → List JIter} (hs : Sched2 e t waves sched) {sizes : List Nat}
    (hfit : Fits e.pp sizes (fun n => cascadeEntries (cascadeSize e.cfg e.c0 n)) e.num)
    (k : Task) (hk : k.n ≤ e.num) (halo : k.alo = true → k.n = 0) (m : Mem K) (hmem : MemShape sizes m)
    (hpsi : k.alo = true → m.psi.isSome = true)
    (hup : k.n < e.num → ∃ b, m.bufs[bufOf e.pp (k.n + 1)]? = some b ∧ Holds2 e t waves (k.n + 1) b) :
    ∃ m' b', call2 e t sched k m = .ok m' ∧ MemShape sizes m' ∧ m'.psi.isSome = m.psi.isSome ∧
      (k.alo = false → m'.psi = m.psi) ∧ m'.bufs[bufOf e.pp k.n]? = some b' ∧
      ∀ p, Listed2 e k.n p.u p.v → p.wave < waves → Pass2 e t k.n p →
        b'[probeLinearIndex e.cfg (cascadeSize e.cfg e.c0 k.n) p]? = some (callVal2 e k.bc k.n p) ∧
        (k.alo = true → ∀ ps, m'.psi = some ps →
          ps[probeLinearIndex e.cfg (cascadeSize e.cfg e.c0 k.n) p]? = some (e.march k.bc k.n p).psi) := by
  obtain ⟨n, bc, alo⟩ := k
  simp only at *
  obtain ⟨N, hN, hcoord⟩ := hp.coords n hk
  have hperm := hs ⟨n, bc, alo⟩ N hk hN
  simp only at hperm
  obtain ⟨len, hlen1, hlen2⟩ := hfit n hk
  simp only at hlen2
  obtain ⟨b, hb, hblen⟩ := shape_buf hmem hlen1
  -- coordinates by index
  have hex : ∀ k : Nat, ∃ uv : Nat × Nat, k < N → (e.probes n).coord k = .ok { x := (uv.1 : Int), z := (uv.2 : Int) } ∧
      uv.1 < probesOn e.c0.np0 n ∧ uv.2 < probesOn e.c0.np1 n := by
    intro k
    by_cases h : k < N
    · obtain ⟨u, v, h1, h2, h3⟩ := hcoord k h
      exact ⟨(u, v), fun _ => ⟨h1, h2, h3⟩⟩
    · exact ⟨(0, 0), fun h' => absurd h' h⟩
  choose uv huv using hex
  let P : JIter → ProbeIdx2 := fun it => probeOf e n t (uv it.k).1 (uv it.k).2 it
  have hshape := (C12_shapes_agree e.cfg hv e.c0 n).1
  have hmem_it : ∀ it, it ∈ sched ⟨n, bc, alo⟩ ↔ it.k < N ∧
      it.phi < (nthRaysSubset e.cfg (cascadeComputeSize e.cfg e.c0 n) t).2 ∧ it.wave < min waves e.c0.wave ∧
      it.theta < e.c0.incl := by
    intro it
    rw [hperm.mem_iff]
    unfold iters2
    rw [rpt_one e.cfg hm, Nat.div_one]
    exact mem_jIters _ _ _ _ it
  have hPpass : ∀ it, it ∈ sched ⟨n, bc, alo⟩ → Pass2 e t n (P it) ∧ Listed2 e n (P it).u (P it).v ∧
      (P it).wave < waves := by
    intro it hit
    obtain ⟨h1, h2, h3, h4⟩ := (hmem_it it).1 hit
    obtain ⟨c1, c2, c3⟩ := huv it.k h1
    refine ⟨⟨?_, ?_, h4, ?_, ?_, ?_⟩, ⟨it.k, N, hN, by omega, c1⟩, ?_⟩
    · show (uv it.k).1 < _
      rw [hshape]; show _ < (cascadeSize e.cfg e.c0 n).np0
      rw [(np_probesOn e.cfg e.c0 n).1]; exact c2
    · show (uv it.k).2 < _
      rw [hshape]; show _ < (cascadeSize e.cfg e.c0 n).np1
      rw [(np_probesOn e.cfg e.c0 n).2]; exact c3
    · show it.wave < e.c0.wave; omega
    · show _ ≤ it.phi + _; omega
    · show it.phi + _ < _; omega
    · show it.wave < waves; omega
  have hmerge : ∀ it, it ∈ sched ⟨n, bc, alo⟩ → ∀ b' : List K,
      body2 e bc n t (if n = e.num then none else some (bufOf e.pp (n + 1))) (m.bufs.set (bufOf e.pp n) b') it =
      .ok (probeLinearIndex e.cfg (cascadeSize e.cfg e.c0 n) (P it), callVal2 e bc n (P it), (e.march bc n (P it)).psi) := by
    intro it hit b'
    obtain ⟨q1, q2, q3⟩ := hPpass it hit
    obtain ⟨c1, -, -⟩ := huv it.k ((hmem_it it).1 hit).1
    by_cases hne : n = e.num
    · refine body2_eq e hm bc n t _ _ it _ _ c1 none ?_ (fun _ => rfl) _ _ ?_
      · intro j hj; rw [if_pos hne] at hj; exact absurd hj (by simp)
      · show Outcome.ok ((e.march bc n (P it)).I + (e.march bc n (P it)).T * 0, (e.march bc n (P it)).psi) = _
        unfold callVal2; rw [if_pos hne, mul_zero, add_zero]
    · have hlt : n < e.num := by omega
      obtain ⟨ub, hub1, hub2⟩ := hup hlt
      obtain ⟨l2, l21, l22⟩ := hfit (n + 1) (by omega)
      simp only at l22
      obtain ⟨ub', hub', hubl⟩ := shape_buf hmem l21
      rw [hub1] at hub'; injection hub' with hub'; subst hub'
      refine body2_eq e hm bc n t _ _ it _ _ c1 (some ub) ?_ ?_ _ _ ?_
      · intro j hj
        rw [if_neg hne] at hj; injection hj with hj; subst hj
        exact ⟨ub, by rw [List.getElem?_set_ne (bufOf_ne e.pp n)]; exact hub1, rfl⟩
      · intro h; rw [if_neg hne] at h; simp at h
      · show (do let x ← interp2 e n (P it) ub; Outcome.ok ((e.march bc n (P it)).I + (e.march bc n (P it)).T * x, (e.march bc n (P it)).psi)) = _
        rw [interp2_ok e hv hm hp hlt q2 q3 q1 ub (by omega) hub2, Outcome.ok_bind]
        unfold callVal2; rw [if_neg hne]
  have hi : bufOf e.pp n < m.bufs.length := by
    by_contra hc; rw [List.getElem?_eq_none (by omega)] at hb; simp at hb
  obtain ⟨b', ps', r1, r2, r3, r4, r5⟩ := rcLoop_spec
    (body2 e bc n t (if n = e.num then none else some (bufOf e.pp (n + 1))))
    (bufOf e.pp n) alo (fun it => probeLinearIndex e.cfg (cascadeSize e.cfg e.c0 n) (P it))
    (fun it => callVal2 e bc n (P it)) (fun it => (e.march bc n (P it)).psi) m.bufs len (sched ⟨n, bc, alo⟩) [] b m.psi
    hblen hi (fun h => Option.isSome_iff_exists.1 (hpsi h))
    (fun q hq h => by
      have h0 := halo h
      have := hmem.2 q hq
      have hb0 : bufOf e.pp n = 0 := by rw [h0]; unfold bufOf; cases e.pp <;> rfl
      rw [hb0, this] at hlen1; injection hlen1 with h'; omega)
    (fun it hit => by have := lin_lt e hv hm (hPpass it hit).1; omega)
    (fun b' it hit => hmerge it hit b')
    (fun it hit it' hit' he => by
      rw [List.nil_append] at hit
      have := lin_inj e hv hm (hPpass it hit).1 (hPpass it' hit').1 he
      simp only [this, and_self])
    (by simp)
  rw [set_self hb] at r1
  refine ⟨{ bufs := m.bufs.set (bufOf e.pp n) b', psi := ps' }, b', ?_, ?_, r3.1, r4, ?_, ?_⟩
  · unfold call2
    rw [cascadeIndices_eq]
    exact r1
  · refine ⟨?_, ?_⟩
    · simp only
      rw [← hmem.1]
      apply List.ext_getElem?
      intro j
      rw [List.getElem?_map, List.getElem?_map]
      by_cases hj : bufOf e.pp n = j
      · subst hj; rw [List.getElem?_set_self hi, hb]; simp [r2, hblen]
      · rw [List.getElem?_set_ne hj]
    · intro ps hps
      have hps' : ps' = some ps := hps
      have : m.psi.isSome = true := by rw [← r3.1, hps']; rfl
      obtain ⟨q, hq⟩ := Option.isSome_iff_exists.1 this
      rw [r3.2 q ps hq hps]; exact hmem.2 q hq
  · exact List.getElem?_set_self hi
  · intro p hl hw hpass
    obtain ⟨kk, N', hN', hkk, hck⟩ := hl
    rw [hN] at hN'; injection hN' with hN'
    have hkN : kk < N := by omega
    obtain ⟨c1, -, -⟩ := huv kk hkN
    rw [hck] at c1; injection c1 with c1
    have hx := congrArg Coord2.x c1; have hz := congrArg Coord2.z c1
    simp only [Nat.cast_inj] at hx hz
    obtain ⟨p1, p2, p3, p4, p5, p6⟩ := hpass
    let it : JIter := { k := kk, phi := p.dir - (nthRaysSubset e.cfg (cascadeComputeSize e.cfg e.c0 n) t).1,
                        wave := p.wave, theta := p.incl }
    have hPit : P it = p := by
      show probeOf e n t (uv kk).1 (uv kk).2 it = p
      unfold probeOf
      rw [← hx, ← hz]
      show ({ u := p.u, v := p.v, dir := p.dir - _ + _, incl := p.incl, wave := p.wave } : ProbeIdx2) = p
      rw [Nat.sub_add_cancel p5]
    have hit : it ∈ sched ⟨n, bc, alo⟩ := by
      rw [hmem_it]
      refine ⟨hkN, ?_, ?_, p3⟩
      · show p.dir - _ < _; omega
      · show p.wave < _
        have : p.wave < e.c0.wave := p4
        omega
    have := r5 it (by simpa using hit)
    simp only [hPit] at this
    exact ⟨this.1, fun h ps hps => this.2 ps hps h⟩

omit [CharZero K] in
theorem runTasks_append (call : Task → Mem K → Outcome (Mem K)) : ∀ (a b : List Task) (m : Mem K),
    runTasks call (a ++ b) m = (runTasks call a m).bind (runTasks call b)
  | [], b, m => rfl
  | t :: ts, b, m => by
    show (call t m).bind _ = ((call t m).bind _).bind _
    cases call t m with
    | ok m' => exact runTasks_append call ts b m'
    | throws => rfl
    | ub => rfl

/-- The calls `j, j-1, ..., 1` below a cascade already done. -/
theorem middle2 (e : Env2 K) (hv : e.cfg.Valid) (hm : e.cfg.mode ≠ .preaverage) (hp : Probes2Ok e)
    {t waves : Nat} {sched : Task → List JIter} (hs : Sched2 e t waves sched) {sizes : List Nat}
    (hfit : Fits e.pp sizes (fun n => cascadeEntries (cascadeSize e.cfg e.c0 n)) e.num) (lo : Nat) :
    ∀ (j : Nat) (_ : lo + j ≤ e.num) (m : Mem K) (_ : MemShape sizes m)
      (_ : ∃ b, m.bufs[bufOf e.pp (lo + j)]? = some b ∧ Holds2 e t waves (lo + j) b),
    ∃ m', runTasks (call2 e t sched) ((List.range j).reverse.map fun k => { n := lo + k, bc := false, alo := false }) m =
        .ok m' ∧ MemShape sizes m' ∧ m'.psi = m.psi ∧
      ∃ b, m'.bufs[bufOf e.pp lo]? = some b ∧ Holds2 e t waves lo b
  | 0, _, m, hmem, h => ⟨m, rfl, hmem, rfl, h⟩
  | j + 1, hj, m, hmem, h => by
    obtain ⟨m1, b1, c1, c2, c3, c4, c5, c6⟩ := call2_ok e hv hm hp hs hfit ⟨lo + j, false, false⟩
      (by simp only; omega) (by simp) m hmem (by simp) (fun _ => h)
    obtain ⟨m', d1, d2, d3, d4⟩ := middle2 e hv hm hp hs hfit lo j (by omega) m1 c2
      ⟨b1, c5, fun p h1 h2 h3 => by rw [val2_below e (by omega)]; exact (c6 p h1 h2 h3).1⟩
    refine ⟨m', ?_, d2, by rw [d3, c4 rfl], d4⟩
    rw [List.range_succ, List.reverse_append, List.reverse_singleton, List.singleton_append, List.map_cons]
    show (call2 e t sched ⟨lo + j, false, false⟩ m).bind _ = _
    rw [c1]
    exact d1

omit [CharZero K] in
theorem middleTasks_eq (num : Nat) :
    middleTasks num = (List.range (num - 1)).reverse.map fun k => { n := 1 + k, bc := false, alo := false } := by
  unfold middleTasks
  congr 1
  funext k
  rw [Nat.add_comm]

omit [CharZero K] in
theorem zeroPsi_shape {sizes : List Nat} {m : Mem K} (h : MemShape sizes m) : MemShape sizes (zeroPsi m) := by
  refine ⟨h.1, ?_⟩
  intro ps hps
  unfold zeroPsi at hps
  simp only [Option.map_eq_some_iff] at hps
  obtain ⟨q, hq, rfl⟩ := hps
  simpa using h.2 q hq

end DexRT.Fs
