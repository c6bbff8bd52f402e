import Verif.Lemmas.Nlte3Batch
/-! Lemmas for C93: what one wavelength adds to the matrices and to J. -/
namespace DexRT.Nlte3
open DexRT DexRT.Fs DexRT.AtmosFile DexRT.Dir DexRT.Given3 DexRT.Emis DexRT.Lte3 DexRT.RadGamma DexRT.Rates Classical
open DexRT.Nlte (SameCell rayRate_congr addOps passesG passesG_ok)

variable {q : Setup} {k nx ny nz : Nat} {a : Cond} {h : Coord3 → ℝ} {pf : Coord3 → Emis.Pops} {st : Started}

theorem subset_pos (c : RcCfg3) (h : 0 < c.c0az ∧ 0 < c.c0polar) : 0 < subsetTasks3 c := by
  unfold subsetTasks3
  split
  · exact Nat.mul_pos h.1 h.2
  · exact Nat.one_pos

theorem passesJ_congr (p p' : Nat → Mem ℝ → Outcome (Mem ℝ)) (merge : Nat → List ℝ → Arr2 ℝ → Outcome (Arr2 ℝ)) :
    ∀ ts : List Nat, (∀ t ∈ ts, ∀ m, p t m = p' t m) → passesJ p merge ts = passesJ p' merge ts
  | [], _ => rfl
  | t :: ts, h => by
    funext m J
    rw [passesJ, passesJ, h t List.mem_cons_self, passesJ_congr p p' merge ts fun t' ht' => h t' (List.mem_cons_of_mem _ ht')]

theorem passesG_congr (p p' : Nat → Mem ℝ → Outcome (Mem ℝ)) (gamma : Nat → List ℝ → List ℝ → Outcome (List (AddOp Elem ℝ)))
    (merge : Nat → List ℝ → Arr2 ℝ → Outcome (Arr2 ℝ)) :
    ∀ ts : List Nat, (∀ t ∈ ts, ∀ m, p t m = p' t m) → passesG p gamma merge ts = passesG p' gamma merge ts
  | [], _ => rfl
  | t :: ts, h => by
    funext m G J
    rw [passesG, passesG, h t List.mem_cons_self, passesG_congr p p' gamma merge ts fun t' ht' => h t' (List.mem_cons_of_mem _ ht')]

theorem rayVal3_eq (e : Env) (g : Quad3) (wphi : RadGamma.Cell → Nat → ℝ) (I psi : RadGamma.Cell → Nat → Nat × Nat → ℝ) (ia : Nat) (c : RadGamma.Cell)
    (x y la polar az : Nat) : rayVal3 e g wphi I psi ia c (ia, x, y, c.ks) la polar az =
      (e.bin[la]?).getD 0 * (raySet3 g c (I c) (psi c)).weight (polar, az) *
        rayRate e c (wphi c) ia x y la ((e.ad.wavelength[la]?).getD 0) ((raySet3 g c (I c) (psi c)).vel (polar, az))
          ((raySet3 g c (I c) (psi c)).I la (polar, az)) ((raySet3 g c (I c) (psi c)).psi la (polar, az)) := by
  unfold rayVal3 atomVal
  rw [if_pos ⟨rfl, rfl⟩]
  rfl

/-- the part of the rate that wavelength `la` contributes -/
noncomputable def waveRate (q : Setup) (k nx ny nz : Nat) (a : Cond) (h : Coord3 → ℝ) (pf : Coord3 → Emis.Pops) (march : Bool → Nat → ProbeIdx3 → Seg ℝ)
    (lam : Bool) (c : Coord3) (ia x y la : Nat) : ℝ :=
  let R := raySet3 (q.quad (nx * 2 ^ k) (ny * 2 ^ k) (nz * 2 ^ k)) (gasCell q.r a h pf c)
    (fun _ x => radiance3 march (nx * 2 ^ k) (ny * 2 ^ k) (nz * 2 ^ k) (upperTexels3 q.r.s.cfg.branch).1 (upperTexels3 q.r.s.cfg.branch).2 q.r.s.num q.r.s.num (rayAt c x))
    (fun _ x => if lam then 0 else (march false 0 (rayAt c x)).psi)
  ∑ z ∈ R.rays, (q.env.bin[la]?).getD 0 * R.weight z *
    rayRate q.env (gasCell q.r a h pf c) (quadFactor q.env (q.quad (nx * 2 ^ k) (ny * 2 ^ k) (nz * 2 ^ k)) (gasCell q.r a h pf c)) ia x y la
      ((q.env.ad.wavelength[la]?).getD 0) (R.vel z) (R.I la z) (R.psi la z)

theorem waveG_ok (hf : Fits q.r.s k nx ny nz) (hr : NlteReady q) (hc : Cells q.r k nx ny nz a h pf st) (o : LaOrder) (la : Nat)
    (hla : la < q.r.ad.wavelength.length) (ho : LaOrders q.r k nx ny nz o) (hpsi : o.b.mem.psi.isSome)
    (lam : Bool) (w : Nat → Nat → ℝ) (hw : ∀ c, InGrid k nx ny nz c → ∀ adr, Addr3 (2 ^ k) st.g.bm c adr → ∀ kr, kr < q.r.ad.lines.length →
      w adr.toNat kr = quadFactor q.env (q.quad (nx * 2 ^ k) (ny * 2 ^ k) (nz * 2 ^ k)) (gasCell q.r a h pf c) kr) :
    ∃ march ops, Marches3 (gasWorld q.r k nx ny nz a h pf) (envOf q.r.s (nx * 2 ^ k) (ny * 2 ^ k) (nz * 2 ^ k) march) q.r.s.len la ∧
      (∀ c, InGrid k nx ny nz c → ∀ adr, Addr3 (2 ^ k) st.g.bm c adr → ∀ ia, ia < q.r.ad.atoms.length → ∀ x y,
        total ops (ia, x, y, adr.toNat) = waveRate q k nx ny nz a h pf march lam c ia x y la) ∧
      ∀ J : Arr2 ℝ, J.cols = nx * 2 ^ k * (ny * 2 ^ k) * (nz * 2 ^ k) → (J.rows = 1 ∨ la < J.rows) →
        ∃ J', (∀ G, waveG q st o lam w la G J = .ok (addOps ops G, J')) ∧ J'.rows = J.rows ∧ J'.cols = J.cols ∧
          (∀ x y z, x < nx * 2 ^ k → y < ny * 2 ^ k → z < nz * 2 ^ k →
            J'.get (if J.rows = 1 then 0 else la) ((z * (ny * 2 ^ k) + y) * (nx * 2 ^ k) + x) =
              J.get (if J.rows = 1 then 0 else la) ((z * (ny * 2 ^ k) + y) * (nx * 2 ^ k) + x) + jOf q.r.s (nx * 2 ^ k) (ny * 2 ^ k) (nz * 2 ^ k) march x y z) ∧
          ∀ p x, (p ≠ if J.rows = 1 then 0 else la) → J'.get p x = J.get p x := by
  have hg := hc.good
  have hNx : st.g.nx.toNat = nx * 2 ^ k := by rw [hg.sx, ← Nat.cast_mul, Int.toNat_natCast]
  have hNy : st.g.ny.toNat = ny * 2 ^ k := by rw [hg.sy, ← Nat.cast_mul, Int.toNat_natCast]
  have hNz : st.g.nz.toNat = nz * 2 ^ k := by rw [hg.sz, ← Nat.cast_mul, Int.toNat_natCast]
  obtain ⟨A, M, a1, hM, hm, hJ⟩ := formal_lte hf hr.ready.toSound hc o la hla (hr.ready.slots la hla) ho
  obtain ⟨scr, s1, s2⟩ := scratch_ok hf hr.ready.toSound hc o la hla ho
  obtain ⟨cells, c1, c2⟩ := cellList_ok (r := q.r) hf hg.map scr
  have hrays := quad_rays hf
  obtain ⟨hpr, hlist⟩ := C74_probes_dense3 (envOf q.r.s (nx * 2 ^ k) (ny * 2 ^ k) (nz * 2 ^ k) M) (by rw [env_np0, env_np1, env_np2]; exact sides_pos hf)
    (by rw [env_np0, env_np1, env_np2]; exact cells_le hf) fun n _ => by rw [env_np0, env_np1, env_np2]; exact env_dims M n
  have hlist0 := hlist 0 (Nat.zero_le _)
  rw [env_np0, env_np1, env_np2] at hlist0
  obtain ⟨e, he⟩ : ∃ e, e = envOf q.r.s (nx * 2 ^ k) (ny * 2 ^ k) (nz * 2 ^ k) M := ⟨_, rfl⟩
  obtain ⟨g, hgq⟩ : ∃ g, g = q.quad (nx * 2 ^ k) (ny * 2 ^ k) (nz * 2 ^ k) := ⟨_, rfl⟩
  have hstor : raysToStorage3 g.cfg g.rays = cascadeSize3 e.cfg.branch e.c0 0 := by
    rw [hgq, he]
    exact (C13_shapes_agree q.r.s.cfg (rays_pos hf).1 (rays_pos hf).2 _ 0).2
  have hnp : e.c0.np0 = nx * 2 ^ k ∧ e.c0.np1 = ny * 2 ^ k ∧ e.c0.np2 = nz * 2 ^ k := by
    rw [he]; exact ⟨env_np0 _ _ _ _ _, env_np1 _ _ _ _ _, env_np2 _ _ _ _ _⟩
  have hrg : cascadeComputeSize3 e.cfg e.c0 0 = g.rays := by rw [he, hgq]; rfl
  have hecfg : e.cfg = q.r.s.cfg := by rw [he]; rfl
  have hgcfg : g.cfg = q.r.s.cfg := by rw [hgq]; rfl
  have henum : e.num = q.r.s.num := by rw [he]; rfl
  have hem : e.march = M := by rw [he]; rfl
  rw [← hgq] at hrays
  obtain ⟨i, p, hR, hpG⟩ := passesG_ok (fun t m => if t < subsetTasks3 q.r.s.cfg then pass3 e t lam (o.b.rc t) m else pass3 e 0 lam (o.b.rc 0) m)
    (fun t c0 ps => computeGamma3 q.env g (fun c kr => w c.ks kr) cells la t c0 ps)
    (fun t c0 J => mergeC0ToJ3 (mergeEnv q.r.s st.g.bm (nx * 2 ^ k) (ny * 2 ^ k) (nz * 2 ^ k)) la c0 (o.b.j t) J)
    (fun m => MemShape (bufSizes q.r.s k nx ny nz) m ∧ m.psi.isSome)
    (fun t c0 ps => t < subsetTasks3 q.r.s.cfg → ∀ p, DexRT.Fs.Listed3 e 0 p.u p.v p.w → InPass3 e.cfg (cascadeComputeSize3 e.cfg e.c0 0) t p →
      c0[probeLinearIndex3 e.cfg (cascadeSize3 e.cfg.branch e.c0 0) p]? = some (radiance3 M (nx * 2 ^ k) (ny * 2 ^ k) (nz * 2 ^ k) (upperTexels3 e.cfg.branch).1 (upperTexels3 e.cfg.branch).2 e.num e.num p) ∧
      ps[probeLinearIndex3 e.cfg (cascadeSize3 e.cfg.branch e.c0 0) p]? = some (if lam then 0 else (M false 0 p).psi))
    (fun t m hmm => by
      have hpass : ∀ t, t < subsetTasks3 q.r.s.cfg → _ := fun t ht => C74_pass3 e (by rw [hecfg]; exact rays_pos hf) (by rw [he]; exact hf.products) (by rw [he]; exact hpr)
        (by rw [henum]; exact hr.ready.cascades) t (by rw [hecfg]; exact ht) (o.b.rc t) (by rw [he]; exact sched_ok hf M ho.base t) (bufSizes q.r.s k nx ny nz)
        (by rw [he]; exact hf.buffers) lam m hmm.1
      by_cases ht : t < subsetTasks3 q.r.s.cfg
      · obtain ⟨m', c0, p1, p2, p3, p4, p5, p6, p7⟩ := hpass t ht
        have hsome : m'.psi.isSome := by rw [p7]; exact hmm.2
        obtain ⟨ps, hps⟩ := Option.isSome_iff_exists.1 hsome
        rw [hnp.1, hnp.2.1, hnp.2.2, hem] at p4
        rw [hem] at p5
        refine ⟨m', c0, ps, by simp only [if_pos ht]; exact p1, ⟨p3, hsome⟩, p2, hps, fun _ p q1 q2 => ⟨p4 p q1 q2, ?_⟩⟩
        cases lam with
        | false => exact p5 rfl ps hps p q1 q2
        | true =>
          have hv := p4 p q1 q2
          have hlt := (List.getElem?_eq_some_iff.1 hv).1
          have e1 := p3.2 ps hps
          rw [← p3.1, List.getElem?_map, p2] at e1
          simp only [Option.map_some, Option.some.injEq] at e1
          rw [e1] at hlt
          rw [List.getElem?_eq_getElem hlt, p6 rfl ps hps _ (List.getElem_mem hlt)]
          rfl
      · obtain ⟨m', c0, p1, p2, p3, p4, p5, p6, p7⟩ := hpass 0 (subset_pos q.r.s.cfg (rays_pos hf))
        have hsome : m'.psi.isSome := by rw [p7]; exact hmm.2
        obtain ⟨ps, hps⟩ := Option.isSome_iff_exists.1 hsome
        exact ⟨m', c0, ps, by simp only [if_neg ht]; exact p1, ⟨p3, hsome⟩, p2, hps, fun h => absurd h ht⟩)
    (List.range (subsetTasks3 q.r.s.cfg)) List.nodup_range o.b.mem ⟨ho.base.mem, hpsi⟩
  obtain ⟨I, hI⟩ : ∃ I : RadGamma.Cell → Nat → Nat × Nat → ℝ, I = fun c _ x => radiance3 M (nx * 2 ^ k) (ny * 2 ^ k) (nz * 2 ^ k) (upperTexels3 q.r.s.cfg.branch).1 (upperTexels3 q.r.s.cfg.branch).2 q.r.s.num q.r.s.num ⟨c.u, c.v, c.w, x.1, x.2⟩ := ⟨_, rfl⟩
  obtain ⟨psi, hpsi'⟩ : ∃ psi : RadGamma.Cell → Nat → Nat × Nat → ℝ, psi = fun c _ x => if lam then 0 else (M false 0 ⟨c.u, c.v, c.w, x.1, x.2⟩).psi := ⟨_, rfl⟩
  have huv : ∀ c ∈ cells, c.u < nx * 2 ^ k ∧ c.v < ny * 2 ^ k ∧ c.w < nz * 2 ^ k := by
    intro c hcm
    obtain ⟨c', adr, i1, i2, rfl⟩ := c2.of c hcm
    obtain ⟨j1, j2, j3, j4, j5, j6⟩ := i1
    refine ⟨?_, ?_, ?_⟩
    · show c'.x.toNat < _
      omega
    · show c'.y.toNat < _
      omega
    · show c'.z.toNat < _
      omega
  have hkey : ∀ t < subsetTasks3 g.cfg, ∀ c ∈ cells, ∀ polar az,
      (nthRaysSubset3 g.cfg g.rays t).startPolar ≤ polar → polar < (nthRaysSubset3 g.cfg g.rays t).startPolar + (nthRaysSubset3 g.cfg g.rays t).numPolar →
      (nthRaysSubset3 g.cfg g.rays t).startAz ≤ az → az < (nthRaysSubset3 g.cfg g.rays t).startAz + (nthRaysSubset3 g.cfg g.rays t).numAz →
      (i t)[probeLinearIndex3 g.cfg (raysToStorage3 g.cfg g.rays) ⟨c.u, c.v, c.w, polar, az⟩]? = some (I c la (polar, az)) ∧
      (p t)[probeLinearIndex3 g.cfg (raysToStorage3 g.cfg g.rays) ⟨c.u, c.v, c.w, polar, az⟩]? = some (psi c la (polar, az)) := by
    intro t ht c hcm polar az d1 d2 d3 d4
    rw [hgcfg] at ht
    obtain ⟨u1, u2, u3⟩ := huv c hcm
    have hpo : ∀ N u, u < N → u < probesOn N 0 := by
      intro N u hu
      unfold probesOn; simp only [pow_zero, Nat.div_one]; omega
    have hh := hR t (List.mem_range.2 ht) ht ⟨c.u, c.v, c.w, polar, az⟩ (by
        rw [he]; exact hlist0 _ _ _ (hpo _ _ u1) (hpo _ _ u2) (hpo _ _ u3))
      (by
        rw [hrg, hecfg, ← hgcfg]
        refine ⟨?_, ?_, ?_, d3, d4, d1, d2⟩
        · rw [hrays]; exact u1
        · rw [hrays]; exact u2
        · rw [hrays]; exact u3)
    rw [hstor]
    rw [hecfg, henum] at hh
    simp only [hI, hpsi', hgcfg]
    rw [hecfg]
    exact hh
  have hB : Wave3 q.env g cells I psi (la, i, p) :=
    ⟨hla, fun t ht c hcm polar az d1 d2 d3 d4 => (hkey t ht c hcm polar az d1 d2 d3 d4).1, fun t ht c hcm polar az d1 d2 d3 d4 => (hkey t ht c hcm polar az d1 d2 d3 d4).2⟩
  obtain ⟨ops, o1, o2⟩ := waveGamma3_total q.env hr.consistent hr.physical g (by rw [hgcfg]; exact (rays_pos hf).1) (by rw [hgcfg]; exact (rays_pos hf).2)
    (fun c kr => w c.ks kr) cells c2.nodup I psi (la, i, p) hB
  refine ⟨M, ops, hm, fun c hin adr hadr ia hia x y => ?_, fun J hcols hrows => ?_⟩
  · have hmem := c2.has c hin adr hadr
    have hs := gammaCell_same hc c hin adr hadr (scr adr)
    have hw3 : (gammaCell q.r st (scr adr) adr.toNat c).w = (gasCell q.r a h pf c).w := rfl
    obtain ⟨cell, hcell⟩ : ∃ cell, cell = gammaCell q.r st (scr adr) adr.toNat c := ⟨_, rfl⟩
    rw [← hcell] at hmem hs hw3
    have hks : cell.ks = adr.toNat := by rw [hcell]; rfl
    have := o2 cell hmem ia (by show ia < (q.r.ad.atoms.map _).length; rw [List.length_map]; exact hia) x y
    rw [hks] at this
    rw [this]
    unfold waveRate
    rw [← hgq]
    simp only
    rw [show (raySet3 g (gasCell q.r a h pf c) (fun _ x => radiance3 M (nx * 2 ^ k) (ny * 2 ^ k) (nz * 2 ^ k) (upperTexels3 q.r.s.cfg.branch).1 (upperTexels3 q.r.s.cfg.branch).2 q.r.s.num q.r.s.num (rayAt c x)) (fun _ x => if lam then 0 else (M false 0 (rayAt c x)).psi)).rays = Finset.range g.rays.polar ×ˢ Finset.range g.rays.az from rfl,
      Finset.sum_product]
    refine Finset.sum_congr rfl fun polar _ => Finset.sum_congr rfl fun az _ => ?_
    rw [← hks, rayVal3_eq q.env g (fun c kr => w c.ks kr) I psi ia cell x y la polar az]
    have hvel : (raySet3 g cell (I cell) (psi cell)).vel (polar, az) = along (gasCell q.r a h pf c) (rayDir3 g.rays.az az) := by
      show along cell _ = _
      unfold along
      rw [hs.vel.1, hs.vel.2.1, hs.vel.2.2]
    have hIc : (raySet3 g cell (I cell) (psi cell)).I la (polar, az) = radiance3 M (nx * 2 ^ k) (ny * 2 ^ k) (nz * 2 ^ k) (upperTexels3 q.r.s.cfg.branch).1 (upperTexels3 q.r.s.cfg.branch).2 q.r.s.num q.r.s.num (rayAt c (polar, az)) := by
      show I cell _ _ = _
      rw [hI]
      simp only
      rw [hs.u, hs.v, hw3]; rfl
    have hPc : (raySet3 g cell (I cell) (psi cell)).psi la (polar, az) = if lam then 0 else (M false 0 (rayAt c (polar, az))).psi := by
      show psi cell _ _ = _
      rw [hpsi']
      simp only
      rw [hs.u, hs.v, hw3]; rfl
    rw [hvel, hIc, hPc]
    show _ * _ * rayRate _ _ _ _ _ _ _ _ _ _ _ = _ * _ * rayRate _ _ _ _ _ _ _ _ _ _ _
    congr 1
    refine rayRate_congr (r := flat q.r) q.env rfl hr.ready.levels cell _ hs _ _ (fun kr hkr => ?_) ia x y la (fun t ht t1 t2 => ?_) _ _ _ _
    · show w cell.ks kr = _
      rw [hks, hgq]; exact hw c hin adr hadr kr hkr
    · obtain ⟨x', x1, x2, x3⟩ := hr.ready.levels.2 t ht
      rw [hcell]
      exact ⟨s2 c hin adr hadr ⟨t, ht, t1, t2⟩ _ _ x1 _ x2, s2 c hin adr hadr ⟨t, ht, t1, t2⟩ _ _ x1 _ x3⟩
  · obtain ⟨m', J', f1, f2⟩ := hJ lam J hcols hrows
    refine ⟨J', fun G => ?_, f2⟩
    unfold waveG
    simp only [a1, s1, Outcome.ok_bind, hNx, hNy, hNz, c1]
    rw [← hM, ← he, ← hgq]
    have o1' := o1
    unfold waveGamma3 at o1'
    rw [hgcfg] at o1'
    have hcong := hpG ops o1' G J m' J'
    unfold formalSol3 at f1
    rw [← he] at f1
    rw [passesJ_congr _ (fun t m => if t < subsetTasks3 q.r.s.cfg then pass3 e t lam (o.b.rc t) m else pass3 e 0 lam (o.b.rc 0) m) _ (List.range (subsetTasks3 q.r.s.cfg)) (fun t ht m => by
      rw [if_pos (List.mem_range.1 ht)])] at f1
    have f2 := hcong f1
    rw [← passesG_congr (fun t m => pass3 e t lam (o.b.rc t) m) _ _ _ (List.range (subsetTasks3 q.r.s.cfg)) (fun t ht m => by
      rw [if_pos (List.mem_range.1 ht)])] at f2
    exact f2

end DexRT.Nlte3
