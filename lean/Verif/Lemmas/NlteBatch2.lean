import Verif.Lemmas.NlteBatch
/-! Lemmas for C89: what one batch of wavelengths adds to the matrices and to J. -/
namespace DexRT.Nlte
open DexRT DexRT.Fs DexRT.AtmosFile DexRT.Dir DexRT.Given DexRT.Emis DexRT.LteRun DexRT.RadGamma DexRT.Rates Classical

variable {q : Setup} {k nx nz : Nat} {a : Cond} {h : Coord2 → ℝ} {pf : Coord2 → Emis.Pops} {st : Started}

/-- the part of the rate that wavelength `la` contributes -/
noncomputable def waveRate (q : Setup) (k nx nz : Nat) (a : Cond) (h : Coord2 → ℝ) (pf : Coord2 → Emis.Pops) (march : Bool → Nat → ProbeIdx2 → Seg ℝ)
    (lam : Bool) (c : Coord2) (ia x y la : Nat) : ℝ :=
  let R := raySet2 (q.quad (nx * 2 ^ k) (nz * 2 ^ k)) (gasCell q.r a h pf c)
    (fun la x => radiance2 march (nx * 2 ^ k) (nz * 2 ^ k) (upperTexelsPerRay q.r.s.cfg) q.r.s.num q.r.s.num (rayAt q.r.s c la x))
    (fun la x => if lam then 0 else (march false 0 (rayAt q.r.s c la x)).psi)
  ∑ z ∈ R.rays, (q.env.bin[la]?).getD 0 * R.weight z *
    rayRate q.env (gasCell q.r a h pf c) (quadFactor q.env (q.quad (nx * 2 ^ k) (nz * 2 ^ k)) (gasCell q.r a h pf c)) ia x y la
      ((q.env.ad.wavelength[la]?).getD 0) (R.vel z) (R.I la z) (R.psi la z)

theorem batchG_ok (hf : Fits q.r.s k nx nz) (hr : NlteReady q) (hc : Cells q.r k nx nz a h pf st) (o : LteOrder) (la : Nat) (hW : q.r.s.W ∣ la)
    (hla : la < q.r.ad.wavelength.length) (ho : LteOrders q.r k nx nz (waves q.r.s q.r.ad.wavelength.length la) o) (hpsi : o.b.mem.psi.isSome)
    (lam : Bool) (w : Nat → Nat → ℝ) (hw : ∀ c, Given.InGrid k nx nz c → ∀ adr, Addr2 (2 ^ k) st.g.bm c adr → ∀ kr, kr < q.r.ad.lines.length →
      w adr.toNat kr = quadFactor q.env (q.quad (nx * 2 ^ k) (nz * 2 ^ k)) (gasCell q.r a h pf c) kr) :
    ∃ march ops, Marches2 (gasWorld q.r k nx nz a h pf) (envOf q.r.s (nx * 2 ^ k) (nz * 2 ^ k) march) (raysFrom q.r.s la) (waves q.r.s q.r.ad.wavelength.length la) ∧
      (∀ c, Given.InGrid k nx nz c → ∀ adr, Addr2 (2 ^ k) st.g.bm c adr → ∀ ia, ia < q.r.ad.atoms.length → ∀ x y,
        total ops (ia, x, y, adr.toNat) = ∑ wave ∈ Finset.range (waves q.r.s q.r.ad.wavelength.length la), waveRate q k nx nz a h pf march lam c ia x y (la + wave)) ∧
      ∀ J : Arr2 ℝ, (J.cols : Int) = nx * nz * ((2 ^ k : Nat) * (2 ^ k : Nat)) → (J.rows = q.r.s.W ∨ la + waves q.r.s q.r.ad.wavelength.length la ≤ J.rows) →
        ∃ J', (∀ G, batchG q st o lam w la G J = .ok (addOps ops G, J')) ∧ J'.rows = J.rows ∧ J'.cols = J.cols ∧
          (∀ wave x z, wave < waves q.r.s q.r.ad.wavelength.length la → x < nx * 2 ^ k → z < nz * 2 ^ k →
            J'.get (if J.rows = q.r.s.W then wave else la + wave) (z * (nx * 2 ^ k) + x) =
              J.get (if J.rows = q.r.s.W then wave else la + wave) (z * (nx * 2 ^ k) + x) + jOf q.r.s (nx * 2 ^ k) (nz * 2 ^ k) march x z wave) ∧
          ∀ p x, (∀ wave, wave < waves q.r.s q.r.ad.wavelength.length la → p ≠ if J.rows = q.r.s.W then wave else la + wave) → J'.get p x = J.get p x := by
  have hg := hc.good
  have hNx : st.g.nx.toNat = nx * 2 ^ k := by rw [hg.sx, ← Nat.cast_mul, Int.toNat_natCast]
  have hNz : st.g.nz.toNat = nz * 2 ^ k := by rw [hg.sz, ← Nat.cast_mul, Int.toNat_natCast]
  have hnw : st.g.nw.toNat = q.r.ad.wavelength.length := by rw [hg.sw]; rfl
  have hww : waves q.r.s q.r.ad.wavelength.length la ≤ q.r.s.W := by unfold waves; omega
  have hwl : la + waves q.r.s q.r.ad.wavelength.length la ≤ q.r.ad.wavelength.length := by unfold waves; omega
  have hb := hf.batch
  set wv := waves q.r.s q.r.ad.wavelength.length la with hwv
  obtain ⟨A, M, a1, hM, hm, hJ⟩ := formal_lte hf hr.ready hc o la hW hla ho
  obtain ⟨scr, s1, s2⟩ := scratch_ok hf hr.ready hc o la hW hla ho
  rw [← hwv] at s1
  obtain ⟨cells, c1, c2⟩ := cellList_ok (r := q.r) hf hg.map scr
  obtain ⟨l1, l2, l3⟩ := quad_lens hf
  have hrays := quad_rays hf
  obtain ⟨hpr, hlist⟩ := env_probes hf M
  set e := envOf q.r.s (nx * 2 ^ k) (nz * 2 ^ k) M with he
  set g := q.quad (nx * 2 ^ k) (nz * 2 ^ k) with hgq
  set sizes := bufferSizes e.pp (fun n => cascadeEntries (cascadeSize e.cfg e.c0 n)) e.num with hsz
  have hstor : raysToStorage g.cfg g.rays = cascadeSize e.cfg e.c0 0 := (C12_shapes_agree q.r.s.cfg hf.valid e.c0 0).2
  obtain ⟨i, p, hR, hpG⟩ := passesG_ok (fun t m => pass2 e t lam (o.b.rc t) m)
    (fun t c0 ps => computeGamma2 q.env g (fun c kr => w c.ks kr) cells la (la + wv) t c0 ps)
    (fun t c0 J => mergeC0ToJ (mergeOf q.r.s st.g.bm (nx * 2 ^ k) (nz * 2 ^ k)) la c0 (o.b.j t) J)
    (fun m => MemShape sizes m ∧ m.psi.isSome)
    (fun t c0 ps => ∀ p, Listed2 e 0 p.u p.v → p.wave < wv → InPass2 e.cfg (cascadeComputeSize e.cfg e.c0 0) t p →
      c0[probeLinearIndex e.cfg (cascadeSize e.cfg e.c0 0) p]? = some (radiance2 M (nx * 2 ^ k) (nz * 2 ^ k) (upperTexelsPerRay e.cfg) e.num e.num p) ∧
      ps[probeLinearIndex e.cfg (cascadeSize e.cfg e.c0 0) p]? = some (if lam then 0 else (M false 0 p).psi))
    (fun t m hm => by
      obtain ⟨m', c0, p1, p2, p3, p4, p5, p6, p7⟩ := C74_pass2 e hf.valid hf.mode hpr hr.ready.cascades t wv (o.b.rc t) (ho.base.rc t M) lam m hm.1
      have hsome : m'.psi.isSome := by rw [p7]; exact hm.2
      obtain ⟨ps, hps⟩ := Option.isSome_iff_exists.1 hsome
      refine ⟨m', c0, ps, p1, ⟨p3, hsome⟩, p2, hps, fun p q1 q2 q3 => ⟨p4 p q1 q2 q3, ?_⟩⟩
      cases lam with
      | false => exact p5 rfl ps hps p q1 q2 q3
      | true =>
        have hv := p4 p q1 q2 q3
        have hlt := (List.getElem?_eq_some_iff.1 hv).1
        have e1 := p3.2 ps hps
        rw [← p3.1, List.getElem?_map, p2] at e1
        simp only [Option.map_some, Option.some.injEq] at e1
        rw [e1] at hlt
        rw [List.getElem?_eq_getElem hlt, p6 rfl ps hps _ (List.getElem_mem hlt)]
        rfl)
    (List.range (subsetTasks q.r.s.cfg)) List.nodup_range o.b.mem ⟨ho.base.mem, hpsi⟩
  set I : RadGamma.Cell → Nat → Nat × Nat → ℝ := fun c la x => radiance2 M (nx * 2 ^ k) (nz * 2 ^ k) (upperTexelsPerRay q.r.s.cfg) q.r.s.num q.r.s.num ⟨c.u, c.v, x.1, x.2, la % q.r.s.W⟩ with hI
  set psi : RadGamma.Cell → Nat → Nat × Nat → ℝ := fun c la x => if lam then 0 else (M false 0 ⟨c.u, c.v, x.1, x.2, la % q.r.s.W⟩).psi with hpsi'
  have hmod : ∀ wave, wave < wv → (la + wave) % q.r.s.W = wave := by
    intro wave hwave
    obtain ⟨b, rfl⟩ := hW
    rw [Nat.mul_add_mod, Nat.mod_eq_of_lt (by omega)]
  have huv : ∀ c ∈ cells, c.u < nx * 2 ^ k ∧ c.v < nz * 2 ^ k := by
    intro c hcm
    obtain ⟨c', adr, i1, i2, rfl⟩ := c2.of c hcm
    obtain ⟨j1, j2, j3, j4⟩ := i1
    constructor
    · show c'.x.toNat < _
      have : c'.x < ((nx * 2 ^ k : Nat) : Int) := by push_cast at j2 ⊢; exact j2
      omega
    · show c'.z.toNat < _
      have : c'.z < ((nz * 2 ^ k : Nat) : Int) := by push_cast at j4 ⊢; exact j4
      omega
  have hkey : ∀ t < subsetTasks q.r.s.cfg, ∀ c ∈ cells, ∀ wave < wv, ∀ dir incl, incl < g.rays.incl →
      (nthRaysSubset g.cfg g.rays t).1 ≤ dir → dir < (nthRaysSubset g.cfg g.rays t).1 + (nthRaysSubset g.cfg g.rays t).2 →
      (i t)[probeLinearIndex g.cfg (raysToStorage g.cfg g.rays) ⟨c.u, c.v, dir, incl, wave⟩]? = some (I c (la + wave) (dir, incl)) ∧
      (p t)[probeLinearIndex g.cfg (raysToStorage g.cfg g.rays) ⟨c.u, c.v, dir, incl, wave⟩]? = some (psi c (la + wave) (dir, incl)) := by
    intro t ht c hcm wave hwave dir incl hincl d1 d2
    have hh := hR t (List.mem_range.2 ht) ⟨c.u, c.v, dir, incl, wave⟩ (hlist 0 (Nat.zero_le _) _ _ (by
        have := (huv c hcm).1; unfold probesOn; simp only [pow_zero, Nat.div_one]; omega) (by
        have := (huv c hcm).2; unfold probesOn; simp only [pow_zero, Nat.div_one]; omega)) hwave
      (by
        refine ⟨?_, ?_, hincl, ?_, d1, d2⟩
        · show c.u < g.rays.np0
          rw [hrays]; exact (huv c hcm).1
        · show c.v < g.rays.np1
          rw [hrays]; exact (huv c hcm).2
        · show wave < g.rays.wave
          rw [hrays]; show wave < q.r.s.W; omega)
    rw [hstor]
    simp only [hI, hpsi', hmod wave hwave]
    exact hh
  have hB : Batch2 q.env g cells I psi ((la, la + wv), i, p) := by
    refine ⟨?_, fun wave hwave => ?_, fun t ht c hcm wave hwave dir incl hi d1 d2 => ?_, fun t ht c hcm wave hwave dir incl hi d1 d2 => ?_⟩
    · show la + wv - la ≤ g.rays.wave
      rw [hrays]; show la + wv - la ≤ q.r.s.W; omega
    · have hwave : wave < la + wv - la := hwave
      show la + wave < q.r.ad.wavelength.length
      omega
    · exact (hkey t ht c hcm wave (by have : wave < la + wv - la := hwave; omega) dir incl hi d1 d2).1
    · exact (hkey t ht c hcm wave (by have : wave < la + wv - la := hwave; omega) dir incl hi d1 d2).2
  obtain ⟨ops, o1, o2⟩ := batchGamma2_total q.env hr.consistent hr.physical g hf.valid hf.mode l1 l2 (fun c kr => w c.ks kr) cells c2.nodup I psi
    ((la, la + wv), i, p) hB
  refine ⟨M, ops, hm, fun c hin adr hadr ia hia x y => ?_, fun J hcols hrows => ?_⟩
  · have hmem := c2.has c hin adr hadr
    have hs := gammaCell_same hc c hin adr hadr (scr adr)
    obtain ⟨cell, hcell⟩ : ∃ cell, cell = gammaCell q.r st (scr adr) adr.toNat c := ⟨_, rfl⟩
    rw [← hcell] at hmem hs
    have hks : cell.ks = adr.toNat := by rw [hcell]; rfl
    have := o2 cell hmem ia (by show ia < (q.r.ad.atoms.map _).length; rw [List.length_map]; exact hia) x y
    rw [hks] at this
    rw [this]
    rw [show (la, la + wv).2 - (la, la + wv).1 = wv by simp]
    refine Finset.sum_congr rfl fun wave hwave => ?_
    have hwave := Finset.mem_range.1 hwave
    unfold waveRate
    simp only
    rw [show (raySet2 g (gasCell q.r a h pf c) (fun la x => radiance2 M (nx * 2 ^ k) (nz * 2 ^ k) (upperTexelsPerRay q.r.s.cfg) q.r.s.num q.r.s.num (rayAt q.r.s c la x)) (fun la x => if lam then 0 else (M false 0 (rayAt q.r.s c la x)).psi)).rays = Finset.range g.rays.dirs ×ˢ Finset.range g.rays.incl from rfl,
      Finset.sum_product]
    refine Finset.sum_congr rfl fun dir _ => Finset.sum_congr rfl fun incl _ => ?_
    rw [← hks, rayVal2_eq q.env g l3 (fun c kr => w c.ks kr) I psi ia cell x y (la + wave) dir incl]
    have hvel : (raySet2 g cell (I cell) (psi cell)).vel (dir, incl) = along (gasCell q.r a h pf c) (travel2 g.rays.dirs dir (g.muy[incl]?.getD 0)) := by
      show along cell _ = _
      unfold along
      rw [hs.vel.1, hs.vel.2.1, hs.vel.2.2]
    have hIc : (raySet2 g cell (I cell) (psi cell)).I (la + wave) (dir, incl) = radiance2 M (nx * 2 ^ k) (nz * 2 ^ k) (upperTexelsPerRay q.r.s.cfg) q.r.s.num q.r.s.num (rayAt q.r.s c (la + wave) (dir, incl)) := by
      show radiance2 M _ _ _ _ _ ⟨cell.u, cell.v, _, _, _⟩ = _
      rw [hs.u, hs.v]; rfl
    have hPc : (raySet2 g cell (I cell) (psi cell)).psi (la + wave) (dir, incl) = if lam then 0 else (M false 0 (rayAt q.r.s c (la + wave) (dir, incl))).psi := by
      show (if lam then 0 else (M false 0 ⟨cell.u, cell.v, _, _, _⟩).psi) = _
      rw [hs.u, hs.v]; rfl
    rw [hvel, hIc, hPc]
    show _ * _ * rayRate _ _ _ _ _ _ _ _ _ _ _ = _ * _ * rayRate _ _ _ _ _ _ _ _ _ _ _
    congr 1
    refine rayRate_congr q.env rfl hr.ready.levels cell _ hs _ _ (fun kr hkr => ?_) ia x y (la + wave) (fun t ht t1 t2 => ?_) _ _ _ _
    · show w cell.ks kr = _
      rw [hks]; exact hw c hin adr hadr kr hkr
    · have hact : ∃ c ∈ q.r.ad.conts, c.blue ≤ la ∧ la < c.red := by
        rcases hr.ready.continua la hW hla with hh | hh
        · exact hh
        · exact absurd ⟨t1, t2⟩ (hh t ht wave hwave)
      obtain ⟨x', x1, x2, x3⟩ := hr.ready.levels.2 t ht
      rw [hcell]
      exact ⟨s2 c hin adr hadr hact _ _ x1 _ x2, s2 c hin adr hadr hact _ _ x1 _ x3⟩
  · obtain ⟨m', J', f1, f2⟩ := hJ lam J hcols hrows
    refine ⟨J', fun G => ?_, f2⟩
    unfold batchG
    simp only [hnw, a1, ← hwv, s1, Outcome.ok_bind, hNx, hNz, c1]
    rw [show marchOf (memWorld q.r st o la A) (envOf q.r.s (nx * 2 ^ k) (nz * 2 ^ k) (fun _ _ _ => ⟨0, 0, 0⟩)) { len := q.r.s.len, muy := q.r.s.muy, laStart := la } = M from hM.symm]
    exact hpG ops o1 G J m' J' f1

end DexRT.Nlte
