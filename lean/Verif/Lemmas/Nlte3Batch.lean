import Verif.Lemmas.Nlte3Gamma
/-! Lemmas for C93: one wavelength. -/
namespace DexRT.Nlte3
open DexRT DexRT.Fs DexRT.AtmosFile DexRT.Dir DexRT.Given3 DexRT.Emis DexRT.Lte3 DexRT.RadGamma DexRT.Rates Classical
open DexRT.Nlte (SameCell rayRate_congr addOps passesG passesG_ok)

variable {q : Setup} {k nx ny nz : Nat} {a : Cond} {h : Coord3 → ℝ} {pf : Coord3 → Emis.Pops} {st : Started}

theorem quad_rays (hf : Fits q.r.s k nx ny nz) : (q.quad (nx * 2 ^ k) (ny * 2 ^ k) (nz * 2 ^ k)).rays =
    ⟨nx * 2 ^ k, ny * 2 ^ k, nz * 2 ^ k, q.r.s.cfg.c0az, q.r.s.cfg.c0polar⟩ := by
  obtain ⟨o, w, hb, -, -⟩ := hf.healpix
  have h1 := compute_np (s := q.r.s) (k := k) (nx := nx) (ny := ny) (nz := nz) (fun _ _ _ => ⟨0, 0, 0⟩) 0
  have h2 := npix_zero hf
  obtain ⟨p0, p1, p2⟩ := sides_pos hf
  have hpo : ∀ N, 0 < N → probesOn N 0 = N := by
    intro N hN
    unfold probesOn
    simp only [pow_zero, Nat.div_one]
    omega
  rw [hpo _ p0, hpo _ p1, hpo _ p2] at h1
  have h3 : (cascadeComputeSize3 q.r.s.cfg (c0Of q.r.s (nx * 2 ^ k) (ny * 2 ^ k) (nz * 2 ^ k)) 0).polar = q.r.s.cfg.c0polar := by
    unfold cascadeComputeSize3 c0Of raysToStorage3
    have hp := (rays_pos hf).2
    have hfac : polarFactor q.r.s.cfg.branch 0 = 1 := by rw [hb]; rfl
    by_cases hd : q.r.s.cfg.dirByDir = true
    · simp [hd, hfac, Nat.div_self hp]
    · simp [hd, hfac]
  show cascadeComputeSize3 q.r.s.cfg (c0Of q.r.s (nx * 2 ^ k) (ny * 2 ^ k) (nz * 2 ^ k)) 0 = _
  obtain ⟨C, hC⟩ : ∃ C, C = cascadeComputeSize3 q.r.s.cfg (c0Of q.r.s (nx * 2 ^ k) (ny * 2 ^ k) (nz * 2 ^ k)) 0 := ⟨_, rfl⟩
  rw [← hC] at h3 ⊢
  have h1 : C.np0 = nx * 2 ^ k ∧ C.np1 = ny * 2 ^ k ∧ C.np2 = nz * 2 ^ k := by rw [hC]; exact h1
  have h2 : C.az = q.r.s.cfg.c0az := by rw [hC]; exact h2
  obtain ⟨a1, a2, a3, a4, a5⟩ := C
  simp only at h1 h2 h3
  rw [h1.1, h1.2.1, h1.2.2, h2, h3]

theorem quadFactor_congr (e : RadGamma.Env) (g : Quad3) (c c' : RadGamma.Cell) (h1 : c.temperature = c'.temperature) (h2 : c.ne = c'.ne)
    (h3 : c.vturb = c'.vturb) (h4 : c.nh0 = c'.nh0) (h5 : c.vx = c'.vx ∧ c.vy = c'.vy ∧ c.vz = c'.vz) (kr : Nat) :
    quadFactor e g c kr = quadFactor e g c' kr := by
  unfold quadFactor lineProfile along
  rw [h1, h2, h3, h4, h5.1, h5.2.1, h5.2.2]

theorem gammaCell_same {r : Run} (hc : Cells r k nx ny nz a h pf st) (c : Coord3) (hin : InGrid k nx ny nz c) (adr : Int)
    (hadr : Addr3 (2 ^ k) st.g.bm c adr) (scr : Emis.Pops) : SameCell (flat r) (gammaCell r st scr adr.toNat c) (gasCell r a h pf c) := by
  have hp := hc.point c hin adr hadr
  have hv := hc.vel c hin adr hadr
  injection hv with v1 v2
  injection v2 with v2 v3
  exact ⟨rfl, rfl, congrArg Point.temperature hp, congrArg Point.ne hp, congrArg Point.vturb hp, congrArg Point.nh0 hp, ⟨v1, v2, v3⟩,
    fun ia x hx l hl => hc.pops c hin adr hadr ia x hx l hl⟩

theorem lines_atom (hr : NlteReady q) (l : Line) (hl : l ∈ q.r.ad.lines) : l.atom < q.r.ad.atoms.length := by
  obtain ⟨x, x1, -⟩ := hr.ready.levels.1 l hl
  exact (List.getElem?_eq_some_iff.1 x1).1

/-- The factors of the profiles. -/
theorem allWphi_ok (hf : Fits q.r.s k nx ny nz) (hr : NlteReady q) (hc : Cells q.r k nx ny nz a h pf st) :
    ∃ w, allWphi q st = .ok w ∧ ∀ c, InGrid k nx ny nz c → ∀ adr, Addr3 (2 ^ k) st.g.bm c adr → ∀ kr, kr < q.r.ad.lines.length →
      w adr.toNat kr = quadFactor q.env (q.quad (nx * 2 ^ k) (ny * 2 ^ k) (nz * 2 ^ k)) (gasCell q.r a h pf c) kr := by
  have hg := hc.good
  have hNx : st.g.nx.toNat = nx * 2 ^ k := by rw [hg.sx, ← Nat.cast_mul, Int.toNat_natCast]
  have hNy : st.g.ny.toNat = ny * 2 ^ k := by rw [hg.sy, ← Nat.cast_mul, Int.toNat_natCast]
  have hNz : st.g.nz.toNat = nz * 2 ^ k := by rw [hg.sz, ← Nat.cast_mul, Int.toNat_natCast]
  obtain ⟨cells, c1, c2⟩ := cellList_ok hf hg.map (fun _ _ _ => 0)
  obtain ⟨w, w1, w2⟩ := Given.forAll_ok (fun x : Nat × RadGamma.Cell => wphiOf q.env x.2 (normRays3 (q.quad (nx * 2 ^ k) (ny * 2 ^ k) (nz * 2 ^ k)) x.2) x.1) 0
    ((List.range q.r.ad.lines.length).flatMap fun kr => cells.map fun c => (kr, c))
    (fun x v => v = quadFactor q.env (q.quad (nx * 2 ^ k) (ny * 2 ^ k) (nz * 2 ^ k)) x.2 x.1) (by
      rintro ⟨kr, c⟩ hx
      rw [List.mem_flatMap] at hx
      obtain ⟨kr', hk, hx⟩ := hx
      obtain ⟨c', hc', e⟩ := List.mem_map.1 hx
      injection e with e1 e2
      subst e1 e2
      have hk := List.mem_range.1 hk
      exact ⟨_, wphi_value q.env hr.consistent.bins _ c' kr' hk (hr.red _ (List.getElem_mem hk)) (lines_atom hr _ (List.getElem_mem hk)), rfl⟩)
  unfold allWphi
  simp only [hNx, hNy, hNz, c1, Outcome.ok_bind, w1]
  refine ⟨_, rfl, fun c hin adr hadr kr hkr => ?_⟩
  have hmem := c2.has c hin adr hadr
  have hfind : cells.find? (fun x => decide (x.ks = adr.toNat)) = some (gammaCell q.r st (fun _ _ => 0) adr.toNat c) := by
    cases hfd : cells.find? (fun x => decide (x.ks = adr.toNat)) with
    | none =>
      rw [List.find?_eq_none] at hfd
      exact absurd (hfd _ hmem) (by simp [gammaCell])
    | some y =>
      have hy := List.mem_of_find?_eq_some hfd
      have hk := List.find?_some hfd
      simp only [decide_eq_true_eq] at hk
      have := List.inj_on_of_nodup_map c2.nodup hy hmem (by rw [hk]; rfl)
      rw [this]
  rw [hfind]
  simp only
  have := (w2 (kr, gammaCell q.r st (fun _ _ => 0) adr.toNat c) (by
    rw [List.mem_flatMap]
    exact ⟨kr, List.mem_range.2 hkr, List.mem_map.2 ⟨_, hmem, rfl⟩⟩)).2
  rw [this]
  have hs := gammaCell_same hc c hin adr hadr (fun _ _ => 0)
  exact quadFactor_congr _ _ _ _ hs.temperature hs.ne hs.vturb hs.nh0 hs.vel kr

/-- `lte_scratch`. -/
theorem scratch_ok (hf : Fits q.r.s k nx ny nz) (hr : Sound q.r) (hc : Cells q.r k nx ny nz a h pf st) (o : LaOrder) (la : Nat)
    (hla : la < q.r.ad.wavelength.length) (ho : LaOrders q.r k nx ny nz o) :
    ∃ scr, cellCol q.r.s st.g (scratchVal q.r st o la) o.b.copy (fun ks => o.scratch ks.toNat) = .ok scr ∧
      ∀ c, InGrid k nx ny nz c → ∀ adr, Addr3 (2 ^ k) st.g.bm c adr → (∃ c ∈ q.r.ad.conts, c.blue ≤ la ∧ la < c.red) →
        ∀ ia x, q.r.ad.atoms[ia]? = some x → ∀ l, l < x.top + 1 → scr adr ia l = ltePop q.r a c ia l := by
  have hval : ∀ c, InGrid k nx ny nz c → ∃ v, ∀ adr, Addr3 (2 ^ k) st.g.bm c adr →
      scratchVal q.r st o la adr.toNat = .ok v ∧
      ((∃ c ∈ q.r.ad.conts, c.blue ≤ la ∧ la < c.red) → ∀ ia x, q.r.ad.atoms[ia]? = some x → ∀ l, l < x.top + 1 → v ia l = ltePop q.r a c ia l) := by
    intro c hin
    obtain ⟨-, ⟨adr, hadr⟩, -⟩ := cells_addr hf st.g.bm hc.good.map c hin
    obtain ⟨res, scr, nStar, h1, h2, h3, h4, h5⟩ := C57_fill_partial q.r.k q.r.phi q.r.ad hr.wellFormed (LteRun.popsAt q.r.ad st.pops adr.toNat) (o.scratch adr.toNat)
      (pointAt st adr.toNat) .Continua (fun _ => false) la (la + 1) (by omega) (by omega) (by
        by_cases hq : ∃ c ∈ q.r.ad.conts, c.blue ≤ la ∧ la < c.red
        · exact Or.inl hq
        · refine Or.inr fun c hc l l1 l2 hn => hq ⟨c, hc, ?_⟩
          have : l = la := by omega
          rwa [this] at hn)
    unfold fillMip0 at h1
    rw [Nat.add_sub_cancel_left] at h1
    unfold fillWaves at h1
    obtain ⟨rr, e1, h1⟩ := AtmosFile.obind h1
    unfold fillWaves at h1
    rw [Outcome.ok_bind] at h1
    injection h1 with h1
    injection h1 with _ h1
    rw [Nat.add_zero] at e1
    have e1' : emisOpac q.r.k q.r.phi q.r.ad la (LteRun.popsAt q.r.ad st.pops adr.toNat) (o.scratch adr.toNat) (pointAt st adr.toNat)
      (some (scan Line.isActive q.r.ad.lines la)) (some (scan Cont.isActive q.r.ad.conts la)) true .StaticOnly = .ok rr := e1
    refine ⟨scr, fun adr' hadr' => ?_⟩
    rw [← addr_unique _ _ _ _ _ hadr hadr']
    refine ⟨?_, fun hcont ia x hx l hl => ?_⟩
    · unfold scratchVal
      rw [e1', Outcome.ok_bind, h1]
    · rw [hc.point c hin adr hadr] at h2
      rw [h5 hcont]
      refine h2 ia l _ ?_
      unfold ltePop EmisSpec.lte
      rw [hx]
      simp only [Option.bind_some, hl, dif_pos, Option.getD_some]
      rfl
  haveI : Nonempty Emis.Pops := ⟨fun _ _ => 0⟩
  choose! v hv using hval
  obtain ⟨m, m1, m2⟩ := cellCol_adr hf hc.good (scratchVal q.r st o la) v
    (fun c hin adr hadr => (hv c hin adr hadr).1) o.b.copy ho.base.copy (fun ks => o.scratch ks.toNat)
  refine ⟨m, m1, fun c hin adr hadr hcont ia x hx l hl => ?_⟩
  rw [m2 c (cells_addr hf st.g.bm hc.good.map c hin).1 adr hadr]
  exact (hv c hin adr hadr).2 hcont ia x hx l hl

end DexRT.Nlte3
