import Verif.Lemmas.NlteGamma
/-! Lemmas for C89: one batch of wavelengths. -/
namespace DexRT.Nlte
open DexRT DexRT.Fs DexRT.AtmosFile DexRT.Dir DexRT.Given DexRT.Emis DexRT.LteRun DexRT.RadGamma DexRT.Rates Classical

variable {q : Setup} {k nx nz : Nat} {a : Cond} {h : Coord2 → ℝ} {pf : Coord2 → Emis.Pops} {st : Started}

theorem quad_rays (hf : Fits q.r.s k nx nz) : (q.quad (nx * 2 ^ k) (nz * 2 ^ k)).rays = ⟨nx * 2 ^ k, nz * 2 ^ k, q.r.s.cfg.p0rays, q.r.s.W, q.r.s.incl⟩ := by
  have hp := Nat.two_pow_pos k
  have h1 : 1 ≤ nx * 2 ^ k := Nat.mul_pos hf.pos.1 hp
  have h2 : 1 ≤ nz * 2 ^ k := Nat.mul_pos hf.pos.2 hp
  have hexp : numFlatRaysExponent q.r.s.cfg 0 = 0 := by
    unfold numFlatRaysExponent
    split
    · rename_i hv
      unfold RcCfg.vary at hv
      rw [if_pos (by simpa using hv), Nat.mul_zero]
    · rw [Nat.mul_zero]
  have hv := hf.valid.1
  have hm := hf.mode
  unfold Quad2.rays Setup.quad cascadeComputeSize raysToStorage
  simp only [Nat.shiftRight_zero]
  rw [max_eq_right h1, max_eq_right h2]
  congr 1
  cases hmode : q.r.s.cfg.mode with
  | preaverage => exact absurd hmode hm
  | dirByDir =>
    simp only [hexp, pow_zero, Nat.mul_zero, mul_one, Nat.div_self hv, one_mul, ite_self]
  | all => simp only [hexp, pow_zero, Nat.mul_zero, mul_one, ite_self]

theorem quad_lens (hf : Fits q.r.s k nx nz) : (q.quad (nx * 2 ^ k) (nz * 2 ^ k)).muy.length = (q.quad (nx * 2 ^ k) (nz * 2 ^ k)).rays.incl ∧
    (q.quad (nx * 2 ^ k) (nz * 2 ^ k)).wmuy.length = (q.quad (nx * 2 ^ k) (nz * 2 ^ k)).rays.incl ∧
    (q.quad (nx * 2 ^ k) (nz * 2 ^ k)).rays.dirs = c0DirsToAverage (q.quad (nx * 2 ^ k) (nz * 2 ^ k)).cfg := by
  rw [quad_rays hf]
  refine ⟨by simp [Setup.quad], hf.weights, ?_⟩
  show q.r.s.cfg.p0rays = c0DirsToAverage q.r.s.cfg
  have hm := hf.mode
  unfold c0DirsToAverage
  cases hmode : q.r.s.cfg.mode with
  | preaverage => exact absurd hmode hm
  | dirByDir => rfl
  | all => rfl

theorem quadFactor_congr (e : RadGamma.Env) (g : Quad2) (c c' : RadGamma.Cell) (h1 : c.temperature = c'.temperature) (h2 : c.ne = c'.ne)
    (h3 : c.vturb = c'.vturb) (h4 : c.nh0 = c'.nh0) (h5 : c.vx = c'.vx ∧ c.vy = c'.vy ∧ c.vz = c'.vz) (kr : Nat) :
    quadFactor e g c kr = quadFactor e g c' kr := by
  unfold quadFactor lineProfile along
  rw [h1, h2, h3, h4, h5.1, h5.2.1, h5.2.2]

/-- A cell in memory and a cell of the gas. -/
structure SameCell (r : LteRun.Lte) (c c' : RadGamma.Cell) : Prop where
  u : c.u = c'.u
  v : c.v = c'.v
  temperature : c.temperature = c'.temperature
  ne : c.ne = c'.ne
  vturb : c.vturb = c'.vturb
  nh0 : c.nh0 = c'.nh0
  vel : c.vx = c'.vx ∧ c.vy = c'.vy ∧ c.vz = c'.vz
  n : ∀ ia x, r.ad.atoms[ia]? = some x → ∀ l, l < x.top + 1 → c.n ia l = c'.n ia l

theorem gammaCell_same {r : LteRun.Lte} (hc : Cells r k nx nz a h pf st) (c : Coord2) (hin : Given.InGrid k nx nz c) (adr : Int)
    (hadr : Addr2 (2 ^ k) st.g.bm c adr) (scr : Emis.Pops) : SameCell r (gammaCell r st scr adr.toNat c) (gasCell r a h pf c) := by
  have hp := hc.point c hin adr hadr
  have hv := hc.vel c hin adr hadr
  injection hv with v1 v2
  injection v2 with v2 v3
  exact ⟨rfl, rfl, congrArg Point.temperature hp, congrArg Point.ne hp, congrArg Point.vturb hp, congrArg Point.nh0 hp, ⟨v1, v2, v3⟩,
    fun ia x hx l hl => hc.pops c hin adr hadr ia x hx l hl⟩

theorem rayRate_congr {r : LteRun.Lte} (e : RadGamma.Env) (hae : e.ad = r.ad) (hl : LevelsExist r.ad) (c c' : RadGamma.Cell) (hs : SameCell r c c') (w w' : Nat → ℝ)
    (hw : ∀ kr, kr < e.ad.lines.length → w kr = w' kr) (ia x y la : Nat)
    (hstar : ∀ t ∈ e.ad.conts, t.blue ≤ la → la < t.red → c.nStar t.atom t.i = c'.nStar t.atom t.i ∧ c.nStar t.atom t.j = c'.nStar t.atom t.j)
    (lambda vel I psi : ℝ) : rayRate e c w ia x y la lambda vel I psi = rayRate e c' w' ia x y la lambda vel I psi := by
  have hln : ∀ l ∈ e.ad.lines, c.n l.atom l.i = c'.n l.atom l.i ∧ c.n l.atom l.j = c'.n l.atom l.j := by
    intro l hm
    rw [hae] at hm
    obtain ⟨x, x1, x2, x3⟩ := hl.1 l hm
    exact ⟨hs.n _ _ x1 _ x2, hs.n _ _ x1 _ x3⟩
  have hcn : ∀ l ∈ e.ad.conts, c.n l.atom l.i = c'.n l.atom l.i ∧ c.n l.atom l.j = c'.n l.atom l.j := by
    intro l hm
    rw [hae] at hm
    obtain ⟨x, x1, x2, x3⟩ := hl.2 l hm
    exact ⟨hs.n _ _ x1 _ x2, hs.n _ _ x1 _ x3⟩
  have hprof : ∀ l, lineProfile e c l lambda vel = lineProfile e c' l lambda vel := by
    intro l
    unfold lineProfile
    rw [hs.temperature, hs.ne, hs.vturb, hs.nh0]
  unfold rayRate
  congr 1
  · refine Finset.sum_congr rfl fun kr _ => ?_
    obtain ⟨n1, n2⟩ := hln e.ad.lines[kr] (List.getElem_mem _)
    simp only
    rw [hw kr kr.2]
    unfold lineDown lineUp lineChi lineEta
    rw [hprof, n1, n2]
  · refine Finset.sum_congr rfl fun kr _ => ?_
    obtain ⟨n1, n2⟩ := hcn e.ad.conts[kr] (List.getElem_mem _)
    simp only
    by_cases hact : e.ad.conts[kr].atom = ia ∧ e.ad.conts[kr].blue ≤ la ∧ la < e.ad.conts[kr].red
    · rw [if_pos hact, if_pos hact]
      obtain ⟨s1, s2⟩ := hstar e.ad.conts[kr] (List.getElem_mem _) hact.2.1 hact.2.2
      unfold contDown contUp contChi contEta contRatio
      rw [n1, n2, s1, s2, hs.temperature]
    · rw [if_neg hact, if_neg hact]

theorem lines_atom (hr : NlteReady q) (l : Line) (hl : l ∈ q.r.ad.lines) : l.atom < q.r.ad.atoms.length := by
  obtain ⟨x, x1, -⟩ := hr.ready.levels.1 l hl
  exact (List.getElem?_eq_some_iff.1 x1).1

/-- The factors of the profiles. -/
theorem allWphi_ok (hf : Fits q.r.s k nx nz) (hr : NlteReady q) (hc : Cells q.r k nx nz a h pf st) :
    ∃ w, allWphi q st = .ok w ∧ ∀ c, Given.InGrid k nx nz c → ∀ adr, Addr2 (2 ^ k) st.g.bm c adr → ∀ kr, kr < q.r.ad.lines.length →
      w adr.toNat kr = quadFactor q.env (q.quad (nx * 2 ^ k) (nz * 2 ^ k)) (gasCell q.r a h pf c) kr := by
  have hg := hc.good
  have hNx : st.g.nx.toNat = nx * 2 ^ k := by rw [hg.sx, ← Nat.cast_mul, Int.toNat_natCast]
  have hNz : st.g.nz.toNat = nz * 2 ^ k := by rw [hg.sz, ← Nat.cast_mul, Int.toNat_natCast]
  obtain ⟨cells, c1, c2⟩ := cellList_ok hf hg.map (fun _ _ _ => 0)
  obtain ⟨l1, l2, -⟩ := quad_lens hf
  obtain ⟨w, w1, w2⟩ := forAll_ok (fun x : Nat × RadGamma.Cell => normRays2 (q.quad (nx * 2 ^ k) (nz * 2 ^ k)) x.2 >>= fun rays => wphiOf q.env x.2 rays x.1) 0
    ((List.range q.r.ad.lines.length).flatMap fun kr => cells.map fun c => (kr, c))
    (fun x v => v = quadFactor q.env (q.quad (nx * 2 ^ k) (nz * 2 ^ k)) x.2 x.1) (by
      rintro ⟨kr, c⟩ hx
      rw [List.mem_flatMap] at hx
      obtain ⟨kr', hk, hx⟩ := hx
      obtain ⟨c', hc', e⟩ := List.mem_map.1 hx
      injection e with e1 e2
      subst e1 e2
      have hk := List.mem_range.1 hk
      exact ⟨_, wphi_value q.env hr.consistent.bins _ l1 l2 c' kr' hk (hr.red _ (List.getElem_mem hk)) (lines_atom hr _ (List.getElem_mem hk)), rfl⟩)
  unfold allWphi
  simp only [hNx, hNz, c1, Outcome.ok_bind, w1]
  refine ⟨_, rfl, fun c hin adr hadr kr hkr => ?_⟩
  have hmem := c2.has c hin adr hadr
  have hfind : cells.find? (fun x => decide (x.ks = adr.toNat)) = some (gammaCell q.r st (fun _ _ => 0) adr.toNat c) := by
    cases hfd : cells.find? (fun x => decide (x.ks = adr.toNat)) with
    | none =>
      rw [List.find?_eq_none] at hfd
      exact absurd (hfd _ hmem) (by simp [gammaCell])
    | some y =>
      have hy := List.mem_of_find?_eq_some hfd
      have hk := List.find?_some hfd
      simp only [decide_eq_true_eq] at hk
      have := List.inj_on_of_nodup_map c2.nodup hy hmem (by rw [hk]; rfl)
      rw [this]
  rw [hfind]
  simp only
  have := (w2 (kr, gammaCell q.r st (fun _ _ => 0) adr.toNat c) (by
    rw [List.mem_flatMap]
    exact ⟨kr, List.mem_range.2 hkr, List.mem_map.2 ⟨_, hmem, rfl⟩⟩)).2
  rw [this]
  have hs := gammaCell_same hc c hin adr hadr (fun _ _ => 0)
  exact quadFactor_congr _ _ _ _ hs.temperature hs.ne hs.vturb hs.nh0 hs.vel kr

/-- `lte_scratch`. -/
theorem scratch_ok (hf : Fits q.r.s k nx nz) (hr : Ready q.r) (hc : Cells q.r k nx nz a h pf st) (o : LteOrder) (la : Nat) (hW : q.r.s.W ∣ la)
    (hla : la < q.r.ad.wavelength.length) (ho : LteOrders q.r k nx nz (waves q.r.s q.r.ad.wavelength.length la) o) :
    ∃ scr, cellCol q.r.s st.g (scratchVal q.r st o la (waves q.r.s q.r.ad.wavelength.length la)) (o.b.copy 0) (fun ks => o.scratch ks.toNat) = .ok scr ∧
      ∀ c, Given.InGrid k nx nz c → ∀ adr, Addr2 (2 ^ k) st.g.bm c adr → (∃ c ∈ q.r.ad.conts, c.blue ≤ la ∧ la < c.red) →
        ∀ ia x, q.r.ad.atoms[ia]? = some x → ∀ l, l < x.top + 1 → scr adr ia l = ltePop q.r a c ia l := by
  have hwl : waves q.r.s q.r.ad.wavelength.length la = min q.r.s.W (q.r.ad.wavelength.length - la) := rfl
  have hb := hf.batch
  have hval : ∀ c, Given.InGrid k nx nz c → ∃ v, ∀ adr, Addr2 (2 ^ k) st.g.bm c adr →
      scratchVal q.r st o la (waves q.r.s q.r.ad.wavelength.length la) adr.toNat = .ok v ∧
      ((∃ c ∈ q.r.ad.conts, c.blue ≤ la ∧ la < c.red) → ∀ ia x, q.r.ad.atoms[ia]? = some x → ∀ l, l < x.top + 1 → v ia l = ltePop q.r a c ia l) := by
    intro c hin
    obtain ⟨-, ⟨adr, hadr⟩, -⟩ := cells_addr hf st.g.bm hc.good.map c hin
    obtain ⟨res, scr, nStar, h1, h2, h3, h4, h5⟩ := C57_fill_partial q.r.k q.r.phi q.r.ad hr.wellFormed (popsAt q.r.ad st.pops adr.toNat) (o.scratch adr.toNat)
      (pointAt st adr.toNat) .Continua (fun _ => false) la (la + waves q.r.s q.r.ad.wavelength.length la) (by omega) (by omega) (by
        rcases hr.continua la hW hla with q | q
        · exact Or.inl q
        · refine Or.inr fun c hc l l1 l2 => ?_
          have := q c hc (l - la) (by omega)
          rwa [show la + (l - la) = l by omega] at this)
    refine ⟨scr, fun adr' hadr' => ?_⟩
    rw [← addr_unique _ _ _ _ _ hadr hadr']
    refine ⟨?_, fun hcont ia x hx l hl => ?_⟩
    · unfold scratchVal
      rw [h1, Outcome.ok_bind]
    · rw [hc.point c hin adr hadr] at h2
      rw [h5 hcont]
      refine h2 ia l _ ?_
      unfold ltePop EmisSpec.lte
      rw [hx]
      simp only [Option.bind_some, hl, dif_pos, Option.getD_some]
      rfl
  haveI : Nonempty Emis.Pops := ⟨fun _ _ => 0⟩
  choose! v hv using hval
  obtain ⟨m, m1, m2⟩ := cellCol_adr hf hc.good (scratchVal q.r st o la (waves q.r.s q.r.ad.wavelength.length la)) v
    (fun c hin adr hadr => (hv c hin adr hadr).1) (o.b.copy 0) (ho.base.copy 0) (fun ks => o.scratch ks.toNat)
  refine ⟨m, m1, fun c hin adr hadr hcont ia x hx l hl => ?_⟩
  rw [m2 c (cells_addr hf st.g.bm hc.good.map c hin).1 adr hadr]
  exact (hv c hin adr hadr).2 hcont ia x hx l hl

end DexRT.Nlte
