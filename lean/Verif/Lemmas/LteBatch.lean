import Verif.Lemmas.LteCells
/-! Lemmas for C86: one batch of wavelengths, and the run. -/
namespace DexRT.LteRun
open DexRT DexRT.Fs DexRT.AtmosFile DexRT.Dir DexRT.Given DexRT.Emis Classical

variable {r : Lte} {k nx nz : Nat} {a : Cond} {h : Coord2 → ℝ} {pf : Coord2 → Emis.Pops} {st : Started}

/-- What the arrays of a batch hold. -/
structure ArraysOk (r : Lte) (k nx nz : Nat) (a : Cond) (h : Coord2 → ℝ) (pf : Coord2 → Emis.Pops) (st : Started) (la : Nat) (d : List Nat) (A : Arrays) : Prop where
  base : ∀ w, w < waves r.s r.ad.wavelength.length la →
    StoredAt2 (2 ^ k) nx nz (fun _ => True) (mrOf r.s st.g st.g.lk) 0 (A.base w) (contField r a h pf (la + w))
  vel : StoredAt2 (2 ^ k) nx nz (fun _ => True) (mrOf r.s st.g st.g.lk) 0 A.vel (fun c => (a.vx c, a.vy c, a.vz c))
  mapping : A.mapping = d.map (fun k : Nat => (k : Int)) ++ List.replicate (r.maxLines - d.length) (-1)
  fill : fillMapping2 r.maxLines ((List.range (waves r.s r.ad.wavelength.length la)).map fun i => scan Line.isActive r.ad.lines (la + i)) = .ok A.mapping
  lines : ∀ kr ∈ d, kr < r.ad.lines.length
  cav : ∀ krl (hk : krl < d.length), StoredAt2 (2 ^ k) nx nz (fun _ => True) (mrOf r.s st.g st.g.lk) 0 (A.cav krl) (coreField r a h pf d[krl])
  lk : LevelsFor (GridTile2 (2 ^ k) (nx * (2 ^ k : Nat)) (nz * (2 ^ k : Nat))) (fun _ => True) (mrOf r.s st.g A.lk) (fun _ => ((0 : Nat) : Int))

theorem stored_map {V U : Type} {mr : MRMap Coord2} {m : Int → V} {field : Coord2 → V} (f : V → U)
    (hs : StoredAt2 (2 ^ k) nx nz (fun _ => True) mr 0 m field) :
    StoredAt2 (2 ^ k) nx nz (fun _ => True) mr 0 (fun x => f (m x)) (fun c => f (field c)) := by
  intro c hc
  obtain ⟨x, s, e1, e2⟩ := hs c hc
  exact ⟨x, s, e1, congrArg f e2⟩

theorem arrays_ok (hf : Fits r.s k nx nz) (hr : Ready r) (hc : Cells r k nx nz a h pf st) (o : LteOrder) (la : Nat) (hW : r.s.W ∣ la)
    (hla : la < r.ad.wavelength.length) (ho : LteOrders r k nx nz (waves r.s r.ad.wavelength.length la) o) :
    ∃ A d, arrays r st o la = .ok A ∧ ArraysOk r k nx nz a h pf st la d A := by
  have hg := hc.good
  have hb := hf.batch
  have hwl : waves r.s r.ad.wavelength.length la = min r.s.W (r.ad.wavelength.length - la) := rfl
  set wv := waves r.s r.ad.wavelength.length la with hwv
  have hnw : st.g.nw.toNat = r.ad.wavelength.length := by rw [hg.sw]; rfl
  obtain ⟨base, b1, b2⟩ := forAll_ok (fun w => cellCol r.s st.g (baseVal r st o la wv w) (o.b.copy w) (o.oldBase w)) (o.oldBase 0) (List.range wv)
    (fun w m => StoredAt2 (2 ^ k) nx nz (fun _ => True) (mrOf r.s st.g st.g.lk) 0 m (contField r a h pf (la + w)))
    (fun w hw => cellCol_ok hf hg _ _ (fun c hin adr hadr => base_ok hr hc o la hW hla w (List.mem_range.1 hw) c hin adr hadr) _ (ho.base.copy w) _ _)
  obtain ⟨vel, v1, v2⟩ := cellCol_ok hf hg (fun ks => .ok (st.atmos.vx ks, st.atmos.vy ks, st.atmos.vz ks)) (fun c => (a.vx c, a.vy c, a.vz c))
    (fun c hin adr hadr => congrArg Outcome.ok (hc.vel c hin adr hadr)) o.vel ho.vel o.oldVel st.g.lk
  obtain ⟨d, d1, d2, d3⟩ := slots_ok hr la hW hla
  set mapping := d.map (fun k : Nat => (k : Int)) ++ List.replicate (r.maxLines - d.length) (-1) with hmap
  have hfil : ∀ krl, krl < r.maxLines → (filled mapping krl = true ↔ krl < d.length) := by
    intro krl hk
    constructor
    · intro hh
      by_contra hno
      unfold filled at hh
      rw [List.all_eq_true] at hh
      have hlen : krl < mapping.length := by rw [hmap, List.length_append, List.length_map, List.length_replicate]; omega
      have hm : mapping[krl] ∈ mapping.take (krl + 1) := by
        rw [List.mem_take_iff_getElem]
        exact ⟨krl, by omega, rfl⟩
      have := hh _ hm
      have hv : mapping[krl] = -1 := by
        simp only [hmap]
        rw [List.getElem_append_right (by rw [List.length_map]; omega), List.getElem_replicate]
      rw [hv] at this
      simp at this
    · intro hh; exact filled_of d r.maxLines krl hh
  obtain ⟨cav, c1, c2⟩ := forAll_ok (fun krl => if filled mapping krl then cellCol r.s st.g (coreVal r st mapping krl) (o.cav krl) (o.oldCav krl)
      else .ok (o.oldCav krl)) (o.oldCav 0) (List.range r.maxLines)
    (fun krl m => ∀ hk : krl < d.length, StoredAt2 (2 ^ k) nx nz (fun _ => True) (mrOf r.s st.g st.g.lk) 0 m (coreField r a h pf d[krl]))
    (fun krl hk => by
      have hk := List.mem_range.1 hk
      by_cases hh : krl < d.length
      · rw [if_pos ((hfil krl hk).2 hh)]
        obtain ⟨m, m1, m2⟩ := cellCol_ok hf hg (coreVal r st mapping krl) (coreField r a h pf d[krl])
          (fun c hin adr hadr => core_ok hr hc d d3 krl hh c hin adr hadr) (o.cav krl) (ho.cav krl) (o.oldCav krl) st.g.lk
        exact ⟨m, m1, fun _ => m2⟩
      · rw [if_neg (fun e => hh ((hfil krl hk).1 e))]
        exact ⟨_, rfl, fun e => absurd e hh⟩)
  set g' : Given := { st.g with eta := fun c l => (contField r a h pf l.toNat c).eta, chi := fun c l => (contField r a h pf l.toNat c).chi } with hg'
  have hgood : Good r.s k nx nz r.ad.wavelength.length g'.eta g'.chi a.scale g' :=
    ⟨hg.sx, hg.sz, hg.sw, rfl, rfl, hg.vox, hg.map, hg.num, hg.range, hg.inj, hg.pack, hg.off, hg.maxMip⟩
  obtain ⟨lk, p1, p2⟩ := pack_ok hf hgood o.b la wv (by omega) ho.base (fun w x => (base w x).eta) (fun w x => (base w x).chi)
    (fun w hw => by
      have := stored_map EO.eta (b2 w (List.mem_range.2 hw)).2
      simp only [hg', Int.toNat_natCast]
      exact this)
    (fun w hw => by
      have := stored_map EO.chi (b2 w (List.mem_range.2 hw)).2
      simp only [hg', Int.toNat_natCast]
      exact this) (fun _ => 0) (fun t _ _ _ _ => by
        obtain ⟨L, hL⟩ := isLevel_exists r.s k g'.eta g'.chi a.scale la wv t
        have := level_zero hr.noMips hL
        rwa [this] at hL)
  refine ⟨⟨base, vel, mapping, cav, lk⟩, d, ?_, ⟨fun w hw => (b2 w (List.mem_range.2 hw)).2, v2, rfl, d1, d3, fun krl hk => ?_, p2⟩⟩
  · unfold arrays
    simp only [hnw, ← hwv]
    rw [b1]
    simp only [Outcome.ok_bind]
    rw [v1]
    simp only [Outcome.ok_bind]
    rw [d1]
    simp only [Outcome.ok_bind]
    rw [c1]
    simp only [Outcome.ok_bind]
    have p1' : packLevels r.s st.g o.b wv (fun w x => (base w x).eta) (fun w x => (base w x).chi) = .ok lk := p1
    rw [p1']
    rfl
  · exact (c2 krl (List.mem_range.2 (by omega))).2 hk

/-- the settings with which the grid of a run is that of a given one -/
theorem env_file (r : Lte) (k nx nz : Nat) (a : Cond) (h : Coord2 → ℝ) (pf : Coord2 → Emis.Pops) (n : Nat) : (gasWorld r k nx nz a h pf).env n =
    (fileWorld r.s k nx nz (fun _ _ => 0) (fun _ _ => 0) a.scale (fun _ => 0)).env n := rfl

/-- The march through the arrays is the march through the gas. -/
theorem marchRay_lte (hf : Fits r.s k nx nz) (hr : Ready r) (hc : Cells r k nx nz a h pf st) (o : LteOrder) (la : Nat) (hW : r.s.W ∣ la)
    (hla : la < r.ad.wavelength.length) (d : List Nat) (A : Arrays) (hA : ArraysOk r k nx nz a h pf st la d A)
    (e : Env2 ℝ) (bc : Bool) (n : Nat) (hn : n ≤ r.s.num) (p : ProbeIdx2) (hp : p.wave < waves r.s r.ad.wavelength.length la) (sg : Seg ℝ) :
    MarchRay2 (memWorld r st o la A) e (raysFrom r.s la) bc n p sg ↔ MarchRay2 (gasWorld r k nx nz a h pf) e (raysFrom r.s la) bc n p sg := by
  have hg := hc.good
  have hlvl := readLevel_ok hf hg A.lk (fun _ => 0) hA.lk (fun _ _ _ _ _ => Nat.zero_le _) o.b.junkLevel
  have hmip : min (r.s.levels.getD n 0) (st.g.maxMip : ℤ) = r.s.levels.getD n 0 := by
    rw [hg.maxMip]; exact min_eq_left (level_le_top hf n hn)
  have harg : ∀ seg, (memWorld r st o la A).args2 e (raysFrom r.s la) bc n p seg =
      { (gasWorld r k nx nz a h pf).args2 e (raysFrom r.s la) bc n p seg with
        eta := ((memWorld r st o la A).args2 e (raysFrom r.s la) bc n p seg).eta
        chi := ((memWorld r st o la A).args2 e (raysFrom r.s la) bc n p seg).chi } := by
    intro seg
    have henv : (memWorld r st o la A).env n = (gasWorld r k nx nz a h pf).env n := by
      have h1 : ((r.s.B : Nat) : ℤ) = ((2 ^ k : Nat) : ℤ) := by rw [hf.block]
      have h2 : (![st.g.nx, st.g.nz] : Fin 2 → ℤ) = ![((nx * 2 ^ k : Nat) : Int), ((nz * 2 ^ k : Nat) : Int)] := by
        rw [hg.sx, hg.sz]; push_cast; rfl
      show (⟨readLevel r.s (mrOf r.s st.g A.lk) o.b.junkLevel, min (r.s.levels.getD n 0) (st.g.maxMip : ℤ), ((r.s.B : Nat) : ℤ), ![st.g.nx, st.g.nz]⟩ : DdaEnv .two) = _
      rw [hlvl, hmip, h1, h2]; rfl
    have hv : st.g.scale = a.scale := hg.vox
    have hoff := hc.offset
    unfold World.args2
    simp only [henv]
    simp only [memWorld, gasWorld, hv, hoff]
  have hray : ∀ seg fuel, raymarch ((memWorld r st o la A).args2 e (raysFrom r.s la) bc n p seg) fuel =
      raymarch ((gasWorld r k nx nz a h pf).args2 e (raysFrom r.s la) bc n p seg) fuel := by
    intro seg fuel
    rw [harg]
    refine raymarch_congr ((gasWorld r k nx nz a h pf).args2 e (raysFrom r.s la) bc n p seg) _ _ (fun c m hm => file_blk (eta := fun _ _ => 0) (chi := fun _ _ => 0) (scale := a.scale) hf (fun _ => 0) n hn c m hm) (fun c hc0 => ?_) fuel
    change 0 ≤ ((gasWorld r k nx nz a h pf).env n).sampleLevel c at hc0
    have hcin : 0 ≤ c 0 ∧ c 0 < ((nx * 2 ^ k : Nat) : Int) ∧ 0 ≤ c 1 ∧ c 1 < ((nz * 2 ^ k : Nat) : Int) := by
      by_contra hno
      have : ((gasWorld r k nx nz a h pf).env n).lvl c = -1 := if_neg hno
      unfold DdaEnv.sampleLevel at hc0
      rw [this] at hc0
      have := min_le_left (-1 : ℤ) ((gasWorld r k nx nz a h pf).env n).maxMip
      omega
    have hz : ((gasWorld r k nx nz a h pf).env n).sampleLevel c = 0 := by
      have h1 : ((gasWorld r k nx nz a h pf).env n).sampleLevel c ≤ r.s.levels.getD n 0 := min_le_right _ _
      have h2 := level_le_top hf n hn
      rw [hr.noMips] at h2
      exact le_antisymm (le_trans h1 h2) hc0
    have hw : ((la : ℤ) + (p.wave : ℤ) - (la : ℤ)).toNat = p.wave := by omega
    have hw2 : ((la : ℤ) + (p.wave : ℤ)).toNat = la + p.wave := by omega
    have key : ∀ mu, sampleMem r st.g o la A ((la : ℤ) + (p.wave : ℤ)) mu 0 c = gasOf r a h pf (la + p.wave) mu ⟨c 0, c 1⟩ := by
      intro mu
      unfold sampleMem
      simp only [hw]
      rw [readCell_ok hf hg A.lk _ (A.base p.wave) _ 0 le_rfl (Nat.zero_le _) (hA.base p.wave hp) c hcin,
        readCell_ok hf hg A.lk _ A.vel _ 0 le_rfl (Nat.zero_le _) hA.vel c hcin]
      have hm : A.mapping = d.map (fun k : Nat => (k : Int)) ++ List.replicate (r.maxLines - d.length) (-1) := hA.mapping
      have hfill := hA.fill
      rw [hm] at hfill ⊢
      rw [sample_ok hr la hW hla p.wave hp d hfill hA.lines mu ⟨c 0, c 1⟩ _ (fun krl hk =>
        readCell_ok hf hg A.lk _ (A.cav krl) _ 0 le_rfl (Nat.zero_le _) (hA.cav krl hk) c hcin)]
    constructor
    · show (sampleMem r st.g o la A ((la : ℤ) + (p.wave : ℤ)) _ (((gasWorld r k nx nz a h pf).env n).sampleLevel c) c).eta =
        (gasOf r a h pf ((la : ℤ) + (p.wave : ℤ)).toNat _ ⟨c 0, c 1⟩).eta
      rw [hz, key, hw2]
    · show (sampleMem r st.g o la A ((la : ℤ) + (p.wave : ℤ)) _ (((gasWorld r k nx nz a h pf).env n).sampleLevel c) c).chi =
        (gasOf r a h pf ((la : ℤ) + (p.wave : ℤ)).toNat _ ⟨c 0, c 1⟩).chi
      rw [hz, key, hw2]
  unfold MarchRay2
  simp only [hray]

/-- One batch, up to the formal solution. -/
theorem formal_lte (hf : Fits r.s k nx nz) (hr : Ready r) (hc : Cells r k nx nz a h pf st) (o : LteOrder) (la : Nat) (hW : r.s.W ∣ la)
    (hla : la < r.ad.wavelength.length) (ho : LteOrders r k nx nz (waves r.s r.ad.wavelength.length la) o) :
    ∃ A march, arrays r st o la = .ok A ∧ march = marchOf (memWorld r st o la A) (envOf r.s (nx * 2 ^ k) (nz * 2 ^ k) (fun _ _ _ => ⟨0, 0, 0⟩)) (raysFrom r.s la) ∧
      Marches2 (gasWorld r k nx nz a h pf) (envOf r.s (nx * 2 ^ k) (nz * 2 ^ k) march) (raysFrom r.s la) (waves r.s r.ad.wavelength.length la) ∧
      ∀ (lam : Bool) (J : Arr2 ℝ), (J.cols : Int) = nx * nz * ((2 ^ k : Nat) * (2 ^ k : Nat)) → (J.rows = r.s.W ∨ la + waves r.s r.ad.wavelength.length la ≤ J.rows) →
        ∃ m' J', formalSol2 (envOf r.s (nx * 2 ^ k) (nz * 2 ^ k) march) (mergeOf r.s st.g.bm (nx * 2 ^ k) (nz * 2 ^ k)) la lam o.b.rc o.b.j (List.range (subsetTasks r.s.cfg)) o.b.mem J = .ok (m', J') ∧ J'.rows = J.rows ∧ J'.cols = J.cols ∧
          (∀ wave x z, wave < waves r.s r.ad.wavelength.length la → x < nx * 2 ^ k → z < nz * 2 ^ k →
            J'.get (if J.rows = r.s.W then wave else la + wave) (z * (nx * 2 ^ k) + x) =
              J.get (if J.rows = r.s.W then wave else la + wave) (z * (nx * 2 ^ k) + x) + jOf r.s (nx * 2 ^ k) (nz * 2 ^ k) march x z wave) ∧
          ∀ q x, (∀ wave, wave < waves r.s r.ad.wavelength.length la → q ≠ if J.rows = r.s.W then wave else la + wave) → J'.get q x = J.get q x := by
  have hg := hc.good
  obtain ⟨A, d, a1, hA⟩ := arrays_ok hf hr hc o la hW hla ho
  have hNx : st.g.nx.toNat = nx * 2 ^ k := by rw [hg.sx, ← Nat.cast_mul, Int.toNat_natCast]
  have hNz : st.g.nz.toNat = nz * 2 ^ k := by rw [hg.sz, ← Nat.cast_mul, Int.toNat_natCast]
  have hww : waves r.s r.ad.wavelength.length la ≤ r.s.W := by unfold waves; omega
  set e0 := envOf r.s (nx * 2 ^ k) (nz * 2 ^ k) (fun _ _ _ => ⟨0, 0, 0⟩) with he0'
  set M := marchOf (memWorld r st o la A) e0 (raysFrom r.s la) with hM
  have hmem := fun bc n hn p hp sg => marchRay_lte hf hr hc o la hW hla d A hA e0 bc n hn p hp sg
  obtain ⟨⟨m1, hm1⟩, -⟩ := C79_dense2 e0 (gasWorld r k nx nz a h pf) (raysFrom r.s la) (waves r.s r.ad.wavelength.length la)
    (by show (1 : ℤ) ≤ ((2 ^ k : Nat) : ℤ); exact_mod_cast Nat.one_le_two_pow)
    (fun n c hc => file_dense (eta := fun _ _ => 0) (chi := fun _ _ => 0) (scale := a.scale) hf (fun _ => 0) n c hc)
    (fun n hn => hf.dirs n hn) (fun n hn => hf.length n hn)
  have hspec : ∀ bc n p, n ≤ r.s.num → p.wave < waves r.s r.ad.wavelength.length la → (∃ sg, MarchRay2 (gasWorld r k nx nz a h pf) e0 (raysFrom r.s la) bc n p sg) →
      MarchRay2 (gasWorld r k nx nz a h pf) e0 (raysFrom r.s la) bc n p (M bc n p) := by
    intro bc n p hn hp ⟨sg, hsg⟩
    haveI : Nonempty (Seg ℝ) := ⟨⟨0, 0, 0⟩⟩
    refine (hmem bc n hn p hp _).1 ?_
    exact Classical.epsilon_spec (p := MarchRay2 (memWorld r st o la A) e0 (raysFrom r.s la) bc n p) ⟨sg, (hmem bc n hn p hp sg).2 hsg⟩
  refine ⟨A, M, a1, rfl, ⟨fun n p hn hr => ?_, fun p hr => ?_⟩, fun lam J hcols hrows => ?_⟩
  · exact hspec false n p (Nat.le_of_lt hn) hr.wave ⟨_, hm1.1 n p hn ⟨hr.u, hr.v, hr.dir, hr.wave, hr.incl⟩⟩
  · exact hspec true r.s.num p le_rfl hr.wave ⟨_, hm1.2 p ⟨hr.u, hr.v, hr.dir, hr.wave, hr.incl⟩⟩
  · have hrun := merge_run hf hg
    obtain ⟨hpr, -⟩ := env_probes hf M
    obtain ⟨m', J', f1, f2, f3, f4, f5⟩ := C74_J2 (envOf r.s (nx * 2 ^ k) (nz * 2 ^ k) M) (mergeOf r.s st.g.bm (nx * 2 ^ k) (nz * 2 ^ k)) k nx nz
      (fun _ => True) hrun rfl rfl rfl hf.pos hpr hr.cascades (waves r.s r.ad.wavelength.length la) hww o.b.rc (fun t => ho.base.rc t M) o.b.j (fun t n hn => by
        have hnum : n = ((nx * 2 ^ k : Nat) : Int) * ((nz * 2 ^ k : Nat) : Int) := by
          have hp := hrun.probes
          unfold Probes2.num at hn
          rw [show (mergeOf r.s st.g.bm (nx * 2 ^ k) (nz * 2 ^ k)).P.sparse = false from rfl, hp] at hn
          simp only [Bool.false_eq_true, if_false] at hn
          unfold mulI32 at hn
          split at hn
          · injection hn with hn; exact hn.symm
          · exact absurd hn (by simp)
        rw [hnum, ← Nat.cast_mul, Int.toNat_natCast]
        exact ho.base.j t) lam la o.b.mem ho.base.mem J (by unfold jCols2; rw [if_neg (by simp [mergeOf])]; exact hcols) hrows
    refine ⟨m', J', f1, f2, f3, fun wave x z hw hx hz => ?_, f5⟩
    obtain ⟨x', q1, q2, q3⟩ := f4 ⟨x, z⟩ (by
        unfold Computed2; rw [if_neg (by simp [mergeOf])]
        exact ⟨by positivity, Int.ofNat_lt.2 hx, by positivity, Int.ofNat_lt.2 hz⟩)
    have ha : z * (nx * 2 ^ k) + x = x' := by
      refine (q2 _).1 ?_
      unfold JAddr2
      rw [if_neg (by simp [mergeOf]), hrun.probes]
      push_cast; ring
    rw [ha]
    exact q3 wave hw

/-- One batch. -/
theorem batch_lte (hf : Fits r.s k nx nz) (hr : Ready r) (hc : Cells r k nx nz a h pf st) (o : LteOrder) (la : Nat) (hW : r.s.W ∣ la)
    (hla : la < r.ad.wavelength.length) (ho : LteOrders r k nx nz (waves r.s r.ad.wavelength.length la) o) :
    ∃ march, Marches2 (gasWorld r k nx nz a h pf) (envOf r.s (nx * 2 ^ k) (nz * 2 ^ k) march) (raysFrom r.s la) (waves r.s r.ad.wavelength.length la) ∧
      ∀ J : Arr2 ℝ, (J.cols : Int) = nx * nz * ((2 ^ k : Nat) * (2 ^ k : Nat)) → (J.rows = r.s.W ∨ la + waves r.s r.ad.wavelength.length la ≤ J.rows) →
        ∃ J', batch2 r st o la J = .ok J' ∧ J'.rows = J.rows ∧ J'.cols = J.cols ∧
          (∀ wave x z, wave < waves r.s r.ad.wavelength.length la → x < nx * 2 ^ k → z < nz * 2 ^ k →
            J'.get (if J.rows = r.s.W then wave else la + wave) (z * (nx * 2 ^ k) + x) =
              J.get (if J.rows = r.s.W then wave else la + wave) (z * (nx * 2 ^ k) + x) + jOf r.s (nx * 2 ^ k) (nz * 2 ^ k) march x z wave) ∧
          ∀ q x, (∀ wave, wave < waves r.s r.ad.wavelength.length la → q ≠ if J.rows = r.s.W then wave else la + wave) → J'.get q x = J.get q x := by
  have hg := hc.good
  have hNx : st.g.nx.toNat = nx * 2 ^ k := by rw [hg.sx, ← Nat.cast_mul, Int.toNat_natCast]
  have hNz : st.g.nz.toNat = nz * 2 ^ k := by rw [hg.sz, ← Nat.cast_mul, Int.toNat_natCast]
  obtain ⟨A, M, a1, hM, hm, hJ⟩ := formal_lte hf hr hc o la hW hla ho
  refine ⟨M, hm, fun J hcols hrows => ?_⟩
  obtain ⟨m', J', f1, f2⟩ := hJ true J hcols hrows
  refine ⟨J', ?_, f2⟩
  unfold batch2
  simp only [a1, Outcome.ok_bind, hNx, hNz]
  rw [show marchOf (memWorld r st o la A) (envOf r.s (nx * 2 ^ k) (nz * 2 ^ k) (fun _ _ _ => ⟨0, 0, 0⟩)) { len := r.s.len, muy := r.s.muy, laStart := la } = M from hM.symm, f1]
  rfl

/-- The whole run. -/
theorem run_lte {W : Type} {cv : W → ℝ} {f : NcFile Coord2 W} (hf : Fits r.s k nx nz) (hr : Ready r) (hd : Describes f cv (2 ^ k) nx nz a)
    (hw : r.haveH = false → Warm k nx nz a) (o0 : StartOrder) (ho0 : StartOrders r k nx nz o0) (o : Nat → LteOrder)
    (ho : ∀ la, la < r.ad.wavelength.length → r.s.W ∣ la → LteOrders r k nx nz (min r.s.W (r.ad.wavelength.length - la)) (o la)) (old : Nat → Nat → ℝ) :
    ∃ J, runLte2 r cv f o0 o old = .ok J ∧ LteSolves r k nx nz a J := by
  obtain ⟨st, h, g1, hc, -⟩ := start_ok hf hr hd hw o0 ho0
  have hg := hc.good
  set nw := r.ad.wavelength.length with hnwd
  have hW := hf.batch
  have hp := Nat.two_pow_pos k
  have hnw : st.g.nw.toNat = nw := by rw [hg.sw]; rfl
  have hb := fun la (h1 : la < nw) (h2 : r.s.W ∣ la) => batch_lte hf hr hc (o la) la h2 h1 (ho la h1 h2)
  haveI : Nonempty (Bool → Nat → ProbeIdx2 → Seg ℝ) := ⟨fun _ _ _ => ⟨0, 0, 0⟩⟩
  choose! march hm1 hm2 using hb
  set Nx := nx * 2 ^ k with hNx
  set Nz := nz * 2 ^ k with hNz
  have hx0 : 0 < Nx := Nat.mul_pos hf.pos.1 hp
  have hcols : jCols r.s st.g = Nx * Nz := by
    unfold jCols
    rw [hg.map.dims, hf.block]
    have : (nx : Int) * nz * (((2 ^ k : Nat) : Int) * ((2 ^ k : Nat) : Int)) = ((Nx * Nz : Nat) : Int) := by
      rw [hNx, hNz]; push_cast; ring
    show ((nx : Int) * nz * (((2 ^ k : Nat) : Int) * ((2 ^ k : Nat) : Int))).toNat = _
    rw [this, Int.toNat_natCast]
  set M : Nat → Nat → ℝ := fun q x => jOf r.s Nx Nz (march (q / r.s.W * r.s.W)) (x % Nx) (x / Nx) (q % r.s.W) with hM
  set sol := fun la J => batch2 r st (o la) la J with hsol
  have hspec : ∀ la ∈ batchStarts r.s nw, r.s.W ∣ la ∧ la < nw ∧ BatchSpec sol r.s.W (Nx * Nz) (waves r.s nw) M la := by
    intro la hla
    obtain ⟨h1, h2⟩ := (starts_mem r.s hW nw la).1 hla
    refine ⟨h1, h2, fun J hc hr => ?_⟩
    obtain ⟨J', q1, q2, q3, q4, q5⟩ := hm2 la h2 h1 J (by rw [hc]; push_cast [hNx, hNz]; ring) hr
    refine ⟨J', q1, q2, q3, fun wave x hw ha => ?_, q5⟩
    have hww : wave < r.s.W := by unfold waves at hw; omega
    have hd : x / Nx < Nz := by rw [Nat.div_lt_iff_lt_mul hx0, Nat.mul_comm]; exact ha
    have := q4 wave (x % Nx) (x / Nx) hw (Nat.mod_lt _ hx0) hd
    have ea : x / Nx * Nx + x % Nx = x := by rw [Nat.mul_comm]; exact Nat.div_add_mod x Nx
    rw [ea] at this
    rw [this, hM]
    obtain ⟨b, rfl⟩ := h1
    have e1 : (r.s.W * b + wave) / r.s.W * r.s.W = r.s.W * b := by
      rw [Nat.mul_add_div hW, Nat.div_eq_of_lt hww, Nat.add_zero, Nat.mul_comm]
    have e2 : (r.s.W * b + wave) % r.s.W = wave := by rw [Nat.mul_add_mod, Nat.mod_eq_of_lt hww]
    simp only [e1, e2]
  have hin : ∀ la, la < nw → la / r.s.W * r.s.W ∈ batchStarts r.s nw := by
    intro la hla
    exact (starts_mem r.s hW nw _).2 ⟨dvd_mul_left _ _, lt_of_le_of_lt (Nat.div_mul_le_self la r.s.W) hla⟩
  have hfin : ∀ J : Arr2 ℝ, J.rows = nw → J.cols = Nx * Nz → (∀ q x, q < nw → x < Nx * Nz → J.get q x = M q x) →
      LteSolves r k nx nz a J := by
    intro J h1 h2 h3
    refine ⟨h1, h2, h, hc.neutral, fun la hla => ⟨march (la / r.s.W * r.s.W), ?_, fun x z hx hz => ?_⟩⟩
    · exact hm1 _ (lt_of_le_of_lt (Nat.div_mul_le_self la r.s.W) hla) (dvd_mul_left _ _)
    · have ha : z * Nx + x < Nx * Nz := by
        calc z * Nx + x < z * Nx + Nx := by omega
          _ = (z + 1) * Nx := by ring
          _ ≤ Nz * Nx := Nat.mul_le_mul_right _ hz
          _ = Nx * Nz := Nat.mul_comm _ _
      rw [h3 la _ hla ha, hM]
      have e1 : (z * Nx + x) % Nx = x := by rw [Nat.mul_comm, Nat.mul_add_mod, Nat.mod_eq_of_lt hx]
      have e2 : (z * Nx + x) / Nx = z := by rw [Nat.mul_comm, Nat.mul_add_div hx0, Nat.div_eq_of_lt hx, Nat.add_zero]
      simp only [e1, e2]
      rfl
  unfold runLte2
  rw [g1, Outcome.ok_bind]
  simp only [hnw, hcols]
  by_cases hcpu : r.s.onCpu = true
  · rw [if_pos hcpu]
    obtain ⟨J', Jc, r1, r2, r3, r4⟩ := batches_cpu sol r.s.W (Nx * Nz) nw (waves r.s nw) M hW (fun _ => rfl) (batchStarts r.s nw) (starts_nodup r.s hW nw)
      hspec ⟨r.s.W, Nx * Nz, fun _ _ => 0⟩ ⟨nw, Nx * Nz, old⟩ rfl rfl rfl rfl
    rw [r1]
    refine ⟨Jc, rfl, hfin Jc r2 r3 fun q x hr ha => ?_⟩
    rw [r4 q x hr ha, if_pos (hin q hr)]
  · rw [if_neg hcpu]
    obtain ⟨J', r1, r2, r3, r4⟩ := batches_dev sol r.s.W (Nx * Nz) nw (waves r.s nw) M hW (fun _ => rfl) (batchStarts r.s nw) (starts_nodup r.s hW nw)
      hspec ⟨nw, Nx * Nz, fun _ _ => 0⟩ rfl rfl
    refine ⟨J', r1, hfin J' r2 r3 fun q x hr ha => ?_⟩
    rw [r4 q x hr ha, if_pos (hin q hr)]
    show (0 : ℝ) + _ = _
    rw [zero_add]

end DexRT.LteRun
