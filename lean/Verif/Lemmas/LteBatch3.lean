import Verif.Lemmas.LteCells3
import Verif.Lemmas.LteBatch
/-! Lemmas for C91: one wavelength, and the run. -/
namespace DexRT.Lte3
open DexRT DexRT.Fs DexRT.AtmosFile DexRT.Dir DexRT.Given3 DexRT.Emis Classical

variable {r : Run} {k nx ny nz : Nat} {a : Cond} {h : Coord3 → ℝ} {pf : Coord3 → Emis.Pops} {st : Started}

/-- What the arrays of a wavelength hold. -/
structure ArraysOk (r : Run) (k nx ny nz : Nat) (a : Cond) (h : Coord3 → ℝ) (pf : Coord3 → Emis.Pops) (st : Started) (la : Nat) (d : List Nat) (A : Arrays) : Prop where
  base : StoredAt3 (2 ^ k) nx ny nz (fun _ => True) (mrOf r.s st.g st.g.lk) 0 A.base (contField r a h pf la)
  vel : StoredAt3 (2 ^ k) nx ny nz (fun _ => True) (mrOf r.s st.g st.g.lk) 0 A.vel (fun c => (a.vx c, a.vy c, a.vz c))
  mapping : A.mapping = d.map (fun k : Nat => (k : Int)) ++ List.replicate (r.maxLines - d.length) (-1)
  fill : fillMapping3 r.maxLines (scan Line.isActive r.ad.lines la) = .ok A.mapping
  lines : ∀ kr ∈ d, kr < r.ad.lines.length
  cav : ∀ krl (hk : krl < d.length), StoredAt3 (2 ^ k) nx ny nz (fun _ => True) (mrOf r.s st.g st.g.lk) 0 (A.cav krl) (coreField r a h pf d[krl])
  lk : LevelsFor (GridTile3 (2 ^ k) (nx * (2 ^ k : Nat)) (ny * (2 ^ k : Nat)) (nz * (2 ^ k : Nat))) (fun _ => True) (mrOf r.s st.g A.lk) (fun _ => 0)

theorem arrays_ok (hf : Fits r.s k nx ny nz) (hr : Sound r) (hc : Cells r k nx ny nz a h pf st) (o : LaOrder) (la : Nat)
    (hla : la < r.ad.wavelength.length) (hs : (activeLines r la).card ≤ r.maxLines) (ho : LaOrders r k nx ny nz o) :
    ∃ A d, arrays r st o la = .ok A ∧ ArraysOk r k nx ny nz a h pf st la d A := by
  have hg := hc.good
  obtain ⟨base, b1, b2⟩ := cellCol_ok hf hg (baseVal r st o la) (contField r a h pf la)
    (fun c hin adr hadr => base_ok hr hc o la hla c hin adr hadr) o.b.copy ho.base.copy o.oldBase st.g.lk
  obtain ⟨vel, v1, v2⟩ := cellCol_ok hf hg (fun ks => .ok (st.atmos.vx ks, st.atmos.vy ks, st.atmos.vz ks)) (fun c => (a.vx c, a.vy c, a.vz c))
    (fun c hin adr hadr => congrArg Outcome.ok (hc.vel c hin adr hadr)) o.vel ho.vel o.oldVel st.g.lk
  obtain ⟨d, d1, d2, d3⟩ := slots_ok la hs
  set mapping := d.map (fun k : Nat => (k : Int)) ++ List.replicate (r.maxLines - d.length) (-1) with hmap
  have hfil : ∀ krl, krl < r.maxLines → (LteRun.filled mapping krl = true ↔ krl < d.length) := by
    intro krl hk
    constructor
    · intro hh
      by_contra hno
      unfold LteRun.filled at hh
      rw [List.all_eq_true] at hh
      have hlen : krl < mapping.length := by rw [hmap, List.length_append, List.length_map, List.length_replicate]; omega
      have hm : mapping[krl] ∈ mapping.take (krl + 1) := by
        rw [List.mem_take_iff_getElem]
        exact ⟨krl, by omega, rfl⟩
      have := hh _ hm
      have hv : mapping[krl] = -1 := by
        simp only [hmap]
        rw [List.getElem_append_right (by rw [List.length_map]; omega), List.getElem_replicate]
      rw [hv] at this
      simp at this
    · intro hh; exact LteRun.filled_of d r.maxLines krl hh
  obtain ⟨cav, c1, c2⟩ := Given.forAll_ok (fun krl => if LteRun.filled mapping krl then cellCol r.s st.g (coreVal r st mapping krl) (o.cav krl) (o.oldCav krl)
      else .ok (o.oldCav krl)) (o.oldCav 0) (List.range r.maxLines)
    (fun krl m => ∀ hk : krl < d.length, StoredAt3 (2 ^ k) nx ny nz (fun _ => True) (mrOf r.s st.g st.g.lk) 0 m (coreField r a h pf d[krl]))
    (fun krl hk => by
      have hk := List.mem_range.1 hk
      by_cases hh : krl < d.length
      · rw [if_pos ((hfil krl hk).2 hh)]
        obtain ⟨m, m1, m2⟩ := cellCol_ok hf hg (coreVal r st mapping krl) (coreField r a h pf d[krl])
          (fun c hin adr hadr => core_ok hr hc d d3 krl hh c hin adr hadr) (o.cav krl) (ho.cav krl) (o.oldCav krl) st.g.lk
        exact ⟨m, m1, fun _ => m2⟩
      · rw [if_neg (fun e => hh ((hfil krl hk).1 e))]
        exact ⟨_, rfl, fun e => absurd e hh⟩)
  obtain ⟨lk, p1, p2⟩ := pack_ok hf hg o.b.tiles ho.base.tiles
  refine ⟨⟨base, vel, mapping, cav, lk⟩, d, ?_, ⟨b2, v2, rfl, d1, d3, fun krl hk => ?_, p2⟩⟩
  · unfold arrays
    simp only [b1, v1, d1, c1, p1, Outcome.ok_bind]
  · exact (c2 krl (List.mem_range.2 (by omega))).2 hk

/-- The march through the arrays is the march through the gas. -/
theorem marchRay_lte (hf : Fits r.s k nx ny nz) (hr : Sound r) (hc : Cells r k nx ny nz a h pf st) (o : LaOrder) (la : Nat)
    (hla : la < r.ad.wavelength.length) (d : List Nat) (A : Arrays) (hA : ArraysOk r k nx ny nz a h pf st la d A)
    (e : Env3 ℝ) (bc : Bool) (n : Nat) (p : ProbeIdx3) (sg : Seg ℝ) :
    MarchRay3 (memWorld r st o A) e r.s.len la bc n p sg ↔ MarchRay3 (gasWorld r k nx ny nz a h pf) e r.s.len la bc n p sg := by
  have hg := hc.good
  have hlvl := readLevel_ok (eta := fun _ _ => 0) (chi := fun _ _ => 0) (scale := a.scale) hf hg A.lk hA.lk o.b.junkLevel
  have harg : (memWorld r st o A).args3 e r.s.len la bc n p =
      { (gasWorld r k nx ny nz a h pf).args3 e r.s.len la bc n p with
        eta := ((memWorld r st o A).args3 e r.s.len la bc n p).eta
        chi := ((memWorld r st o A).args3 e r.s.len la bc n p).chi } := by
    have henv : (memWorld r st o A).env n = (gasWorld r k nx ny nz a h pf).env n := by
      have h1 : ((r.s.B : Nat) : ℤ) = ((2 ^ k : Nat) : ℤ) := by rw [hf.block]
      have h2 : (![st.g.nx, st.g.ny, st.g.nz] : Fin 3 → ℤ) = ![((nx * 2 ^ k : Nat) : Int), ((ny * 2 ^ k : Nat) : Int), ((nz * 2 ^ k : Nat) : Int)] := by
        rw [hg.sx, hg.sy, hg.sz]; push_cast; rfl
      show (⟨readLevel r.s (mrOf r.s st.g A.lk) o.b.junkLevel, 0, ((r.s.B : Nat) : ℤ), ![st.g.nx, st.g.ny, st.g.nz]⟩ : DdaEnv .three) = _
      rw [hlvl, h1, h2]; rfl
    have hv : st.g.scale = a.scale := hg.vox
    have hoff := hc.offset
    unfold World.args3
    simp only [henv]
    simp only [memWorld, gasWorld, hv, hoff]
  have hray : ∀ fuel, raymarch ((memWorld r st o A).args3 e r.s.len la bc n p) fuel =
      raymarch ((gasWorld r k nx ny nz a h pf).args3 e r.s.len la bc n p) fuel := by
    intro fuel
    rw [harg]
    refine raymarch_congr ((gasWorld r k nx ny nz a h pf).args3 e r.s.len la bc n p) _ _ (fun c m hm => file_blk (eta := fun _ _ => 0) (chi := fun _ _ => 0) (scale := a.scale) n c m hm) (fun c hc0 => ?_) fuel
    change 0 ≤ ((gasWorld r k nx ny nz a h pf).env n).sampleLevel c at hc0
    have hcin : InGrid k nx ny nz ⟨c 0, c 1, c 2⟩ := by
      by_contra hno
      have : ((gasWorld r k nx ny nz a h pf).env n).lvl c = -1 := if_neg hno
      unfold DdaEnv.sampleLevel at hc0
      rw [this] at hc0
      have := min_le_left (-1 : ℤ) ((gasWorld r k nx ny nz a h pf).env n).maxMip
      omega
    have hz : ((gasWorld r k nx ny nz a h pf).env n).sampleLevel c = 0 := by
      have h1 : ((gasWorld r k nx ny nz a h pf).env n).sampleLevel c ≤ 0 := min_le_right _ _
      exact le_antisymm h1 hc0
    have key : ∀ mu, sampleMem r st.g o A (la : ℤ) mu 0 c = gasOf r a h pf la mu ⟨c 0, c 1, c 2⟩ := by
      intro mu
      unfold sampleMem
      simp only
      rw [readCell_ok hf hg A.lk _ A.base _ hA.base c hcin,
        readCell_ok hf hg A.lk _ A.vel _ hA.vel c hcin]
      have hm : A.mapping = d.map (fun k : Nat => (k : Int)) ++ List.replicate (r.maxLines - d.length) (-1) := hA.mapping
      have hfill := hA.fill
      rw [hm] at hfill ⊢
      rw [sample_ok hr la hla d hfill hA.lines mu ⟨c 0, c 1, c 2⟩ _ (fun krl hk =>
        readCell_ok hf hg A.lk _ (A.cav krl) _ (hA.cav krl hk) c hcin)]
    constructor
    · show (sampleMem r st.g o A (la : ℤ) _ (((gasWorld r k nx ny nz a h pf).env n).sampleLevel c) c).eta =
        (gasOf r a h pf (la : ℤ).toNat _ ⟨c 0, c 1, c 2⟩).eta
      rw [hz, key, Int.toNat_natCast]
    · show (sampleMem r st.g o A (la : ℤ) _ (((gasWorld r k nx ny nz a h pf).env n).sampleLevel c) c).chi =
        (gasOf r a h pf (la : ℤ).toNat _ ⟨c 0, c 1, c 2⟩).chi
      rw [hz, key, Int.toNat_natCast]
  unfold MarchRay3
  simp only [hray]

/-- The angular mean at a cell from the marches. -/
noncomputable def jOf (s : Settings) (Nx Ny Nz : Nat) (march : Bool → Nat → ProbeIdx3 → Seg ℝ) (x y z : Nat) : ℝ :=
  meanIntensity3 s.cfg.c0az s.cfg.c0polar (radiance3 march Nx Ny Nz (upperTexels3 s.cfg.branch).1 (upperTexels3 s.cfg.branch).2 s.num s.num) x y z

/-- One wavelength, up to the formal solution. -/
theorem formal_lte (hf : Fits r.s k nx ny nz) (hr : Sound r) (hc : Cells r k nx ny nz a h pf st) (o : LaOrder) (la : Nat)
    (hla : la < r.ad.wavelength.length) (hs : (activeLines r la).card ≤ r.maxLines) (ho : LaOrders r k nx ny nz o) :
    ∃ A march, arrays r st o la = .ok A ∧
      march = marchOf (memWorld r st o A) (envOf r.s (nx * 2 ^ k) (ny * 2 ^ k) (nz * 2 ^ k) (fun _ _ _ => ⟨0, 0, 0⟩)) r.s.len la ∧
      Marches3 (gasWorld r k nx ny nz a h pf) (envOf r.s (nx * 2 ^ k) (ny * 2 ^ k) (nz * 2 ^ k) march) r.s.len la ∧
      ∀ (lam : Bool) (J : Arr2 ℝ), J.cols = nx * 2 ^ k * (ny * 2 ^ k) * (nz * 2 ^ k) → (J.rows = 1 ∨ la < J.rows) →
        ∃ m' J', formalSol3 (envOf r.s (nx * 2 ^ k) (ny * 2 ^ k) (nz * 2 ^ k) march) (mergeEnv r.s st.g.bm (nx * 2 ^ k) (ny * 2 ^ k) (nz * 2 ^ k)) la lam o.b.rc o.b.j
            (List.range (subsetTasks3 r.s.cfg)) o.b.mem J = .ok (m', J') ∧ J'.rows = J.rows ∧ J'.cols = J.cols ∧
          (∀ x y z, x < nx * 2 ^ k → y < ny * 2 ^ k → z < nz * 2 ^ k →
            J'.get (if J.rows = 1 then 0 else la) ((z * (ny * 2 ^ k) + y) * (nx * 2 ^ k) + x) =
              J.get (if J.rows = 1 then 0 else la) ((z * (ny * 2 ^ k) + y) * (nx * 2 ^ k) + x) + jOf r.s (nx * 2 ^ k) (ny * 2 ^ k) (nz * 2 ^ k) march x y z) ∧
          ∀ q x, (q ≠ if J.rows = 1 then 0 else la) → J'.get q x = J.get q x := by
  have hg := hc.good
  obtain ⟨A, d, a1, hA⟩ := arrays_ok hf hr hc o la hla hs ho
  obtain ⟨e0, he0⟩ : ∃ e0, e0 = envOf r.s (nx * 2 ^ k) (ny * 2 ^ k) (nz * 2 ^ k) (fun _ _ _ => ⟨0, 0, 0⟩) := ⟨_, rfl⟩
  obtain ⟨M, hM⟩ : ∃ M, M = marchOf (memWorld r st o A) e0 r.s.len la := ⟨_, rfl⟩
  have hmem := fun bc n p sg => marchRay_lte hf hr hc o la hla d A hA e0 bc n p sg
  obtain ⟨ord, q, hbr, haz, hq⟩ := hf.healpix
  obtain ⟨⟨m1, hm1⟩, -⟩ := C79_dense3 (cascades r.s k nx ny nz) (gasWorld r k nx ny nz a h pf) r.s.len la
    (by show (1 : ℤ) ≤ ((2 ^ k : Nat) : ℤ); exact_mod_cast Nat.one_le_two_pow)
    (fun n c hc => file_dense (eta := fun _ _ => 0) (chi := fun _ _ => 0) (scale := a.scale) n c hc) ord q hbr
    (by rw [npix_zero hf, haz]) hq hf.length
  have hspec : ∀ bc n p, (∃ sg, MarchRay3 (gasWorld r k nx ny nz a h pf) e0 r.s.len la bc n p sg) →
      MarchRay3 (gasWorld r k nx ny nz a h pf) e0 r.s.len la bc n p (M bc n p) := by
    intro bc n p ⟨sg, hsg⟩
    haveI : Nonempty (Seg ℝ) := ⟨⟨0, 0, 0⟩⟩
    refine (hmem bc n p _).1 ?_
    rw [hM]
    exact Classical.epsilon_spec (p := MarchRay3 (memWorld r st o A) e0 r.s.len la bc n p) ⟨sg, (hmem bc n p sg).2 hsg⟩
  refine ⟨A, M, a1, by rw [hM, he0], ⟨fun n p hn hr => ?_, fun p hr => ?_⟩, fun lam J hcols hrows => ?_⟩
  · have := hspec false n p ⟨_, by rw [he0]; exact hm1.1 n p hn ⟨hr.u, hr.v, hr.w, hr.az, hr.polar⟩⟩
    rw [he0] at this; exact this
  · have := hspec true r.s.num p ⟨_, by rw [he0]; exact hm1.2 p ⟨hr.u, hr.v, hr.w, hr.az, hr.polar⟩⟩
    rw [he0] at this; exact this
  · have hrun : Run3 (mergeEnv r.s st.g.bm (nx * 2 ^ k) (ny * 2 ^ k) (nz * 2 ^ k)) k nx ny nz (fun _ => True) := merge_run hf hg
    have hP : (envOf r.s (nx * 2 ^ k) (ny * 2 ^ k) (nz * 2 ^ k) M).probes 0 = (mergeEnv r.s st.g.bm (nx * 2 ^ k) (ny * 2 ^ k) (nz * 2 ^ k)).P := rfl
    have hp : Probes3Ok (envOf r.s (nx * 2 ^ k) (ny * 2 ^ k) (nz * 2 ^ k) M) := by
      refine (C74_probes_dense3 (envOf r.s (nx * 2 ^ k) (ny * 2 ^ k) (nz * 2 ^ k) M) ?_ ?_ fun n _ => ?_).1
      · rw [env_np0, env_np1, env_np2]; exact sides_pos hf
      · rw [env_np0, env_np1, env_np2]; exact cells_le hf
      · rw [env_np0, env_np1, env_np2]; exact env_dims M n
    obtain ⟨m', J', f1, f2, f3, f4, f5⟩ := C74_J3 (envOf r.s (nx * 2 ^ k) (ny * 2 ^ k) (nz * 2 ^ k) M)
      (mergeEnv r.s st.g.bm (nx * 2 ^ k) (ny * 2 ^ k) (nz * 2 ^ k)) k nx ny nz (fun _ => True) hrun rfl rfl hP hf.products hp hr.cascades
      o.b.rc (fun t => sched_ok hf M ho.base t) o.b.j (fun t n hn => by
        have hnum : n = ((nx * 2 ^ k * (ny * 2 ^ k) * (nz * 2 ^ k) : Nat) : Int) := by
          rw [← hP, env_num hf] at hn
          injection hn with hn
          rw [← hn]
          obtain ⟨p0, p1, p2⟩ := sides_pos hf
          have q : ∀ N, 0 < N → probesOn N 0 = N := by
            intro N hN
            unfold probesOn
            simp only [pow_zero, Nat.div_one]
            omega
          rw [q _ p0, q _ p1, q _ p2]
        rw [hnum, Int.toNat_natCast]
        exact ho.base.j t) lam la (bufSizes r.s k nx ny nz) hf.buffers o.b.mem ho.base.mem J (by
          unfold jCols3
          rw [if_neg (by simp [mergeEnv]), hcols]
          push_cast; ring) hrows
    refine ⟨m', J', f1, f2, f3, fun x y z hx hy hz => ?_, f5⟩
    obtain ⟨x', q1, q2, q3⟩ := f4 ⟨x, y, z⟩ (by
        unfold Computed3; rw [if_neg (by simp [mergeEnv])]
        exact ⟨by positivity, Int.ofNat_lt.2 hx, by positivity, Int.ofNat_lt.2 hy, by positivity, Int.ofNat_lt.2 hz⟩)
    have ha : (z * (ny * 2 ^ k) + y) * (nx * 2 ^ k) + x = x' := by
      refine (q2 _).1 ?_
      unfold JAddr3
      rw [if_neg (by simp [mergeEnv]), hrun.probes]
      push_cast; ring
    rw [ha, q3, env_np0, env_np1, env_np2]
    rfl

/-- One wavelength. -/
theorem wave_lte (hf : Fits r.s k nx ny nz) (hr : Sound r) (hc : Cells r k nx ny nz a h pf st) (o : LaOrder) (la : Nat)
    (hla : la < r.ad.wavelength.length) (hs : (activeLines r la).card ≤ r.maxLines) (ho : LaOrders r k nx ny nz o) :
    ∃ march, Marches3 (gasWorld r k nx ny nz a h pf) (envOf r.s (nx * 2 ^ k) (ny * 2 ^ k) (nz * 2 ^ k) march) r.s.len la ∧
      ∀ J : Arr2 ℝ, J.cols = nx * 2 ^ k * (ny * 2 ^ k) * (nz * 2 ^ k) → (J.rows = 1 ∨ la < J.rows) →
        ∃ J', Lte3.wave3 r st o la J = .ok J' ∧ J'.rows = J.rows ∧ J'.cols = J.cols ∧
          (∀ x y z, x < nx * 2 ^ k → y < ny * 2 ^ k → z < nz * 2 ^ k →
            J'.get (if J.rows = 1 then 0 else la) ((z * (ny * 2 ^ k) + y) * (nx * 2 ^ k) + x) =
              J.get (if J.rows = 1 then 0 else la) ((z * (ny * 2 ^ k) + y) * (nx * 2 ^ k) + x) + jOf r.s (nx * 2 ^ k) (ny * 2 ^ k) (nz * 2 ^ k) march x y z) ∧
          ∀ q x, (q ≠ if J.rows = 1 then 0 else la) → J'.get q x = J.get q x := by
  have hg := hc.good
  have hNx : st.g.nx.toNat = nx * 2 ^ k := by rw [hg.sx, ← Nat.cast_mul, Int.toNat_natCast]
  have hNy : st.g.ny.toNat = ny * 2 ^ k := by rw [hg.sy, ← Nat.cast_mul, Int.toNat_natCast]
  have hNz : st.g.nz.toNat = nz * 2 ^ k := by rw [hg.sz, ← Nat.cast_mul, Int.toNat_natCast]
  obtain ⟨A, M, a1, hM, hm, hJ⟩ := formal_lte hf hr hc o la hla hs ho
  refine ⟨M, hm, fun J hcols hrows => ?_⟩
  obtain ⟨m', J', f1, f2⟩ := hJ r.lam J hcols hrows
  refine ⟨J', ?_, f2⟩
  unfold Lte3.wave3
  simp only [a1, Outcome.ok_bind, hNx, hNy, hNz]
  rw [← hM, f1]
  rfl

/-- The whole run. -/
theorem run_lte {W : Type} {cv : W → ℝ} {f : NcFile Coord3 W} (hf : Fits r.s k nx ny nz) (hr : Ready r) (hd : Describes f cv (2 ^ k) nx ny nz a)
    (hw : r.haveH = false → Warm k nx ny nz a) (o0 : StartOrder) (ho0 : StartOrders r k nx ny nz o0) (o : Nat → LaOrder)
    (ho : ∀ la, la < r.ad.wavelength.length → LaOrders r k nx ny nz (o la)) :
    ∃ J, runLte3 r cv f o0 o = .ok J ∧ LteSolves r k nx ny nz a J := by
  obtain ⟨st, h, g1, hc, -⟩ := start_ok hf hr.toSound hd hw o0 ho0
  have hg := hc.good
  set nw := r.ad.wavelength.length with hnwd
  have hnw : st.g.nw.toNat = nw := by rw [hg.sw]; rfl
  have hb := fun la (h1 : la < nw) => wave_lte hf hr.toSound hc (o la) la h1 (hr.slots la h1) (ho la h1)
  haveI : Nonempty (Bool → Nat → ProbeIdx3 → Seg ℝ) := ⟨fun _ _ _ => ⟨0, 0, 0⟩⟩
  choose! march hm1 hm2 using hb
  obtain ⟨hx0, hy0, -⟩ := sides_pos hf
  set Nx := nx * 2 ^ k with hNx
  set Ny := ny * 2 ^ k with hNy
  set Nz := nz * 2 ^ k with hNz
  have hcols : Given3.jCols r.s st.g = Nx * Ny * Nz := by
    unfold Given3.jCols
    rw [hg.map.dims, hf.block]
    have : (nx : Int) * ny * nz * (((2 ^ k : Nat) : Int) * ((2 ^ k : Nat) : Int) * ((2 ^ k : Nat) : Int)) = ((Nx * Ny * Nz : Nat) : Int) := by
      rw [hNx, hNy, hNz]; push_cast; ring
    show ((nx : Int) * ny * nz * (((2 ^ k : Nat) : Int) * ((2 ^ k : Nat) : Int) * ((2 ^ k : Nat) : Int))).toNat = _
    rw [this, Int.toNat_natCast]
  have hidx : ∀ x y z, x < Nx → y < Ny → ((z * Ny + y) * Nx + x) % Nx = x ∧ ((z * Ny + y) * Nx + x) / Nx % Ny = y ∧ ((z * Ny + y) * Nx + x) / Nx / Ny = z := by
    intro x y z hx hy
    have e : ((z * Ny + y) * Nx + x) / Nx = z * Ny + y := by rw [Nat.mul_comm, Nat.mul_add_div hx0, Nat.div_eq_of_lt hx, Nat.add_zero]
    refine ⟨by rw [Nat.mul_comm, Nat.mul_add_mod, Nat.mod_eq_of_lt hx], ?_, ?_⟩
    · rw [e, Nat.mul_comm, Nat.mul_add_mod, Nat.mod_eq_of_lt hy]
    · rw [e, Nat.mul_comm, Nat.mul_add_div hy0, Nat.div_eq_of_lt hy, Nat.add_zero]
  set M : Nat → Nat → ℝ := fun q x => jOf r.s Nx Ny Nz (march q) (x % Nx) (x / Nx % Ny) (x / Nx / Ny) with hM
  set sol := fun la J => Lte3.wave3 r st (o la) la J with hsol
  have hspec : ∀ la ∈ List.range nw, 1 ∣ la ∧ la < nw ∧ BatchSpec sol 1 (Nx * Ny * Nz) (fun la => min 1 (nw - la)) M la := by
    intro la hla
    have h2 := List.mem_range.1 hla
    have hw1 : min 1 (nw - la) = 1 := by omega
    refine ⟨one_dvd _, h2, fun J hc hr => ?_⟩
    simp only [hw1] at hr ⊢
    obtain ⟨J', q1, q2, q3, q4, q5⟩ := hm2 la h2 J hc (by omega)
    refine ⟨J', q1, q2, q3, fun wave x hw ha => ?_, fun q x hq => ?_⟩
    · obtain rfl : wave = 0 := by omega
      have hd1 : x / Nx < Ny * Nz := by rw [Nat.div_lt_iff_lt_mul hx0]; calc x < Nx * Ny * Nz := ha
          _ = Ny * Nz * Nx := by ring
      have hd : x / Nx / Ny < Nz := by rw [Nat.div_lt_iff_lt_mul hy0, Nat.mul_comm]; exact hd1
      have := q4 (x % Nx) (x / Nx % Ny) (x / Nx / Ny) (Nat.mod_lt _ hx0) (Nat.mod_lt _ hy0) hd
      have ea : (x / Nx / Ny * Ny + x / Nx % Ny) * Nx + x % Nx = x := by
        rw [Nat.div_add_mod', Nat.div_add_mod']
      rw [ea] at this
      simp only [Nat.add_zero]
      exact this
    · refine q5 q x ?_
      have := hq 0 (by omega)
      simpa using this
  have hin : ∀ la, la < nw → la / 1 * 1 ∈ List.range nw := by
    intro la hla
    rw [Nat.div_one, Nat.mul_one]; exact List.mem_range.2 hla
  have hfin : ∀ J : Arr2 ℝ, J.rows = nw → J.cols = Nx * Ny * Nz → (∀ q x, q < nw → x < Nx * Ny * Nz → J.get q x = M q x) →
      LteSolves r k nx ny nz a J := by
    intro J h1 h2 h3
    refine ⟨h1, h2, h, hc.neutral, fun la hla => ⟨march la, hm1 la hla, fun x y z hx hy hz => ?_⟩⟩
    have ha : (z * Ny + y) * Nx + x < Nx * Ny * Nz := by
      have h4 : z * Ny + y < Nz * Ny := by
        calc z * Ny + y < z * Ny + Ny := by omega
          _ = (z + 1) * Ny := by ring
          _ ≤ Nz * Ny := Nat.mul_le_mul_right _ hz
      calc (z * Ny + y) * Nx + x < (z * Ny + y) * Nx + Nx := by omega
        _ = (z * Ny + y + 1) * Nx := by ring
        _ ≤ Nz * Ny * Nx := Nat.mul_le_mul_right _ h4
        _ = Nx * Ny * Nz := by ring
    rw [h3 la _ hla ha, hM]
    obtain ⟨e1, e2, e3⟩ := hidx x y z hx hy
    simp only [e1, e2, e3]
    rfl
  unfold runLte3
  rw [g1, Outcome.ok_bind]
  simp only [hnw, hcols]
  by_cases hcpu : r.onCpu = true
  · rw [if_pos hcpu]
    obtain ⟨J', Jc, r1, r2, r3, r4⟩ := batches_cpu sol 1 (Nx * Ny * Nz) nw (fun la => min 1 (nw - la)) M Nat.one_pos (fun _ => rfl) (List.range nw) List.nodup_range
      hspec ⟨1, Nx * Ny * Nz, fun _ _ => 0⟩ ⟨nw, Nx * Ny * Nz, fun _ _ => 0⟩ rfl rfl rfl rfl
    rw [r1]
    refine ⟨Jc, rfl, hfin Jc r2 r3 fun q x hr ha => ?_⟩
    rw [r4 q x hr ha, if_pos (hin q hr)]
  · rw [if_neg hcpu]
    obtain ⟨J', r1, r2, r3, r4⟩ := batches_dev sol 1 (Nx * Ny * Nz) nw (fun la => min 1 (nw - la)) M Nat.one_pos (fun _ => rfl) (List.range nw) List.nodup_range
      hspec ⟨nw, Nx * Ny * Nz, fun _ _ => 0⟩ rfl rfl
    refine ⟨J', r1, hfin J' r2 r3 fun q x hr ha => ?_⟩
    rw [r4 q x hr ha, if_pos (hin q hr)]
    show (0 : ℝ) + _ = _
    rw [zero_add]

end DexRT.Lte3
