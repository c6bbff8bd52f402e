import Verif.Lemmas.GivenSolve3
import Verif.Lemmas.LteStart
import Verif.Spec.LteRun3
/-! Lemmas for C91: the state before the wavelengths. -/
namespace DexRT.Lte3
open DexRT DexRT.Fs DexRT.AtmosFile DexRT.Dir DexRT.Given3 DexRT.Emis Classical

variable {r : Run} {k nx ny nz : Nat} {a : Cond}

/-- a map with data everywhere has as many tiles as the grid -/
theorem num_all (hp : 0 < 2 ^ k) (bm : BlockMap Coord3) (hm : MapFor3 (2 ^ k) nx ny nz (fun _ => True) bm) : bm.numActive = nx * ny * nz := by
  have hN := hm.numbering
  have h1 : (Finset.range bm.activeTiles.length).card = (Finset.range nx ×ˢ (Finset.range ny ×ˢ Finset.range nz)).card := by
    refine (Finset.card_bij (fun (p : Nat × Nat × Nat) _ => (bm.lookup ⟨p.1, p.2.1, p.2.2⟩).toNat) ?_ ?_ ?_).symm
    · rintro ⟨x, y, z⟩ h
      simp only [Finset.mem_product, Finset.mem_range] at h
      have := hN.active ⟨x, y, z⟩ ((grid_iff _).2 ⟨Int.natCast_nonneg _, Int.ofNat_lt.2 h.1, Int.natCast_nonneg _, Int.ofNat_lt.2 h.2.1, Int.natCast_nonneg _, Int.ofNat_lt.2 h.2.2⟩) trivial
      have hc := hN.count
      rw [Finset.mem_range]
      simp only
      omega
    · rintro ⟨x, y, z⟩ h ⟨x', y', z'⟩ h' he
      simp only [Finset.mem_product, Finset.mem_range] at h h'
      have g1 := (grid_iff (k := k) (nx := nx) (ny := ny) (nz := nz) ⟨x, y, z⟩).2 ⟨Int.natCast_nonneg _, Int.ofNat_lt.2 h.1, Int.natCast_nonneg _, Int.ofNat_lt.2 h.2.1, Int.natCast_nonneg _, Int.ofNat_lt.2 h.2.2⟩
      have g2 := (grid_iff (k := k) (nx := nx) (ny := ny) (nz := nz) ⟨x', y', z'⟩).2 ⟨Int.natCast_nonneg _, Int.ofNat_lt.2 h'.1, Int.natCast_nonneg _, Int.ofNat_lt.2 h'.2.1, Int.natCast_nonneg _, Int.ofNat_lt.2 h'.2.2⟩
      have p1 := hN.active _ g1 trivial
      have p2 := hN.active _ g2 trivial
      have := hN.injective _ _ g1 g2 trivial trivial (by simp only at he; omega)
      injection this with e1 e2 e3
      rw [Prod.mk.injEq, Prod.mk.injEq]; omega
    · intro i hi'
      have hi := Finset.mem_range.1 hi'
      obtain ⟨q1, -, q3⟩ := hN.listed i hi
      obtain ⟨a1, a2, a3, a4, a5, a6⟩ := (grid_iff _).1 q1
      refine ⟨((decodeMorton3 bm.activeTiles[i]).x.toNat, (decodeMorton3 bm.activeTiles[i]).y.toNat, (decodeMorton3 bm.activeTiles[i]).z.toNat), ?_, ?_⟩
      · simp only [Finset.mem_product, Finset.mem_range]; omega
      · simp only
        rw [Int.toNat_of_nonneg a1, Int.toNat_of_nonneg a3, Int.toNat_of_nonneg a5]
        show (bm.lookup (decodeMorton3 bm.activeTiles[i])).toNat = i
        rw [q3, Int.toNat_natCast]
  rw [Finset.card_range, Finset.card_product, Finset.card_product, Finset.card_range, Finset.card_range, Finset.card_range] at h1
  rw [← hN.count, h1]; push_cast; ring

/-- the lookup and offsets of a map with data everywhere -/
theorem good_of_map {s : Settings} (hf : Fits s k nx ny nz) (bm : BlockMap Coord3) (hm : MapFor3 (2 ^ k) nx ny nz (fun _ => True) bm)
    (nw : Nat) (eta chi : Coord3 → Int → ℝ) (scale : ℝ) :
    ∃ lk off, MLLookup.init3 s.E bm.dims = .ok lk ∧ mipOffsets s.E s.B 3 bm.numActive 0 = .ok off ∧
      Good s k nx ny nz nw eta chi scale { nx := bm.bboxMax.x, ny := bm.bboxMax.y, nz := bm.bboxMax.z, nw := nw, eta := eta, chi := chi, scale := scale, bm := bm, lk := lk, off := off } := by
  have hn := num_all (Nat.two_pow_pos k) bm hm
  obtain ⟨-, -, -, hp, hcap⟩ := bounds hf
  obtain ⟨lk, l1, l2, l3, l4⟩ := C09_packed3 s.E nx ny nz hf.entry.1 hf.entry.2 hp hcap
  have hE := entry_two hf
  have hoff : mipOffsets s.E (2 ^ k) 3 bm.numActive 0 = .ok (fillOffsets (2 ^ k) 3 bm.numActive (0 + 1) 0 0 (fun _ => 0)) := by
    unfold mipOffsets; rw [if_neg (by omega)]
  refine ⟨lk, _, by rw [hm.dims]; exact l1, by rw [hf.block]; exact hoff, ?_⟩
  refine ⟨?_, ?_, ?_, rfl, rfl, rfl, rfl, hm, hn, l2, l4, hoff⟩
  · show bm.bboxMax.x = _; rw [hm.bbox]
  · show bm.bboxMax.y = _; rw [hm.bbox]
  · show bm.bboxMax.z = _; rw [hm.bbox]

/-- What holds of the state at the start: the cells of the grid have the conditions of the file, LTE populations and the
neutral hydrogen density `h`. -/
structure Cells (r : Run) (k nx ny nz : Nat) (a : Cond) (h : Coord3 → ℝ) (pf : Coord3 → Emis.Pops) (st : Started) : Prop where
  good : Good r.s k nx ny nz r.ad.wavelength.length (fun _ _ => 0) (fun _ _ => 0) a.scale st.g
  offset : ![st.atmos.offsetX, st.atmos.offsetY, st.atmos.offsetZ] = a.offset
  point : ∀ c, InGrid k nx ny nz c → ∀ adr, Addr3 (2 ^ k) st.g.bm c adr → pointAt st adr.toNat = Lte3.point a h 0 c
  vel : ∀ c, InGrid k nx ny nz c → ∀ adr, Addr3 (2 ^ k) st.g.bm c adr →
    (st.atmos.vx adr.toNat, st.atmos.vy adr.toNat, st.atmos.vz adr.toNat) = (a.vx c, a.vy c, a.vz c)
  pops : ∀ c, InGrid k nx ny nz c → ∀ adr, Addr3 (2 ^ k) st.g.bm c adr → ∀ ia at', r.ad.atoms[ia]? = some at' → ∀ l, l < at'.top + 1 →
    LteRun.popsAt r.ad st.pops adr.toNat ia l = pf c ia l
  neutral : NeutralOf r k nx ny nz a pf h

theorem addr_unique (B : Nat) (bm : BlockMap Coord3) (c : Coord3) (x y : Int) (h1 : Addr3 B bm c x) (h2 : Addr3 B bm c y) : x = y := by
  obtain ⟨s, e⟩ := h1
  obtain ⟨s', e'⟩ := h2
  rw [e] at e'; injection e' with e'; injection e'

/-- the cells of the grid and the addresses -/
theorem cells_addr {s : Settings} (hf : Fits s k nx ny nz) (bm : BlockMap Coord3) (hm : MapFor3 (2 ^ k) nx ny nz (fun _ => True) bm) (c : Coord3)
    (hc : InGrid k nx ny nz c) : HasData3 (2 ^ k) nx ny nz (fun _ => True) c ∧ (∃ adr, Addr3 (2 ^ k) bm c adr) ∧
      ∀ adr, Addr3 (2 ^ k) bm c adr → 0 ≤ adr ∧ adr.toNat < nx * ny * nz * (2 ^ k * 2 ^ k * 2 ^ k) := by
  obtain ⟨q1, q2⟩ := hasData c hc
  have hd : HasData3 (2 ^ k) nx ny nz (fun _ => True) c := ⟨_, q1, trivial, q2⟩
  have H := iterSpace3 k nx ny nz (fun _ => True) bm (bounds hf).1 (bounds hf).2.1 (bounds hf).2.2.1 hm
  obtain ⟨p, hp, hpc⟩ := H.ontoC c hd
  obtain ⟨c', e, -, ha⟩ := H.co p hp
  rw [hpc] at e; injection e with e; subst e
  refine ⟨hd, ⟨_, ha⟩, fun adr hadr => ?_⟩
  rw [addr_unique _ _ _ _ _ hadr ha]
  obtain ⟨h1, h2⟩ := H.rng p hp
  refine ⟨h1, ?_⟩
  unfold numActiveCells at h2
  rw [num_all (Nat.two_pow_pos k) bm hm] at h2
  zify; rw [Int.toNat_of_nonneg h1]; push_cast at h2 ⊢; exact h2

theorem field_get {W : Type} {f : NcFile Coord3 W} {cv : W → ℝ} {name : String} {x : Coord3 → ℝ} (h : HasField f cv name x) (c : Coord3) (y : ℝ)
    (hy : (f.grid name).map (fun v => cv (v c)) = some y) : y = x c := by
  obtain ⟨v, h1, h2⟩ := h
  rw [h1] at hy
  rw [h2]; exact (Option.some.inj hy).symm

theorem offset_get {W : Type} {f : NcFile Coord3 W} {cv : W → ℝ} {name : String} {x y : ℝ} (h : HasOffset f cv name x)
    (hy : (∀ w, f.scalar name = some w → y = cv w) ∧ (f.scalar name = none → y = 0)) : y = x := by
  rcases h with ⟨h1, h2⟩ | ⟨v, h1, h2⟩
  · rw [hy.2 h1, h2]
  · rw [hy.1 v h1, h2]

theorem start_ok {W : Type} {cv : W → ℝ} {f : NcFile Coord3 W} (hf : Fits r.s k nx ny nz) (hr : Sound r) (hd : Describes f cv (2 ^ k) nx ny nz a)
    (hw : r.haveH = false → Warm k nx ny nz a) (o : StartOrder) (ho : StartOrders r k nx ny nz o) :
    ∃ st h, start3 r cv f o = .ok st ∧ Cells r k nx ny nz a h (ltePop r a) st ∧ PopsField.HasRows (LteRun.fieldAtoms r.ad) st.pops ∧
      st.pops.cols = nx * ny * nz * (2 ^ k * 2 ^ k * 2 ^ k) := by
  obtain ⟨bm, at', temp, t1, l1, l2, l3, l4, -⟩ := C81_dense3 k nx ny nz hf.size (bounds hf).1 (bounds hf).2.1 (bounds hf).2.2.1 LteRun.realOps (fun _ => True) LteRun.realLaws cv
    (fun x => decide (x = 0)) f hd.dense r.cutoff o.load ho.load o.junk
  have hact : (fun t => (decide (r.cutoff = 0)) = true ∨ HasColdCell3 (2 ^ k) (fun z y x => cv (temp { x := x, y := y, z := z })) r.cutoff t) = fun _ => True := by
    funext t; simp [hr.cutoff]
  simp only [hact] at l2 l3
  have hsc : at'.voxelScale = a.scale := by
    obtain ⟨v, v1, v2⟩ := hd.scale
    have := l4.voxelScale
    rw [v1] at this
    rw [v2]; exact (Option.some.inj this).symm
  obtain ⟨lk, off, g2, g3, g4⟩ := good_of_map hf bm l2 r.ad.wavelength.length (fun _ _ => 0) (fun _ _ => 0) a.scale
  have hcols : (numActiveCells ((r.s.B : Int) * (r.s.B : Int) * (r.s.B : Int)) bm).toNat = nx * ny * nz * (2 ^ k * 2 ^ k * 2 ^ k) := by
    unfold numActiveCells
    rw [num_all (Nat.two_pow_pos k) bm l2, hf.block]
    exact_mod_cast Int.toNat_natCast (nx * ny * nz * (2 ^ k * 2 ^ k * 2 ^ k))
  obtain ⟨p0, hp0⟩ : ∃ p0 : PopsField.Pops, p0 = ⟨((LteRun.fieldAtoms r.ad).map fun a => a.n + 1).sum, nx * ny * nz * (2 ^ k * 2 ^ k * 2 ^ k), o.oldPops⟩ := ⟨_, rfl⟩
  obtain ⟨q, q1, q2, q3, q4, -⟩ := PopsField.C83_lte (kB := r.k.kB) (dbc := r.k.dbc) (fmin := r.k.fmin) (f := LteRun.popAtmos at') (p := p0) (atoms := LteRun.fieldAtoms r.ad)
    (by rw [hp0]; rfl) o.pops (by rw [hp0]; exact ho.pops)
  have hqc : q.cols = nx * ny * nz * (2 ^ k * 2 ^ k * 2 ^ k) := by rw [q3, hp0]
  have hcell : ∀ c, InGrid k nx ny nz c → ∀ adr, Addr3 (2 ^ k) bm c adr → 0 ≤ adr ∧ adr.toNat < nx * ny * nz * (2 ^ k * 2 ^ k * 2 ^ k) ∧
      CellIs cv LteRun.realOps.zero f.grid at' c ((adr.toNat : Nat) : Int) := by
    intro c hc adr hadr
    obtain ⟨c1, -, c3⟩ := cells_addr hf bm l2 c hc
    obtain ⟨b1, b2⟩ := c3 adr hadr
    refine ⟨b1, b2, ?_⟩
    rw [Int.toNat_of_nonneg b1]
    exact l3 c c1 adr hadr
  have hpops : ∀ c, InGrid k nx ny nz c → ∀ adr, Addr3 (2 ^ k) bm c adr → ∀ ia x, r.ad.atoms[ia]? = some x → ∀ l, l < x.top + 1 →
      LteRun.popsAt r.ad q adr.toNat ia l = ltePop r a c ia l := by
    intro c hc adr hadr ia x hx l hl
    obtain ⟨b1, b2, b3⟩ := hcell c hc adr hadr
    have := q4 ia ⟨x.abundance, x.top, x.lv⟩ (by unfold LteRun.fieldAtoms; rw [List.getElem?_map, hx]; rfl) ⟨l, hl⟩ adr.toNat (by rw [hp0]; exact b2)
    unfold PopsField.popOf at this
    unfold LteRun.popsAt ltePop EmisSpec.lte
    rw [hx]
    simp only [Option.bind_some, hl, dif_pos, Option.getD_some]
    rw [this]
    show Lte.ltePops _ _ _ _ (at'.temperature _) (at'.ne _) (_ * at'.nhTot _) _ = _
    rw [field_get hd.temperature c _ b3.temperature, field_get hd.ne c _ b3.ne, field_get hd.nhTot c _ b3.nhTot]
    rfl
  obtain ⟨m, m1, m2⟩ : ∃ m, PopsField.computeNh0 r.sahaConst r.ionE r.haveH (LteRun.popAtmos at') q o.nh0 o.oldNh0 = .ok m ∧
      ∀ c, InGrid k nx ny nz c → ∀ adr, Addr3 (2 ^ k) bm c adr →
        if r.haveH then m adr.toNat = ltePop r a c 0 0
        else 0 ≤ m adr.toNat ∧ m adr.toNat ≤ a.nhTot c ∧
          ∃ u, interp (some (Real.logb 10 (a.temperature c))) (Lte.scaled Lte.logTData) (Lte.scaled Lte.partFnData) = .ok u ∧
            (a.nhTot c - m adr.toNat) * a.ne c * u = m adr.toNat * 2 * (r.sahaConst * a.temperature c) ^ (3 / 2 : ℝ) * Real.exp (-r.ionE / a.temperature c) := by
    by_cases hh : r.haveH = true
    · obtain ⟨x, xs, hx⟩ := List.exists_cons_of_ne_nil (hr.hydrogen hh)
      obtain ⟨m, m1, m2⟩ := PopsField.C83_nh0_model (sahaConst := r.sahaConst) (ionE := r.ionE) (f := LteRun.popAtmos at') (atoms := LteRun.fieldAtoms r.ad) (p := q)
        (by rw [q2, hp0]; simp [LteRun.fieldAtoms, hx]) o.nh0 (by rw [hqc]; exact ho.nh0) o.oldNh0
      refine ⟨m, by rw [hh]; exact m1, fun c hc adr hadr => ?_⟩
      rw [if_pos hh, m2 _ (by rw [hqc]; exact (hcell c hc adr hadr).2.1)]
      exact hpops c hc adr hadr 0 x (by rw [hx]; rfl) 0 (by omega)
    · have hh' : r.haveH = false := by simpa using hh
      have hwarm := hw hh'
      have hall : ∀ ks, ks < q.cols → ∃ c, InGrid k nx ny nz c ∧ Addr3 (2 ^ k) bm c ((ks : Nat) : Int) := by
        intro ks hks
        have H := iterSpace3 k nx ny nz (fun _ => True) bm (bounds hf).1 (bounds hf).2.1 (bounds hf).2.2.1 l2
        obtain ⟨p, hp, e⟩ := H.ontoN (ks : Nat) (by positivity) (by
          unfold numActiveCells
          rw [num_all (Nat.two_pow_pos k) bm l2]
          rw [hqc] at hks
          exact_mod_cast hks)
        obtain ⟨c, c1, c2, c3⟩ := H.co p hp
        refine ⟨c, ?_, by rw [← e]; exact c3⟩
        have := hasData3_inGrid _ nx ny nz _ c c2
        unfold InGrid3 at this
        unfold InGrid
        push_cast at this ⊢
        exact ⟨this.1.1, this.1.2, this.2.1.1, this.2.1.2, this.2.2.1, this.2.2.2⟩
      obtain ⟨m, m1, m2⟩ := PopsField.C83_nh0_lte (sahaConst := r.sahaConst) (ionE := r.ionE) (f := LteRun.popAtmos at') (p := q) hr.saha (fun ks hks => by
          obtain ⟨c, c1, c2⟩ := hall ks hks
          obtain ⟨-, -, b3⟩ := hcell c c1 _ c2
          rw [Int.toNat_natCast] at b3
          show 0 < at'.temperature _ ∧ 0 < at'.ne _ ∧ 0 ≤ at'.nhTot _
          rw [field_get hd.temperature c _ b3.temperature, field_get hd.ne c _ b3.ne, field_get hd.nhTot c _ b3.nhTot]
          exact hwarm c c1) o.nh0 (by rw [hqc]; exact ho.nh0) o.oldNh0
      refine ⟨m, by rw [hh']; exact m1, fun c hc adr hadr => ?_⟩
      rw [if_neg hh]
      obtain ⟨b1, b2, b3⟩ := hcell c hc adr hadr
      have := m2 adr.toNat (by rw [hqc]; exact b2)
      simp only [LteRun.popAtmos] at this
      rw [field_get hd.temperature c _ b3.temperature, field_get hd.ne c _ b3.ne, field_get hd.nhTot c _ b3.nhTot] at this
      exact this
  obtain ⟨h, hh⟩ : ∃ h : Coord3 → ℝ, ∀ c, InGrid k nx ny nz c → ∀ adr, Addr3 (2 ^ k) bm c adr → m adr.toNat = h c := by
    refine ⟨fun c => if e : ∃ adr, Addr3 (2 ^ k) bm c adr then m (Classical.choose e).toNat else 0, fun c hc adr hadr => ?_⟩
    have e : ∃ adr, Addr3 (2 ^ k) bm c adr := ⟨adr, hadr⟩
    simp only [e, dif_pos]
    rw [addr_unique _ _ _ _ _ hadr (Classical.choose_spec e)]
  refine ⟨{ g := { nx := bm.bboxMax.x, ny := bm.bboxMax.y, nz := bm.bboxMax.z, nw := r.ad.wavelength.length, eta := fun _ _ => 0, chi := fun _ _ => 0, scale := a.scale, bm := bm, lk := lk, off := off }, atmos := at', pops := q, nh0 := m }, h, ?_, ?_⟩
  · unfold start3
    rw [hf.block]
    simp only [Outcome.ok_bind, l1, g2]
    rw [hf.block] at g3 hcols
    simp only [g3, Outcome.ok_bind, hcols]
    rw [← hp0, q1]
    simp only [Outcome.ok_bind, m1, hsc]
  · refine ⟨⟨g4, ?_, fun c hc adr hadr => ?_, fun c hc adr hadr => ?_, hpops, fun c hc => ?_⟩, by rw [hp0] at q2; exact q2, hqc⟩
    · have o0 := offset_get hd.offset.1 l4.offsetX
      have o1 := offset_get hd.offset.2.1 l4.offsetY
      have o2 := offset_get hd.offset.2.2 l4.offsetZ
      funext i
      fin_cases i
      · exact o0
      · exact o1
      · exact o2
    · obtain ⟨b1, b2, b3⟩ := hcell c hc adr hadr
      unfold pointAt Lte3.point
      show Point.mk (at'.temperature _) (at'.ne _) (at'.vturb _) (at'.nhTot _) 0 (m adr.toNat) = _
      rw [field_get hd.temperature c _ b3.temperature, field_get hd.ne c _ b3.ne, field_get hd.nhTot c _ b3.nhTot, field_get hd.vturb c _ b3.vturb, hh c hc adr hadr]
    · obtain ⟨b1, b2, b3⟩ := hcell c hc adr hadr
      show (at'.vx _, at'.vy _, at'.vz _) = _
      rw [field_get hd.vx c _ b3.vx, field_get hd.vy c _ b3.vy, field_get hd.vz c _ b3.vz]
    · obtain ⟨-, ⟨adr, hadr⟩, -⟩ := cells_addr hf bm l2 c hc
      have := m2 c hc adr hadr
      rw [hh c hc adr hadr] at this
      exact this

end DexRT.Lte3
