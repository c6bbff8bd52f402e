import Verif.Lemmas.GivenSolve
import Verif.Spec.LteRun
import Verif.Props.AtmosFile
import Verif.Props.PopsField
/-! Lemmas for C86: the state before the batches. -/
namespace DexRT.LteRun
open DexRT DexRT.Fs DexRT.AtmosFile DexRT.Dir DexRT.Given DexRT.Emis Classical

variable {r : Lte} {k nx nz : Nat} {a : Cond}

theorem realLaws : FloatLaws realOps (fun _ => True) where
  gt_num := fun _ _ _ => ⟨trivial, trivial⟩
  irrefl := fun a => by simp [realOps]
  trans := fun a b c h1 h2 => by
    simp only [realOps, decide_eq_true_eq] at *
    exact lt_trans h2 h1
  split := fun a b c _ h => by
    simp only [realOps, decide_eq_true_eq] at *
    rcases lt_or_ge b a with h1 | h1
    · exact Or.inl h1
    · exact Or.inr (lt_of_lt_of_le h h1)
  num_lowest := trivial
  sqrt_mono := fun a b _ h1 h2 => by
    simp only [realOps, decide_eq_true_eq, decide_eq_false_iff_not, not_lt] at *
    exact lt_of_lt_of_le h2 (Real.sqrt_le_sqrt h1)
  sqrt_pos := fun a h => by
    simp only [realOps, decide_eq_true_eq] at *
    by_contra hn
    rw [Real.sqrt_eq_zero_of_nonpos (by linarith)] at h
    linarith

/-- a map with data everywhere has as many tiles as the grid -/
theorem num_all (hp : 0 < 2 ^ k) (bm : BlockMap Coord2) (hm : MapFor2 (2 ^ k) nx nz (fun _ => True) bm) : bm.numActive = nx * nz := by
  have hP : (0 : Int) < ((2 ^ k : Nat) : Int) := by exact_mod_cast hp
  have hgrid : ∀ t : Coord2, GridTile2 (2 ^ k) (nx * (2 ^ k : Nat)) (nz * (2 ^ k : Nat)) t ↔ 0 ≤ t.x ∧ t.x < nx ∧ 0 ≤ t.z ∧ t.z < nz := by
    intro t
    unfold GridTile2
    constructor
    · rintro ⟨a, b, c, d⟩
      exact ⟨a, lt_of_mul_lt_mul_right b hP.le, c, lt_of_mul_lt_mul_right d hP.le⟩
    · rintro ⟨a, b, c, d⟩
      exact ⟨a, mul_lt_mul_of_pos_right b hP, c, mul_lt_mul_of_pos_right d hP⟩
  have hN := hm.numbering
  have h1 : (Finset.range bm.activeTiles.length).card = (Finset.range nx ×ˢ Finset.range nz).card := by
    refine (Finset.card_bij (fun (p : Nat × Nat) _ => (bm.lookup ⟨p.1, p.2⟩).toNat) ?_ ?_ ?_).symm
    · rintro ⟨x, z⟩ h
      simp only [Finset.mem_product, Finset.mem_range] at h
      have := hN.active ⟨x, z⟩ ((hgrid _).2 ⟨Int.natCast_nonneg _, Int.ofNat_lt.2 h.1, Int.natCast_nonneg _, Int.ofNat_lt.2 h.2⟩) trivial
      have hc := hN.count
      rw [Finset.mem_range]
      simp only
      omega
    · rintro ⟨x, z⟩ h ⟨x', z'⟩ h' he
      simp only [Finset.mem_product, Finset.mem_range] at h h'
      have g1 := (hgrid ⟨x, z⟩).2 ⟨Int.natCast_nonneg _, Int.ofNat_lt.2 h.1, Int.natCast_nonneg _, Int.ofNat_lt.2 h.2⟩
      have g2 := (hgrid ⟨x', z'⟩).2 ⟨Int.natCast_nonneg _, Int.ofNat_lt.2 h'.1, Int.natCast_nonneg _, Int.ofNat_lt.2 h'.2⟩
      have p1 := hN.active _ g1 trivial
      have p2 := hN.active _ g2 trivial
      have := hN.injective _ _ g1 g2 trivial trivial (by simp only at he; omega)
      injection this with e1 e2
      rw [Prod.mk.injEq]; omega
    · intro i hi'
      have hi := Finset.mem_range.1 hi'
      obtain ⟨q1, -, q3⟩ := hN.listed i hi
      obtain ⟨a1, a2, a3, a4⟩ := (hgrid _).1 q1
      refine ⟨((decodeMorton2 bm.activeTiles[i]).x.toNat, (decodeMorton2 bm.activeTiles[i]).z.toNat), ?_, ?_⟩
      · simp only [Finset.mem_product, Finset.mem_range]; omega
      · simp only
        rw [Int.toNat_of_nonneg a1, Int.toNat_of_nonneg a3]
        show (bm.lookup (decodeMorton2 bm.activeTiles[i])).toNat = i
        rw [q3, Int.toNat_natCast]
  rw [Finset.card_range, Finset.card_product, Finset.card_range, Finset.card_range] at h1
  rw [← hN.count, h1]; push_cast; rfl

/-- the lookup and offsets of a map with data everywhere -/
theorem good_of_map {s : Settings} (hf : Fits s k nx nz) (bm : BlockMap Coord2) (hm : MapFor2 (2 ^ k) nx nz (fun _ => True) bm)
    (nw : Nat) (eta chi : Coord2 → Int → ℝ) (scale : ℝ) :
    ∃ lk off, maxLevel s.levels s.num = .ok ((topLevel s : Nat) : Int) ∧ MLLookup.init2 s.E bm.dims = .ok lk ∧
      mipOffsets s.E s.B 2 bm.numActive (topLevel s) = .ok off ∧
      Good s k nx nz nw eta chi scale { nx := bm.bboxMax.x, nz := bm.bboxMax.z, nw := nw, eta := eta, chi := chi, scale := scale, bm := bm, lk := lk, off := off, maxMip := topLevel s } := by
  have hn := num_all (Nat.two_pow_pos k) bm hm
  obtain ⟨a, ha⟩ : ∃ a, nx = 2 * a := ⟨nx / 2, by have := hf.even.1; omega⟩
  obtain ⟨b, hb⟩ : ∃ b, nz = 2 * b := ⟨nz / 2, by have := hf.even.2; omega⟩
  have ha' : (nx : Int) = 2 * a := by exact_mod_cast ha
  have hb' : (nz : Int) = 2 * b := by exact_mod_cast hb
  obtain ⟨lk, l1, l2, l3, l4⟩ := C09_packed2 s.E a b hf.entry.1 hf.entry.2 (by
    rw [← ha', ← hb']
    refine le_trans ?_ hf.size.2.2.2
    have h1 : (1 : Int) ≤ ((2 ^ k : Nat) : Int) * ((2 ^ k : Nat) : Int) := by
      have : 0 < 2 ^ k * 2 ^ k := by positivity
      exact_mod_cast this
    nlinarith [mul_nonneg (Int.natCast_nonneg nx) (Int.natCast_nonneg nz)])
  rw [← ha', ← hb'] at l1 l2 l3 l4
  obtain ⟨t1, t2⟩ := top_le hf
  have hml : maxLevel s.levels s.num = .ok ((topLevel s : Nat) : Int) :=
    maxLevel_go s.levels (fun l hl => (hf.levelRange l hl).1) _ (fun i hi => by
      have := hf.levels; have := List.mem_range.1 hi; omega) 0
  have hoff : mipOffsets s.E (2 ^ k) 2 bm.numActive (topLevel s) =
      .ok (fillOffsets (2 ^ k) 2 bm.numActive (topLevel s + 1) 0 0 (fun _ => 0)) := by
    unfold mipOffsets; rw [if_neg (by omega)]
  refine ⟨lk, _, hml, by rw [hm.dims]; exact l1, by rw [hf.block]; exact hoff, ?_⟩
  refine ⟨?_, ?_, rfl, rfl, rfl, rfl, hm, hn, l2, ?_, ?_, hoff, rfl⟩
  · show bm.bboxMax.x = _; rw [hm.bbox]
  · show bm.bboxMax.z = _; rw [hm.bbox]
  · intro c c' h1 h2 h3 h4 h5 h6 h7 h8 he
    obtain ⟨r1, r2⟩ := l2 c h1 h2 h3 h4
    obtain ⟨q, -, hq⟩ := l3 _ r1 r2
    exact (hq c ⟨⟨h1, h2, h3, h4⟩, rfl⟩).trans (hq c' ⟨⟨h5, h6, h7, h8⟩, he.symm⟩).symm
  · intro vals hv; exact l4 vals (by rw [hv, ha, hb])

/-- What holds of the state at the start: the cells of the grid have the conditions of the file, LTE populations and the
neutral hydrogen density `h`. -/
structure Cells (r : Lte) (k nx nz : Nat) (a : Cond) (h : Coord2 → ℝ) (pf : Coord2 → Emis.Pops) (st : Started) : Prop where
  good : Good r.s k nx nz r.ad.wavelength.length (fun _ _ => 0) (fun _ _ => 0) a.scale st.g
  offset : ![st.atmos.offsetX, st.atmos.offsetY, st.atmos.offsetZ] = a.offset
  point : ∀ c, Given.InGrid k nx nz c → ∀ adr, Addr2 (2 ^ k) st.g.bm c adr → pointAt st adr.toNat = LteRun.point a h 0 c
  vel : ∀ c, Given.InGrid k nx nz c → ∀ adr, Addr2 (2 ^ k) st.g.bm c adr →
    (st.atmos.vx adr.toNat, st.atmos.vy adr.toNat, st.atmos.vz adr.toNat) = (a.vx c, a.vy c, a.vz c)
  pops : ∀ c, Given.InGrid k nx nz c → ∀ adr, Addr2 (2 ^ k) st.g.bm c adr → ∀ ia at', r.ad.atoms[ia]? = some at' → ∀ l, l < at'.top + 1 →
    popsAt r.ad st.pops adr.toNat ia l = pf c ia l
  neutral : NeutralOf r k nx nz a pf h

theorem addr_unique (B : Nat) (bm : BlockMap Coord2) (c : Coord2) (x y : Int) (h1 : Addr2 B bm c x) (h2 : Addr2 B bm c y) : x = y := by
  obtain ⟨s, e⟩ := h1
  obtain ⟨s', e'⟩ := h2
  rw [e] at e'; injection e' with e'; injection e'

/-- the cells of the grid and the addresses -/
theorem cells_addr {s : Settings} (hf : Fits s k nx nz) (bm : BlockMap Coord2) (hm : MapFor2 (2 ^ k) nx nz (fun _ => True) bm) (c : Coord2)
    (hc : Given.InGrid k nx nz c) : HasData2 (2 ^ k) nx nz (fun _ => True) c ∧ (∃ adr, Addr2 (2 ^ k) bm c adr) ∧
      ∀ adr, Addr2 (2 ^ k) bm c adr → 0 ≤ adr ∧ adr.toNat < nx * nz * (2 ^ k * 2 ^ k) := by
  obtain ⟨q1, q2⟩ := hasData hf c hc.1 hc.2.1 hc.2.2.1 hc.2.2.2
  have hd : HasData2 (2 ^ k) nx nz (fun _ => True) c := ⟨_, q1, trivial, q2⟩
  have H := iterSpace2 k nx nz (fun _ => True) bm (axes hf).1 (axes hf).2 hm
  obtain ⟨p, hp, hpc⟩ := H.ontoC c hd
  obtain ⟨c', e, -, ha⟩ := H.co p hp
  rw [hpc] at e; injection e with e; subst e
  refine ⟨hd, ⟨_, ha⟩, fun adr hadr => ?_⟩
  rw [addr_unique _ _ _ _ _ hadr ha]
  obtain ⟨h1, h2⟩ := H.rng p hp
  refine ⟨h1, ?_⟩
  unfold numActiveCells at h2
  rw [num_all (Nat.two_pow_pos k) bm hm] at h2
  zify; rw [Int.toNat_of_nonneg h1]; push_cast at h2 ⊢; exact h2

theorem field_get {W : Type} {f : NcFile Coord2 W} {cv : W → ℝ} {name : String} {x : Coord2 → ℝ} (h : HasField f cv name x) (c : Coord2) (y : ℝ)
    (hy : (f.grid name).map (fun v => cv (v c)) = some y) : y = x c := by
  obtain ⟨v, h1, h2⟩ := h
  rw [h1] at hy
  rw [h2]; exact (Option.some.inj hy).symm

theorem offset_get {W : Type} {f : NcFile Coord2 W} {cv : W → ℝ} {name : String} {x y : ℝ} (h : HasOffset f cv name x)
    (hy : (∀ w, f.scalar name = some w → y = cv w) ∧ (f.scalar name = none → y = 0)) : y = x := by
  rcases h with ⟨h1, h2⟩ | ⟨v, h1, h2⟩
  · rw [hy.2 h1, h2]
  · rw [hy.1 v h1, h2]

theorem start_ok {W : Type} {cv : W → ℝ} {f : NcFile Coord2 W} (hf : Fits r.s k nx nz) (hr : Ready r) (hd : Describes f cv (2 ^ k) nx nz a)
    (hw : r.haveH = false → Warm k nx nz a) (o : StartOrder) (ho : StartOrders r k nx nz o) :
    ∃ st h, start2 r cv f o = .ok st ∧ Cells r k nx nz a h (ltePop r a) st ∧ PopsField.HasRows (fieldAtoms r.ad) st.pops ∧
      st.pops.cols = nx * nz * (2 ^ k * 2 ^ k) := by
  obtain ⟨bm, at', temp, t1, l1, l2, l3, l4, -⟩ := C81_dense2 k nx nz hf.size (axes hf).1 (axes hf).2 realOps (fun _ => True) realLaws cv
    (fun x => decide (x = 0)) f hd.dense r.cutoff o.load ho.load o.junk
  have hact : (fun t => (decide (r.cutoff = 0)) = true ∨ HasColdCell2 (2 ^ k) (fun z x => cv (temp { x := x, z := z })) r.cutoff t) = fun _ => True := by
    funext t; simp [hr.cutoff]
  simp only [hact] at l2 l3
  have hsc : at'.voxelScale = a.scale := by
    obtain ⟨v, v1, v2⟩ := hd.scale
    have := l4.voxelScale
    rw [v1] at this
    rw [v2]; exact (Option.some.inj this).symm
  obtain ⟨lk, off, g1, g2, g3, g4⟩ := good_of_map hf bm l2 r.ad.wavelength.length (fun _ _ => 0) (fun _ _ => 0) a.scale
  have hcols : (numActiveCells ((r.s.B : Int) * (r.s.B : Int)) bm).toNat = nx * nz * (2 ^ k * 2 ^ k) := by
    unfold numActiveCells
    rw [num_all (Nat.two_pow_pos k) bm l2, hf.block]
    exact_mod_cast Int.toNat_natCast (nx * nz * (2 ^ k * 2 ^ k))
  obtain ⟨p0, hp0⟩ : ∃ p0 : PopsField.Pops, p0 = ⟨((fieldAtoms r.ad).map fun a => a.n + 1).sum, nx * nz * (2 ^ k * 2 ^ k), o.oldPops⟩ := ⟨_, rfl⟩
  obtain ⟨q, q1, q2, q3, q4, -⟩ := PopsField.C83_lte (kB := r.k.kB) (dbc := r.k.dbc) (fmin := r.k.fmin) (f := popAtmos at') (p := p0) (atoms := fieldAtoms r.ad)
    (by rw [hp0]; rfl) o.pops (by rw [hp0]; exact ho.pops)
  have hqc : q.cols = nx * nz * (2 ^ k * 2 ^ k) := by rw [q3, hp0]
  have hcell : ∀ c, Given.InGrid k nx nz c → ∀ adr, Addr2 (2 ^ k) bm c adr → 0 ≤ adr ∧ adr.toNat < nx * nz * (2 ^ k * 2 ^ k) ∧
      CellIs cv realOps.zero f.grid at' c ((adr.toNat : Nat) : Int) := by
    intro c hc adr hadr
    obtain ⟨c1, -, c3⟩ := cells_addr hf bm l2 c hc
    obtain ⟨b1, b2⟩ := c3 adr hadr
    refine ⟨b1, b2, ?_⟩
    rw [Int.toNat_of_nonneg b1]
    exact l3 c c1 adr hadr
  have hpops : ∀ c, Given.InGrid k nx nz c → ∀ adr, Addr2 (2 ^ k) bm c adr → ∀ ia x, r.ad.atoms[ia]? = some x → ∀ l, l < x.top + 1 →
      popsAt r.ad q adr.toNat ia l = ltePop r a c ia l := by
    intro c hc adr hadr ia x hx l hl
    obtain ⟨b1, b2, b3⟩ := hcell c hc adr hadr
    have := q4 ia ⟨x.abundance, x.top, x.lv⟩ (by unfold fieldAtoms; rw [List.getElem?_map, hx]; rfl) ⟨l, hl⟩ adr.toNat (by rw [hp0]; exact b2)
    unfold PopsField.popOf at this
    unfold popsAt ltePop EmisSpec.lte
    rw [hx]
    simp only [Option.bind_some, hl, dif_pos, Option.getD_some]
    rw [this]
    show Lte.ltePops _ _ _ _ (at'.temperature _) (at'.ne _) (_ * at'.nhTot _) _ = _
    rw [field_get hd.temperature c _ b3.temperature, field_get hd.ne c _ b3.ne, field_get hd.nhTot c _ b3.nhTot]
    rfl
  obtain ⟨m, m1, m2⟩ : ∃ m, PopsField.computeNh0 r.sahaConst r.ionE r.haveH (popAtmos at') q o.nh0 o.oldNh0 = .ok m ∧
      ∀ c, Given.InGrid k nx nz c → ∀ adr, Addr2 (2 ^ k) bm c adr →
        if r.haveH then m adr.toNat = ltePop r a c 0 0
        else 0 ≤ m adr.toNat ∧ m adr.toNat ≤ a.nhTot c ∧
          ∃ u, interp (some (Real.logb 10 (a.temperature c))) (Lte.scaled Lte.logTData) (Lte.scaled Lte.partFnData) = .ok u ∧
            (a.nhTot c - m adr.toNat) * a.ne c * u = m adr.toNat * 2 * (r.sahaConst * a.temperature c) ^ (3 / 2 : ℝ) * Real.exp (-r.ionE / a.temperature c) := by
    by_cases hh : r.haveH = true
    · obtain ⟨x, xs, hx⟩ := List.exists_cons_of_ne_nil (hr.hydrogen hh)
      obtain ⟨m, m1, m2⟩ := PopsField.C83_nh0_model (sahaConst := r.sahaConst) (ionE := r.ionE) (f := popAtmos at') (atoms := fieldAtoms r.ad) (p := q)
        (by rw [q2, hp0]; simp [fieldAtoms, hx]) o.nh0 (by rw [hqc]; exact ho.nh0) o.oldNh0
      refine ⟨m, by rw [hh]; exact m1, fun c hc adr hadr => ?_⟩
      rw [if_pos hh, m2 _ (by rw [hqc]; exact (hcell c hc adr hadr).2.1)]
      exact hpops c hc adr hadr 0 x (by rw [hx]; rfl) 0 (by omega)
    · have hh' : r.haveH = false := by simpa using hh
      have hwarm := hw hh'
      have hall : ∀ ks, ks < q.cols → ∃ c, Given.InGrid k nx nz c ∧ Addr2 (2 ^ k) bm c ((ks : Nat) : Int) := by
        intro ks hks
        have H := iterSpace2 k nx nz (fun _ => True) bm (axes hf).1 (axes hf).2 l2
        obtain ⟨p, hp, e⟩ := H.ontoN (ks : Nat) (by positivity) (by
          unfold numActiveCells
          rw [num_all (Nat.two_pow_pos k) bm l2]
          rw [hqc] at hks
          exact_mod_cast hks)
        obtain ⟨c, c1, c2, c3⟩ := H.co p hp
        refine ⟨c, ?_, by rw [← e]; exact c3⟩
        have := hasData2_inGrid _ nx nz _ c c2
        unfold InGrid2 at this
        unfold Given.InGrid
        push_cast at this ⊢
        exact ⟨this.1.1, this.1.2, this.2.1, this.2.2⟩
      obtain ⟨m, m1, m2⟩ := PopsField.C83_nh0_lte (sahaConst := r.sahaConst) (ionE := r.ionE) (f := popAtmos at') (p := q) hr.saha (fun ks hks => by
          obtain ⟨c, c1, c2⟩ := hall ks hks
          obtain ⟨-, -, b3⟩ := hcell c c1 _ c2
          rw [Int.toNat_natCast] at b3
          show 0 < at'.temperature _ ∧ 0 < at'.ne _ ∧ 0 ≤ at'.nhTot _
          rw [field_get hd.temperature c _ b3.temperature, field_get hd.ne c _ b3.ne, field_get hd.nhTot c _ b3.nhTot]
          exact hwarm c c1) o.nh0 (by rw [hqc]; exact ho.nh0) o.oldNh0
      refine ⟨m, by rw [hh']; exact m1, fun c hc adr hadr => ?_⟩
      rw [if_neg hh]
      obtain ⟨b1, b2, b3⟩ := hcell c hc adr hadr
      have := m2 adr.toNat (by rw [hqc]; exact b2)
      simp only [popAtmos] at this
      rw [field_get hd.temperature c _ b3.temperature, field_get hd.ne c _ b3.ne, field_get hd.nhTot c _ b3.nhTot] at this
      exact this
  obtain ⟨h, hh⟩ : ∃ h : Coord2 → ℝ, ∀ c, Given.InGrid k nx nz c → ∀ adr, Addr2 (2 ^ k) bm c adr → m adr.toNat = h c := by
    refine ⟨fun c => if e : ∃ adr, Addr2 (2 ^ k) bm c adr then m (Classical.choose e).toNat else 0, fun c hc adr hadr => ?_⟩
    have e : ∃ adr, Addr2 (2 ^ k) bm c adr := ⟨adr, hadr⟩
    simp only [e, dif_pos]
    rw [addr_unique _ _ _ _ _ hadr (Classical.choose_spec e)]
  refine ⟨{ g := { nx := bm.bboxMax.x, nz := bm.bboxMax.z, nw := r.ad.wavelength.length, eta := fun _ _ => 0, chi := fun _ _ => 0, scale := a.scale, bm := bm, lk := lk, off := off, maxMip := topLevel r.s }, atmos := at', pops := q, nh0 := m }, h, ?_, ?_⟩
  · unfold start2
    rw [hf.block]
    simp only [g1, Outcome.ok_bind, l1, g2, Int.toNat_natCast]
    rw [hf.block] at g3 hcols
    simp only [g3, Outcome.ok_bind, hcols]
    rw [← hp0, q1]
    simp only [Outcome.ok_bind, m1, hsc]
  · refine ⟨⟨g4, ?_, fun c hc adr hadr => ?_, fun c hc adr hadr => ?_, hpops, fun c hc => ?_⟩, by rw [hp0] at q2; exact q2, hqc⟩
    · have o0 := offset_get hd.offset.1 l4.offsetX
      have o1 := offset_get hd.offset.2.1 l4.offsetY
      have o2 := offset_get hd.offset.2.2 l4.offsetZ
      funext i
      fin_cases i
      · exact o0
      · exact o1
      · exact o2
    · obtain ⟨b1, b2, b3⟩ := hcell c hc adr hadr
      unfold pointAt LteRun.point
      show Point.mk (at'.temperature _) (at'.ne _) (at'.vturb _) (at'.nhTot _) 0 (m adr.toNat) = _
      rw [field_get hd.temperature c _ b3.temperature, field_get hd.ne c _ b3.ne, field_get hd.nhTot c _ b3.nhTot, field_get hd.vturb c _ b3.vturb, hh c hc adr hadr]
    · obtain ⟨b1, b2, b3⟩ := hcell c hc adr hadr
      show (at'.vx _, at'.vy _, at'.vz _) = _
      rw [field_get hd.vx c _ b3.vx, field_get hd.vy c _ b3.vy, field_get hd.vz c _ b3.vz]
    · obtain ⟨-, ⟨adr, hadr⟩, -⟩ := cells_addr hf bm l2 c hc
      have := m2 c hc adr hadr
      rw [hh c hc adr hadr] at this
      exact this

end DexRT.LteRun
