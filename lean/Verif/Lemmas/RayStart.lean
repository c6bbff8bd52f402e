import Verif.Spec.RayRun
import Verif.Lemmas.LteStart
import Verif.Props.AtmosFile
import Verif.Props.MultiLevel
/-! Lemmas for C87: the map, the kernels over cells, and the lookups of the traversal. -/
namespace DexRT.RayRun
open DexRT DexRT.AtmosFile DexRT.Emis DexRT.Ray DexRT.LteRun Classical

variable {t : Tool} {k nx nz : Nat} {a : Cond}

theorem tile_of (k nx nz : Nat) (c : Coord2) (hc : Given.InGrid k nx nz c) :
    GridTile2 (2 ^ k) (nx * (2 ^ k : Nat)) (nz * (2 ^ k : Nat)) ⟨c.x / (2 ^ k : Nat), c.z / (2 ^ k : Nat)⟩ ∧
      InTile2 (2 ^ k) ⟨c.x / (2 ^ k : Nat), c.z / (2 ^ k : Nat)⟩ c := by
  obtain ⟨h1, h2, h3, h4⟩ := hc
  have hp : (0 : Int) < ((2 ^ k : Nat) : Int) := by exact_mod_cast Nat.two_pow_pos k
  rw [Nat.cast_mul] at h2 h4
  unfold GridTile2 InTile2
  simp only
  generalize ((2 ^ k : Nat) : Int) = P at *
  have ex := Int.mul_ediv_add_emod c.x P
  have ez := Int.mul_ediv_add_emod c.z P
  have rx := Int.emod_nonneg c.x (ne_of_gt hp)
  have rz := Int.emod_nonneg c.z (ne_of_gt hp)
  have sx := Int.emod_lt_of_pos c.x hp
  have sz := Int.emod_lt_of_pos c.z hp
  refine ⟨⟨Int.ediv_nonneg h1 hp.le, by nlinarith, Int.ediv_nonneg h3 hp.le, by nlinarith⟩, by nlinarith, by nlinarith, by nlinarith, by nlinarith⟩

/-- kept cells are the cells with data -/
theorem kept_iff (t : Tool) (k nx nz : Nat) (a : Cond) (c : Coord2) :
    Kept2 t k nx nz a c ↔ HasData2 (2 ^ k) nx nz (ActiveTile t k a) c := by
  constructor
  · rintro ⟨h1, h2⟩
    obtain ⟨g1, g2⟩ := tile_of k nx nz c h1
    exact ⟨_, g1, h2, g2⟩
  · rintro ⟨tl, g1, g2, g3⟩
    have hin : Given.InGrid k nx nz c := by
      have := hasData2_inGrid _ nx nz _ c ⟨tl, g1, g2, g3⟩
      unfold InGrid2 at this
      unfold Given.InGrid
      push_cast at this ⊢
      exact ⟨this.1.1, this.1.2, this.2.1, this.2.2⟩
    obtain ⟨q1, q2⟩ := tile_of k nx nz c hin
    have : tl = ⟨c.x / (2 ^ k : Nat), c.z / (2 ^ k : Nat)⟩ :=
      ((tileOf2_iff k c tl).2 g3).symm.trans ((tileOf2_iff k c _).2 q2)
    exact ⟨hin, this ▸ g2⟩

/-- the map the loader builds depends on the file only -/
theorem load_map {W : Type} {cv : W → ℝ} {f : NcFile Coord2 W} (hd : Describes f cv (2 ^ k) nx nz a) (cutoff : ℝ) (sc : Sched Coord2)
    (junk : Atmos Int ℝ) (bm : BlockMap Coord2) (at' : Atmos Int ℝ)
    (h : load2 (2 ^ k) realOps cv (fun x => decide (x = 0)) f cutoff sc junk = .ok (bm, at')) :
    setupSparse2 (2 ^ k) (nx * (2 ^ k : Nat)) (nz * (2 ^ k : Nat)) (fun z x => a.temperature ⟨x, z⟩) cutoff (decide (cutoff = 0)) = .ok bm := by
  obtain ⟨hsp, hdx, hdz, hc⟩ := hd.dense
  have hsp' : AtmosFile.isSparse f = .ok false := by
    unfold AtmosFile.isSparse
    rcases hsp with h | h <;> rw [h]
    rfl
  unfold load2 loadDense2 at h
  rw [hsp', hdx, hdz] at h
  simp only [need, Outcome.ok_bind, Bool.false_eq_true, if_false] at h
  obtain ⟨p, h0, h⟩ := AtmosFile.obind h
  obtain ⟨a0, h1, h0⟩ := AtmosFile.obind h0
  obtain rfl := Outcome.ok.inj h0
  simp only at h
  obtain ⟨b, h2, h⟩ := AtmosFile.obind h
  obtain ⟨s, h3, h⟩ := AtmosFile.obind h
  obtain ⟨rfl, -⟩ := Prod.mk.inj (Outcome.ok.inj h)
  have hr := readFields_is _ _ _ _ _ _ h1
  have hT : ∀ c, a0.temperature c = a.temperature c := fun c => field_get hd.temperature c _ (hr.temperature c)
  simp only [hT] at h2
  exact h2

/-- the loaded atmosphere -/
theorem load_cells {W : Type} {cv : W → ℝ} {f : NcFile Coord2 W} (hf : RayFits t k nx nz) (hd : Describes f cv (2 ^ k) nx nz a) (sc : Sched Coord2)
    (hs : GoodSched (2 ^ k * 2 ^ k) inDims2 sc) (junk : Atmos Int ℝ) :
    ∃ bm s, load2 (2 ^ k) realOps cv (fun x => decide (x = 0)) f t.cutoff sc junk = .ok (bm, s) ∧ MapFor2 (2 ^ k) nx nz (ActiveTile t k a) bm ∧
      (∀ c, HasData2 (2 ^ k) nx nz (ActiveTile t k a) c → ∀ adr, Addr2 (2 ^ k) bm c adr → s.temperature adr = a.temperature c ∧ s.ne adr = a.ne c ∧
        s.nhTot adr = a.nhTot c ∧ s.vturb adr = a.vturb c ∧ s.vx adr = a.vx c ∧ s.vy adr = a.vy c ∧ s.vz adr = a.vz c) ∧
      s.voxelScale = a.scale ∧ s.offsetX = a.offset 0 ∧ s.offsetZ = a.offset 2 := by
  obtain ⟨bm, s, temp, htemp, hl, hm, hcell, hsc, -⟩ := C81_dense2 k nx nz hf.size hf.axes.1 hf.axes.2 realOps _ realLaws cv (fun x => decide (x = 0)) f
    hd.dense t.cutoff sc hs junk
  have hAct : (fun tl => decide (t.cutoff = 0) = true ∨ HasColdCell2 (2 ^ k) (fun z x => cv (temp { x := x, z := z })) t.cutoff tl) = ActiveTile t k a := by
    funext tl
    unfold ActiveTile
    rw [decide_eq_true_iff]
    have : (fun z x => cv (temp { x := x, z := z })) = fun z x => a.temperature ⟨x, z⟩ := by
      funext z x
      exact field_get hd.temperature ⟨x, z⟩ _ (by rw [htemp]; rfl)
    rw [this]
  simp only [hAct] at hm hcell
  refine ⟨bm, s, hl, hm, fun c hc adr hadr => ?_, ?_, ?_, ?_⟩
  · have h := hcell c hc adr hadr
    exact ⟨field_get hd.temperature c _ h.temperature, field_get hd.ne c _ h.ne, field_get hd.nhTot c _ h.nhTot, field_get hd.vturb c _ h.vturb,
      field_get hd.vx c _ h.vx, field_get hd.vy c _ h.vy, field_get hd.vz c _ h.vz⟩
  · obtain ⟨v, h1, h2⟩ := hd.scale
    have := hsc.voxelScale
    rw [h1] at this
    rw [h2]; exact (Option.some.inj this).symm
  · exact offset_get hd.offset.1 hsc.offsetX
  · exact offset_get hd.offset.2.2 hsc.offsetZ

/-- a kernel that writes one element per cell of the map -/
theorem cells2_ok {V : Type} {Active : Coord2 → Prop} (hx : FitsI32Axis k nx) (hz : FitsI32Axis k nz) (bm : BlockMap Coord2) (hm : MapFor2 (2 ^ k) nx nz Active bm)
    (val : Coord2 → Nat → Outcome V) (field : Coord2 → V)
    (hv : ∀ c, HasData2 (2 ^ k) nx nz Active c → ∀ adr, Addr2 (2 ^ k) bm c adr → val c adr.toNat = .ok (field c))
    (sched : List (Nat × Int)) (hs : sched.Perm (loopIters (2 ^ k * 2 ^ k) bm)) (old : Int → V) :
    ∃ m, cells2 (2 ^ k) bm val sched old = .ok m ∧ ∀ c, HasData2 (2 ^ k) nx nz Active c → ∀ adr, Addr2 (2 ^ k) bm c adr → m adr = field c := by
  have H := iterSpace2 k nx nz Active bm hx hz hm
  obtain ⟨F, hF⟩ : ∃ F : Nat × Int → Outcome (Int × V), F = fun p => (do
        let ks := (geo2 (2 ^ k)).loopIdx p.1 p.2
        let c ← loopCoord2 (2 ^ k) bm p.1 p.2
        if ¬ (0 ≤ ks ∧ ks < numActiveCells (((2 ^ k : Nat) : Int) * ((2 ^ k : Nat) : Int)) bm) then .ub
        else do
          let v ← val c ks.toNat
          .ok (ks, v)) := ⟨_, rfl⟩
  have hstep : ∀ p ∈ sched, ∃ c, HasData2 (2 ^ k) nx nz Active c ∧ loopCoord2 (2 ^ k) bm p.1 p.2 = .ok c ∧
      Addr2 (2 ^ k) bm c ((geo2 (2 ^ k)).loopIdx p.1 p.2) ∧ F p = .ok ((geo2 (2 ^ k)).loopIdx p.1 p.2, field c) := by
    intro p hp
    have hp' := hs.mem_iff.1 hp
    obtain ⟨c, c1, c2, c3⟩ := H.co p hp'
    obtain ⟨r1, r2⟩ := H.rng p hp'
    refine ⟨c, c2, c1, c3, ?_⟩
    rw [hF]
    simp only [c1, Outcome.ok_bind]
    rw [if_neg (not_not.2 ⟨r1, r2⟩), hv c c2 _ c3]
    rfl
  obtain ⟨m, e, -, e3⟩ := writeLoop_spec F sched old (fun p hp => by
    obtain ⟨c, -, -, -, e⟩ := hstep p hp
    exact ⟨_, _, e⟩)
  refine ⟨m, by rw [hF] at e; exact e, fun c hc adr hadr => ?_⟩
  obtain ⟨p, hp, hpc⟩ := H.ontoC c hc
  have hp' := hs.mem_iff.2 hp
  obtain ⟨c', d1, d2, d3, d4⟩ := hstep p hp'
  have e' : c' = c := by rw [hpc] at d2; exact (Outcome.ok.inj d2).symm
  subst e'
  refine e3 adr (field c') ⟨p, hp', field c', ?_⟩ ?_
  · rw [d4, H.fn _ _ _ hadr d3]
  · intro q hq v hqv
    obtain ⟨c2, q1, q2, q3, q4⟩ := hstep q hq
    rw [q4] at hqv
    injection hqv with hqv
    injection hqv with h1 h2
    have hpq : p = q := H.injI p hp q (hs.mem_iff.1 hq) (by rw [h1]; exact H.fn _ _ _ d3 hadr)
    subst hpq
    rw [hpc] at q2
    rw [← h2, Outcome.ok.inj q2]

/-- levels of the tiles: 0 with data, none without -/
noncomputable def tileLevel (t : Tool) (k : Nat) (a : Cond) (tl : Coord2) : Int := if ActiveTile t k a tl then 0 else -1

theorem grid_iff (tl : Coord2) : GridTile2 (2 ^ k) (nx * (2 ^ k : Nat)) (nz * (2 ^ k : Nat)) tl ↔ 0 ≤ tl.x ∧ tl.x < nx ∧ 0 ≤ tl.z ∧ tl.z < nz := by
  have hp : (0 : Int) < ((2 ^ k : Nat) : Int) := by exact_mod_cast Nat.two_pow_pos k
  unfold GridTile2
  constructor
  · rintro ⟨a, b, c, d⟩
    exact ⟨a, lt_of_mul_lt_mul_right b hp.le, c, lt_of_mul_lt_mul_right d hp.le⟩
  · rintro ⟨a, b, c, d⟩
    exact ⟨a, mul_lt_mul_of_pos_right b hp, c, mul_lt_mul_of_pos_right d hp⟩

/-- the multi-level map the tool makes -/
theorem configure_ok (hf : RayFits t k nx nz) (bm : BlockMap Coord2) (hm : MapFor2 (2 ^ k) nx nz (ActiveTile t k a) bm) (sched : List Nat)
    (hs : sched.Perm (List.range bm.activeTiles.length)) :
    ∃ lk lk' off, MLLookup.init2 t.E bm.dims = .ok lk ∧ mipOffsets t.E (2 ^ k) 2 bm.numActive 0 = .ok off ∧ off 0 = 0 ∧
      configure t.E bm lk sched = .ok lk' ∧
      LevelsFor (GridTile2 (2 ^ k) (nx * (2 ^ k : Nat)) (nz * (2 ^ k : Nat))) (ActiveTile t k a)
        { bm := bm, off := off, maxStore := 2 ^ t.E - 1, get := fun c => lk'.get t.E (lk'.flat2 c) } (tileLevel t k a) := by
  obtain ⟨ax, hax⟩ := hf.even.1
  obtain ⟨az, haz⟩ := hf.even.2
  have hcap : (2 * ax : Int) * (2 * az) ≤ i32Max := by
    obtain ⟨s1, s2, s3, s4⟩ := hf.size
    have e1 : (nx : Int) = 2 * ax := by rw [hax]; push_cast; ring
    have e2 : (nz : Int) = 2 * az := by rw [haz]; push_cast; ring
    rw [← e1, ← e2]
    have hp : (1 : Int) ≤ ((2 ^ k : Nat) : Int) * ((2 ^ k : Nat) : Int) := by
      have : (1 : Int) ≤ ((2 ^ k : Nat) : Int) := by exact_mod_cast Nat.two_pow_pos k
      nlinarith
    have h0 : (0 : Int) ≤ (nx : Int) * nz := by positivity
    nlinarith
  obtain ⟨lk, i1, i2, i3, i4⟩ := C09_packed2 t.E ax az hf.entry.1 hf.entry.2 hcap
  have e1 : (nx : Int) = 2 * ax := by rw [hax]; push_cast; ring
  have e2 : (nz : Int) = 2 * az := by rw [haz]; push_cast; ring
  rw [← e1, ← e2] at i1 i2 i3 i4
  have hE : 2 ≤ 2 ^ t.E := by
    calc 2 = 2 ^ 1 := rfl
      _ ≤ 2 ^ t.E := Nat.pow_le_pow_right (by norm_num) hf.entry.1
  have hoff : ∃ off, mipOffsets t.E (2 ^ k) 2 bm.numActive 0 = .ok off ∧ off 0 = 0 := by
    refine ⟨fillOffsets (2 ^ k) 2 bm.numActive (0 + 1) 0 0 (fun _ => 0), by unfold mipOffsets; rw [if_neg (by omega)], ?_⟩
    have := fillOffsets_spec (2 ^ k) 2 bm.numActive (0 + 1) 0 (fun _ => 0) 0
    rw [if_pos ⟨le_rfl, by omega⟩] at this
    exact this
  obtain ⟨off, o1, o2⟩ := hoff
  have hN : bm.dims.x * bm.dims.z = (nx : Int) * nz := by rw [hm.dims]
  obtain ⟨F, hF⟩ : ∃ F : Nat → Outcome (Int × Int), F = fun i => (do
      let m ← readAt bm.activeTiles i
      let key := lk.flat2 (decodeMorton2 m)
      if 0 ≤ key ∧ key < bm.dims.x * bm.dims.z then .ok (key, 1) else .ub) := ⟨_, rfl⟩
  have hFi : ∀ i (hi : i < bm.activeTiles.length), F i = .ok (lk.flat2 (decodeMorton2 bm.activeTiles[i]), 1) := by
    intro i hi
    obtain ⟨p, q, r, s⟩ := grid_iff _ |>.1 (hm.numbering.listed i hi).1
    obtain ⟨r1, r2⟩ := i2 _ p q r s
    rw [hF]
    simp only [readAt, List.getElem?_eq_getElem hi, Outcome.ok_bind]
    rw [if_pos ⟨r1, by rw [hN]; exact r2⟩]
  have hmem : ∀ i ∈ sched, i < bm.activeTiles.length := fun i hi => List.mem_range.1 (hs.mem_iff.1 hi)
  have hinj : ∀ c d, GridTile2 (2 ^ k) (nx * (2 ^ k : Nat)) (nz * (2 ^ k : Nat)) c → GridTile2 (2 ^ k) (nx * (2 ^ k : Nat)) (nz * (2 ^ k : Nat)) d →
      lk.flat2 c = lk.flat2 d → c = d := by
    intro c d hc hd' he
    obtain ⟨p1, p2, p3, p4⟩ := grid_iff _ |>.1 hc
    obtain ⟨q1, q2, q3, q4⟩ := grid_iff _ |>.1 hd'
    obtain ⟨r1, r2⟩ := i2 _ p1 p2 p3 p4
    obtain ⟨x, -, hx⟩ := i3 _ r1 r2
    rw [hx c ⟨⟨p1, p2, p3, p4⟩, rfl⟩, hx d ⟨⟨q1, q2, q3, q4⟩, he.symm⟩]
  obtain ⟨arr, a1, a2, a3⟩ := writeLoop_spec F sched (fun _ => (0 : Int)) (fun i hi => ⟨_, _, hFi i (hmem i hi)⟩)
  have harr : ∀ tl, GridTile2 (2 ^ k) (nx * (2 ^ k : Nat)) (nz * (2 ^ k : Nat)) tl → arr (lk.flat2 tl) = tileLevel t k a tl + 1 := by
    intro tl ht
    unfold tileLevel
    by_cases hA : ActiveTile t k a tl
    · rw [if_pos hA]
      obtain ⟨l0, l1⟩ := hm.numbering.active tl ht hA
      have hi : (bm.lookup tl).toNat < bm.activeTiles.length := by rw [← hm.numbering.count] at l1; omega
      obtain ⟨d1, d2, d3⟩ := hm.numbering.listed _ hi
      rw [Int.toNat_of_nonneg l0] at d3
      have hdt := hm.numbering.injective _ _ d1 ht d2 hA d3
      refine a3 _ _ ⟨(bm.lookup tl).toNat, ?_, _, by rw [hFi _ hi, hdt]⟩ ?_
      · rw [hs.mem_iff, List.mem_range]; exact hi
      · intro j hj v hv
        rw [hFi j (hmem j hj)] at hv
        injection hv with hv
        injection hv with hv1 hv2
        rw [← hv2]; rfl
    · rw [if_neg hA]
      refine a2 _ fun i hi v hv => ?_
      rw [hFi i (hmem i hi)] at hv
      injection hv with hv
      injection hv with hv1 _
      obtain ⟨d1, d2, -⟩ := hm.numbering.listed i (hmem i hi)
      exact hA (hinj _ _ d1 ht hv1 ▸ d2)
  refine ⟨lk, lk.pack t.E ((List.range (bm.dims.x * bm.dims.z).toNat).map fun j : Nat => arr (j : Int)), off, by rw [hm.dims]; exact i1, o1, o2, ?_, ?_⟩
  · show (writeLoop _ sched (fun _ => (0 : Int)) >>= fun arr => Outcome.ok (lk.pack t.E
      ((List.range (bm.dims.x * bm.dims.z).toNat).map fun j : Nat => arr (j : Int)))) = _
    rw [hF] at a1
    rw [a1]; rfl
  · refine ⟨fun tl ht => ?_, fun tl ht => ?_, fun tl ht h0 => ?_⟩
    · obtain ⟨q1, q2, q3, q4⟩ := grid_iff _ |>.1 ht
      obtain ⟨r1, r2⟩ := i2 _ q1 q2 q3 q4
      have := i4 ((List.range (bm.dims.x * bm.dims.z).toNat).map fun j : Nat => arr (j : Int))
        (by
          rw [List.length_map, List.length_range, hN, ← Nat.cast_mul, Int.toNat_natCast, hax, haz]; ring) tl q1 q2 q3 q4 (tileLevel t k a tl + 1) (by
          rw [List.getElem?_map, List.getElem?_range (by rw [hN]; omega)]
          simp only [Option.map_some, Int.toNat_of_nonneg r1]
          rw [harr tl ht])
      show MLLookup.get t.E _ (lk.flat2 tl) = _
      rw [this]
      congr 1
      unfold tileLevel
      have hp : (1 : Int) < 2 ^ t.E := by
        have : 1 < 2 ^ t.E := by omega
        exact_mod_cast this
      split
      · rw [Int.emod_eq_of_lt (by norm_num) (by simpa using hp)]
      · simp
    · unfold tileLevel
      show _ ∧ _ < ((2 ^ t.E - 1 : Nat) : Int)
      split
      · exact ⟨by norm_num, by omega⟩
      · exact ⟨le_rfl, by omega⟩
    · by_contra hn
      unfold tileLevel at h0
      rw [if_neg hn] at h0
      omega

/-- address of a cell: the multi-level and the plain index agree at level 0 -/
theorem idx_zero (hf : RayFits t k nx nz) (mr : MRMap Coord2) (hm : MapFor2 (2 ^ k) nx nz (ActiveTile t k a) mr.bm) (hoff : mr.off 0 = 0)
    (hl : LevelsFor (GridTile2 (2 ^ k) (nx * (2 ^ k : Nat)) (nz * (2 ^ k : Nat))) (ActiveTile t k a) mr (tileLevel t k a)) (hE : 0 < mr.maxStore)
    (c : Coord2) (hc : HasData2 (2 ^ k) nx nz (ActiveTile t k a) c) :
    ∃ adr s', (mgeo2 (2 ^ k)).idx mr (mgeo2 (2 ^ k)).fresh 0 c = .ok (adr, s') ∧ Addr2 (2 ^ k) mr.bm c adr := by
  obtain ⟨tl, g1, g2, g3⟩ := hc
  obtain ⟨s', e⟩ := (C07_idx2 k nx nz (ActiveTile t k a) mr (tileLevel t k a) hf.axes.1 hf.axes.2 hm hl [] (by simp) (mgeo2 (2 ^ k)).fresh rfl c tl g1 g3 0
    hE).1 g2
  refine ⟨_, s', e, ?_⟩
  have hti : tileOf2 (2 ^ k) c = tl := (tileOf2_iff k c tl).2 g3
  have hdim : inDims2 mr.bm.dims tl = true := by
    rw [hm.dims]; exact (grid2_iff (2 ^ k) nx nz (Nat.two_pow_pos k) tl).1 g1
  have h0 := (hm.numbering.active tl g1 g2).1
  have hne : ((geo2 (2 ^ k)).fresh).key ≠ tl := by
    rintro rfl
    rw [hm.dims] at hdim
    revert hdim
    show inDims2 ⟨nx, nz⟩ {} = true → False
    unfold inDims2; simp
  refine ⟨{ key := tl, base := mr.bm.lookup tl * (geo2 (2 ^ k)).cells }, ?_⟩
  unfold Geo.idx
  have hti' : (geo2 (2 ^ k)).tileOf c = tl := hti
  rw [hti', if_neg hne]
  have hr : (geo2 (2 ^ k)).read mr.bm tl = .ok (mr.bm.lookup tl) := by
    unfold Geo.read
    show (if inDims2 mr.bm.dims tl = true then _ else _) = _
    rw [if_pos hdim]
  rw [hr, Outcome.ok_bind, if_pos h0]
  show Outcome.ok (mr.bm.lookup tl * (((2 ^ k : Nat) : Int) * ((2 ^ k : Nat) : Int)) + innerOffset2 (2 ^ k) (innerOf2 (2 ^ k) c), _) = _
  congr 2
  unfold innerOffset2 innerOf2
  rw [hti, hoff]
  simp only [pow_zero, Nat.cast_one, Int.ediv_one, Nat.div_one]
  push_cast
  ring

/-- the level the traversal sees -/
theorem levelAt_ok (hf : RayFits t k nx nz) (mr : MRMap Coord2) (hm : MapFor2 (2 ^ k) nx nz (ActiveTile t k a) mr.bm)
    (hl : LevelsFor (GridTile2 (2 ^ k) (nx * (2 ^ k : Nat)) (nz * (2 ^ k : Nat))) (ActiveTile t k a) mr (tileLevel t k a)) (junk : ℤ) :
    levelAt (2 ^ k) mr junk = (rayEnv t k nx nz a).lvl := by
  funext c
  unfold levelAt
  show _ = if Kept2 t k nx nz a ⟨c 0, c 1⟩ then (0 : Int) else -1
  by_cases hfit : fitsI32 (c 0) = true ∧ fitsI32 (c 1) = true
  · rw [if_pos hfit]
    have hI : IsI32Coord2 ⟨c 0, c 1⟩ := by
      unfold fitsI32 at hfit
      simpa [IsI32Coord2] using hfit
    obtain ⟨v, w, s', e1, e2, e3⟩ := C07_level2 k nx nz (ActiveTile t k a) mr (tileLevel t k a) hf.axes.1 hf.axes.2 hm hl
      (max 0 ((match (mgeo2 (2 ^ k)).sampleLevel mr (mgeo2 (2 ^ k)).fresh ⟨c 0, c 1⟩ with | .ok (v, _) => v | _ => 0) + 1))
      (le_max_left _ _) [] (by simp) (by simp) (mgeo2 (2 ^ k)).fresh rfl ⟨c 0, c 1⟩ hI
    simp only [e1] at e3 ⊢
    have hw : w = if Kept2 t k nx nz a ⟨c 0, c 1⟩ then (0 : Int) else -1 := by
      rcases e2 with ⟨tl, t1, t2, t3⟩ | ⟨t1, t2⟩
      · rw [t3]
        unfold tileLevel
        by_cases hA : ActiveTile t k a tl
        · rw [if_pos hA, if_pos ((kept_iff _ _ _ _ _ _).2 ⟨tl, t1, hA, t2⟩)]
        · rw [if_neg hA, if_neg]
          intro hk
          obtain ⟨t', p1, p2, p3⟩ := (kept_iff _ _ _ _ _ _).1 hk
          have : tl = t' := ((tileOf2_iff k _ tl).2 t2).symm.trans ((tileOf2_iff k _ t').2 p3)
          exact hA (this ▸ p2)
      · rw [t2, if_neg]
        intro hk
        obtain ⟨t', p1, p2, p3⟩ := (kept_iff _ _ _ _ _ _).1 hk
        exact t1 _ p1 p3
    rw [← hw]
    have hw1 : w ≤ 0 := by rw [hw]; split <;> norm_num
    have h0 : w ≤ max 0 (v + 1) := le_trans hw1 (le_max_left _ _)
    have h1 : v ≤ max 0 (v + 1) := le_trans (by omega) (le_max_right _ _)
    rw [min_eq_left h0, min_eq_left h1] at e3
    exact e3
  · rw [if_neg hfit, if_neg]
    rintro ⟨⟨h1, h2, h3, h4⟩, -⟩
    apply hfit
    have hx := hf.axes.1
    have hz := hf.axes.2
    unfold FitsI32Axis at hx hz
    simp only at h1 h2 h3 h4
    rw [Nat.cast_mul] at h2 h4
    have hi : i32Max = 2147483647 := rfl
    rw [hi] at hx hz
    unfold fitsI32
    simp only [decide_eq_true_eq]
    constructor <;> constructor <;> omega

end DexRT.RayRun
