import Verif.Spec.GivenFs3
import Verif.Props.Mipmap
import Verif.Props.Sparse
import Verif.Props.MultiLevel
/-! Lemmas for C88: the arrays and the lookup of one wavelength. -/
namespace DexRT.Given3
open DexRT DexRT.Fs DexRT.AtmosFile DexRT.Dir Classical

/-- What `init_given_emis_opac` returns for a good file. -/
structure Good (s : Settings) (k nx ny nz nw : Nat) (eta chi : Coord3 → Int → ℝ) (scale : ℝ) (g : Given) : Prop where
  sx : g.nx = nx * (2 ^ k : Nat)
  sy : g.ny = ny * (2 ^ k : Nat)
  sz : g.nz = nz * (2 ^ k : Nat)
  sw : g.nw = nw
  emis : g.eta = eta
  opac : g.chi = chi
  vox : g.scale = scale
  map : MapFor3 (2 ^ k) nx ny nz (fun _ => True) g.bm
  num : g.bm.numActive = nx * ny * nz
  range : ∀ c : Coord3, 0 ≤ c.x → c.x < nx → 0 ≤ c.y → c.y < ny → 0 ≤ c.z → c.z < nz → 0 ≤ g.lk.flat3 c ∧ g.lk.flat3 c < nx * ny * nz
  pack : ∀ vals : List Int, vals.length = nx * ny * nz → ∀ c : Coord3, 0 ≤ c.x → c.x < nx → 0 ≤ c.y → c.y < ny → 0 ≤ c.z → c.z < nz → ∀ v,
    vals[(g.lk.flat3 c).toNat]? = some v → (g.lk.pack s.E vals).get s.E (g.lk.flat3 c) = .ok (v % 2 ^ s.E).toNat
  off : mipOffsets s.E (2 ^ k) 3 g.bm.numActive 0 = .ok g.off

theorem entry_two {s : Settings} {k nx ny nz : Nat} (h : Fits s k nx ny nz) : 2 ≤ 2 ^ s.E := by
  calc 2 = 2 ^ 1 := rfl
    _ ≤ 2 ^ s.E := Nat.pow_le_pow_right (by norm_num) h.entry.1

theorem cube_le {P a b c : Int} (hP : 1 ≤ P) (ha : 1 ≤ a) (hb : 1 ≤ b) (hc : 1 ≤ c) : a * P ≤ a * b * c * (P * P * P) ∧
    b * P ≤ a * b * c * (P * P * P) ∧ c * P ≤ a * b * c * (P * P * P) ∧ a * b ≤ a * b * c * (P * P * P) ∧ a * b * c ≤ a * b * c * (P * P * P) := by
  have h1 : 1 ≤ P * P := by nlinarith
  have h2 : 1 ≤ a * b := by nlinarith
  have h3 : 1 ≤ b * c := by nlinarith
  have h4 : 1 ≤ a * c := by nlinarith
  have h5 : 1 ≤ a * b * c := by nlinarith
  have h6 : 1 ≤ P * P * P := by nlinarith
  refine ⟨?_, ?_, ?_, ?_, ?_⟩
  · have : a * P * 1 ≤ a * P * (b * c * (P * P)) := mul_le_mul_of_nonneg_left (by nlinarith) (by positivity)
    nlinarith
  · have : b * P * 1 ≤ b * P * (a * c * (P * P)) := mul_le_mul_of_nonneg_left (by nlinarith) (by positivity)
    nlinarith
  · have : c * P * 1 ≤ c * P * (a * b * (P * P)) := mul_le_mul_of_nonneg_left (by nlinarith) (by positivity)
    nlinarith
  · have : a * b * 1 ≤ a * b * (c * (P * P * P)) := mul_le_mul_of_nonneg_left (by nlinarith) (by positivity)
    nlinarith
  · have : a * b * c * 1 ≤ a * b * c * (P * P * P) := mul_le_mul_of_nonneg_left h6 (by positivity)
    nlinarith

section
variable {s : Settings} {k nx ny nz nw : Nat} {eta chi : Coord3 → Int → ℝ} {scale : ℝ} {g : Given}

theorem bounds (hf : Fits s k nx ny nz) : (nx : Int) * (2 ^ k : Nat) ≤ i32Max ∧ (ny : Int) * (2 ^ k : Nat) ≤ i32Max ∧
    (nz : Int) * (2 ^ k : Nat) ≤ i32Max ∧ (nx : Int) * ny ≤ i32Max ∧ (nx : Int) * ny * nz ≤ i32Max := by
  have h := hf.size.2.2.2.2
  have hx : (1 : Int) ≤ nx := by exact_mod_cast hf.pos.1
  have hy : (1 : Int) ≤ ny := by exact_mod_cast hf.pos.2.1
  have hz : (1 : Int) ≤ nz := by exact_mod_cast hf.pos.2.2
  have hp : (1 : Int) ≤ ((2 ^ k : Nat) : Int) := by exact_mod_cast Nat.one_le_two_pow
  obtain ⟨a, b, c, d, e⟩ := cube_le hp hx hy hz
  exact ⟨a.trans h, b.trans h, c.trans h, d.trans h, e.trans h⟩

theorem init_ok {W : Type} {cv : W → ℝ} {f : NcFile (Coord3 × Int) W} (hf : Fits s k nx ny nz)
    (hh : Holds f cv (2 ^ k) nx ny nz nw eta chi scale) :
    ∃ g, initGiven3 s cv f = .ok g ∧ Good s k nx ny nz nw eta chi scale g := by
  obtain ⟨bm, b1, b2, b3, b4, -, b6⟩ := C03_dense3 (2 ^ k) nx ny nz hf.size
  obtain ⟨-, -, -, hp, hcap⟩ := bounds hf
  obtain ⟨lk, l1, l2, l3, l4⟩ := C09_packed3 s.E nx ny nz hf.entry.1 hf.entry.2 hp hcap
  have hE := entry_two hf
  obtain ⟨ea, ea1, ea2⟩ := hh.eta
  obtain ⟨ca, ca1, ca2⟩ := hh.chi
  have hoff : mipOffsets s.E (2 ^ k) 3 bm.numActive 0 = .ok (fillOffsets (2 ^ k) 3 bm.numActive (0 + 1) 0 0 (fun _ => 0)) := by
    unfold mipOffsets; rw [if_neg (by omega)]
  have hs : ((f.scalar "voxel_scale").map cv).getD 1 = scale := by
    rcases hh.scale with ⟨h1, h2⟩ | ⟨v, h1, h2⟩
    · rw [h1, h2]; rfl
    · rw [h1, h2]; rfl
  refine ⟨{ nx := nx * (2 ^ k : Nat), ny := ny * (2 ^ k : Nat), nz := nz * (2 ^ k : Nat), nw := nw, eta := fun c la => cv (ea (c, la)),
            chi := fun c la => cv (ca (c, la)), scale := scale, bm := bm, lk := lk,
            off := fillOffsets (2 ^ k) 3 bm.numActive (0 + 1) 0 0 (fun _ => 0) }, ?_, ?_⟩
  · unfold initGiven3
    simp only [hh.x, hh.y, hh.z, hh.wavelength, ea1, ca1, need, Outcome.ok_bind, hf.block, b1, b3, l1, hs, hoff]
  · refine ⟨rfl, rfl, rfl, rfl, ?_, ?_, rfl, ⟨b3, b4, b6⟩, b2, l2, l4, hoff⟩
    · funext c la; exact (ea2 c la).symm
    · funext c la; exact (ca2 c la).symm

theorem mipMap (hf : Fits s k nx ny nz) (hg : Good s k nx ny nz nw eta chi scale g) (lk : MLLookup Coord3) :
    MipMap3 s.E k nx ny nz (fun _ => True) (mrOf s g lk) 0 := by
  obtain ⟨h1, h2, h3, -, -⟩ := bounds hf
  refine ⟨hg.map, h1, h2, h3, hg.off, ?_, Nat.zero_le _⟩
  show 0 < 2 ^ s.E - 1
  have := entry_two hf; omega

theorem off_zero (hg : Good s k nx ny nz nw eta chi scale g) : g.off 0 = 0 := by
  have := hg.off
  unfold mipOffsets at this
  split at this
  · simp at this
  · injection this with this
    rw [← this]
    have := fillOffsets_spec (2 ^ k) 3 g.bm.numActive (0 + 1) 0 (fun _ => 0) 0
    rw [if_pos ⟨le_rfl, by omega⟩] at this
    exact this

theorem grid_iff (t : Coord3) : GridTile3 (2 ^ k) (nx * (2 ^ k : Nat)) (ny * (2 ^ k : Nat)) (nz * (2 ^ k : Nat)) t ↔
    0 ≤ t.x ∧ t.x < nx ∧ 0 ≤ t.y ∧ t.y < ny ∧ 0 ≤ t.z ∧ t.z < nz := by
  have hp : (0 : Int) < ((2 ^ k : Nat) : Int) := by exact_mod_cast Nat.two_pow_pos k
  unfold GridTile3
  constructor
  · rintro ⟨a, b, c, d, e, f⟩
    exact ⟨a, lt_of_mul_lt_mul_right b hp.le, c, lt_of_mul_lt_mul_right d hp.le, e, lt_of_mul_lt_mul_right f hp.le⟩
  · rintro ⟨a, b, c, d, e, f⟩
    exact ⟨a, mul_lt_mul_of_pos_right b hp, c, mul_lt_mul_of_pos_right d hp, e, mul_lt_mul_of_pos_right f hp⟩

theorem axis_tile (P n v : Int) (hP : 0 < P) (h1 : 0 ≤ v) (h2 : v < n * P) :
    0 ≤ v / P ∧ v / P < n ∧ v / P * P ≤ v ∧ v < (v / P + 1) * P := by
  have e := Int.mul_ediv_add_emod v P
  have r := Int.emod_nonneg v (ne_of_gt hP)
  have u := Int.emod_lt_of_pos v hP
  refine ⟨Int.ediv_nonneg h1 hP.le, (Int.ediv_lt_iff_lt_mul hP).2 h2, by nlinarith, by nlinarith⟩

/-- every cell of the grid has data -/
theorem hasData (c : Coord3) (h : InGrid k nx ny nz c) :
    GridTile3 (2 ^ k) (nx * (2 ^ k : Nat)) (ny * (2 ^ k : Nat)) (nz * (2 ^ k : Nat)) ⟨c.x / (2 ^ k : Nat), c.y / (2 ^ k : Nat), c.z / (2 ^ k : Nat)⟩ ∧
      InTile3 (2 ^ k) ⟨c.x / (2 ^ k : Nat), c.y / (2 ^ k : Nat), c.z / (2 ^ k : Nat)⟩ c := by
  have hp : (0 : Int) < ((2 ^ k : Nat) : Int) := by exact_mod_cast Nat.two_pow_pos k
  obtain ⟨h1, h2, h3, h4, h5, h6⟩ := h
  rw [Nat.cast_mul] at h2 h4 h6
  obtain ⟨a1, a2, a3, a4⟩ := axis_tile _ _ _ hp h1 h2
  obtain ⟨b1, b2, b3, b4⟩ := axis_tile _ _ _ hp h3 h4
  obtain ⟨c1, c2, c3, c4⟩ := axis_tile _ _ _ hp h5 h6
  exact ⟨grid_iff _ |>.2 ⟨a1, a2, b1, b2, c1, c2⟩, a3, a4, b3, b4, c3, c4⟩

theorem inGrid_of {t c : Coord3} (ht : GridTile3 (2 ^ k) (nx * (2 ^ k : Nat)) (ny * (2 ^ k : Nat)) (nz * (2 ^ k : Nat)) t)
    (hc : InTile3 (2 ^ k) t c) : InGrid k nx ny nz c := by
  have := hasData3_inGrid (2 ^ k) nx ny nz (fun _ => True) c ⟨t, ht, trivial, hc⟩
  unfold InGrid3 at this
  unfold InGrid
  push_cast at this ⊢
  tauto

/-- values at the addresses of the cells are values at level 0 -/
theorem stored_zero {V : Type} (hf : Fits s k nx ny nz) (hg : Good s k nx ny nz nw eta chi scale g) (lk : MLLookup Coord3) (m : Int → V)
    (field : Coord3 → V)
    (hm : ∀ c, HasData3 (2 ^ k) nx ny nz (fun _ => True) c → ∀ adr, Addr3 (2 ^ k) g.bm c adr → m adr = field c) :
    StoredAt3 (2 ^ k) nx ny nz (fun _ => True) (mrOf s g lk) 0 m field := by
    have hM := mipMap hf hg lk
    intro c hc
    obtain ⟨t, ht, -, hct⟩ := hc
    obtain ⟨s', e', -⟩ := hM.idx _ ((mgeo3 (2 ^ k)).inv_fresh _) 0 (Nat.zero_le _) t c ht trivial hct
    refine ⟨_, s', e', hm c ⟨t, ht, trivial, hct⟩ _ ?_⟩
    have hti : tileOf3 (2 ^ k) c = t := (tileOf3_iff k c t).2 hct
    have hdim : inDims3 g.bm.dims t = true := by
      rw [hg.map.dims]; exact (grid3_iff (2 ^ k) nx ny nz (Nat.two_pow_pos k) t).1 ht
    have h0 := (hg.map.numbering.active t ht trivial).1
    have hne : ((geo3 (2 ^ k)).fresh).key ≠ t := by
      rintro rfl
      rw [hg.map.dims] at hdim
      revert hdim
      show inDims3 ⟨nx, ny, nz⟩ {} = true → False
      unfold inDims3; simp
    refine ⟨{ key := t, base := g.bm.lookup t * (geo3 (2 ^ k)).cells }, ?_⟩
    unfold Geo.idx
    have hti' : (geo3 (2 ^ k)).tileOf c = t := hti
    rw [hti', if_neg hne]
    have hr : (geo3 (2 ^ k)).read g.bm t = .ok (g.bm.lookup t) := by
      unfold Geo.read
      show (if inDims3 g.bm.dims t = true then _ else _) = _
      rw [if_pos hdim]
    rw [hr, Outcome.ok_bind, if_pos h0]
    show Outcome.ok (g.bm.lookup t * (((2 ^ k : Nat) : Int) * ((2 ^ k : Nat) : Int) * ((2 ^ k : Nat) : Int)) + innerOffset3 (2 ^ k) (innerOf3 (2 ^ k) c), _) =
      Outcome.ok (A3 k g.off 0 (g.bm.lookup t) ((c.z - t.z * (2 ^ k : Nat)) / (2 ^ 0 : Nat)) ((c.y - t.y * (2 ^ k : Nat)) / (2 ^ 0 : Nat)) ((c.x - t.x * (2 ^ k : Nat)) / (2 ^ 0 : Nat)), _)
    congr 2
    unfold A3 mipLoopIdx mipBase innerOffset3 innerOf3
    rw [hti, off_zero hg]
    simp only [Nat.shiftRight_zero, pow_zero, Nat.cast_one, Int.ediv_one, Nat.sub_zero]
    push_cast
    ring

/-- the copy kernel -/
theorem copy_ok (hf : Fits s k nx ny nz) (hg : Good s k nx ny nz nw eta chi scale g) (src : Coord3 → Int → ℝ) (la : Nat)
    (hla : la < nw) (sched : List (Nat × Int))
    (hs : sched.Perm ((List.range (nx * ny * nz)).flatMap fun t => (List.range (2 ^ k * 2 ^ k * 2 ^ k)).map fun b => (t, Int.ofNat b)))
    (old : Int → ℝ) (lk : MLLookup Coord3) :
    ∃ m, copyWave s g src la sched old = .ok m ∧
      StoredAt3 (2 ^ k) nx ny nz (fun _ => True) (mrOf s g lk) 0 m (fun c => src c la) := by
  obtain ⟨h1, h2, h3, -, -⟩ := bounds hf
  obtain ⟨m, e, hm⟩ := C36_sparsify3 k nx ny nz (fun _ => True) g.bm h1 h2 h3 hg.map (fun c => src c la)
    sched (by unfold loopIters; rw [hg.num, show ((nx : Int) * ny * nz).toNat = nx * ny * nz by rw [← Nat.cast_mul, ← Nat.cast_mul, Int.toNat_natCast]]; exact hs) old
  refine ⟨m, ?_, ?_⟩
  · unfold copyWave
    rw [if_pos (by rw [hg.sw]; exact_mod_cast hla), hg.sx, hg.sy, hg.sz, hf.block]
    exact e
  · exact stored_zero hf hg lk m _ hm

/-- the lookup: every tile at level 0 -/
theorem pack_ok (hf : Fits s k nx ny nz) (hg : Good s k nx ny nz nw eta chi scale g) (sched : List Nat)
    (hs : sched.Perm (List.range (nx * ny * nz))) :
    ∃ lk, packTiles s g sched = .ok lk ∧
      LevelsFor (GridTile3 (2 ^ k) (nx * (2 ^ k : Nat)) (ny * (2 ^ k : Nat)) (nz * (2 ^ k : Nat))) (fun _ => True) (mrOf s g lk) (fun _ => 0) := by
  have hE := entry_two hf
  have hN : g.bm.dims.x * g.bm.dims.y * g.bm.dims.z = (nx : Int) * ny * nz := by rw [hg.map.dims]
  have hlen : g.bm.activeTiles.length = nx * ny * nz := by
    have := hg.map.numbering.count
    rw [hg.num] at this
    exact_mod_cast this
  obtain ⟨F, hF⟩ : ∃ F : Nat → Outcome (Int × Int), F = fun i => (do
      let m ← readAt g.bm.activeTiles i
      let key := g.lk.flat3 (decodeMorton3 m)
      if 0 ≤ key ∧ key < g.bm.dims.x * g.bm.dims.y * g.bm.dims.z then .ok (key, 1) else .ub) := ⟨_, rfl⟩
  have hFi : ∀ i (hi : i < g.bm.activeTiles.length), F i = .ok (g.lk.flat3 (decodeMorton3 g.bm.activeTiles[i]), 1) := by
    intro i hi
    obtain ⟨p, q, r, u, v, w⟩ := grid_iff _ |>.1 (hg.map.numbering.listed i hi).1
    obtain ⟨r1, r2⟩ := hg.range _ p q r u v w
    rw [hF]
    simp only [readAt, List.getElem?_eq_getElem hi, Outcome.ok_bind]
    rw [if_pos ⟨r1, by rw [hN]; exact r2⟩]
  have hmem : ∀ i ∈ sched, i < g.bm.activeTiles.length := fun i hi => by rw [hlen]; exact List.mem_range.1 (hs.mem_iff.1 hi)
  obtain ⟨arr, a1, a2, a3⟩ := writeLoop_spec F sched (fun _ => (0 : Int)) (fun i hi => ⟨_, _, hFi i (hmem i hi)⟩)
  have harr : ∀ tl, GridTile3 (2 ^ k) (nx * (2 ^ k : Nat)) (ny * (2 ^ k : Nat)) (nz * (2 ^ k : Nat)) tl → arr (g.lk.flat3 tl) = 1 := by
    intro tl ht
    obtain ⟨l0, l1⟩ := hg.map.numbering.active tl ht trivial
    have hi : (g.bm.lookup tl).toNat < g.bm.activeTiles.length := by have := hg.map.numbering.count; omega
    obtain ⟨d1, d2, d3⟩ := hg.map.numbering.listed _ hi
    rw [Int.toNat_of_nonneg l0] at d3
    have hdt := hg.map.numbering.injective _ _ d1 ht d2 trivial d3
    refine a3 _ _ ⟨(g.bm.lookup tl).toNat, ?_, _, by rw [hFi _ hi, hdt]⟩ ?_
    · rw [hs.mem_iff, List.mem_range, ← hlen]; exact hi
    · intro j hj v hv
      rw [hFi j (hmem j hj)] at hv
      injection hv with hv
      injection hv with hv1 hv2
      exact hv2.symm
  refine ⟨g.lk.pack s.E ((List.range (g.bm.dims.x * g.bm.dims.y * g.bm.dims.z).toNat).map fun j : Nat => arr (j : Int)), ?_, ?_⟩
  · show (writeLoop _ sched (fun _ => (0 : Int)) >>= fun arr => Outcome.ok (g.lk.pack s.E
      ((List.range (g.bm.dims.x * g.bm.dims.y * g.bm.dims.z).toNat).map fun j : Nat => arr (j : Int)))) = _
    rw [hF] at a1
    rw [a1]; rfl
  · refine ⟨fun tl ht => ?_, fun tl ht => ?_, fun tl ht h0 => trivial⟩
    · obtain ⟨q1, q2, q3, q4, q5, q6⟩ := grid_iff _ |>.1 ht
      obtain ⟨r1, r2⟩ := hg.range _ q1 q2 q3 q4 q5 q6
      have := hg.pack ((List.range (g.bm.dims.x * g.bm.dims.y * g.bm.dims.z).toNat).map fun j : Nat => arr (j : Int))
        (by rw [List.length_map, List.length_range, hN, ← Nat.cast_mul, ← Nat.cast_mul, Int.toNat_natCast]) tl q1 q2 q3 q4 q5 q6 1 (by
          rw [List.getElem?_map, List.getElem?_range (by rw [hN]; omega)]
          simp only [Option.map_some, Int.toNat_of_nonneg r1]
          rw [harr tl ht])
      show MLLookup.get s.E _ (g.lk.flat3 tl) = _
      rw [this]
      congr 1
      have hp : (1 : Int) < 2 ^ s.E := by
        have : 1 < 2 ^ s.E := by omega
        exact_mod_cast this
      rw [Int.emod_eq_of_lt (by norm_num) hp]; rfl
    · refine ⟨by norm_num, ?_⟩
      show (0 : Int) < ((2 ^ s.E - 1 : Nat) : Int)
      have : 0 < 2 ^ s.E - 1 := by omega
      exact_mod_cast this

theorem lvl_eq (c : Fin 3 → ℤ) : (fileWorld k nx ny nz eta chi scale).lvl c = if InGrid k nx ny nz ⟨c 0, c 1, c 2⟩ then (0 : Int) else -1 := by
  by_cases h : InGrid k nx ny nz ⟨c 0, c 1, c 2⟩
  · rw [if_pos h]; exact if_pos h
  · rw [if_neg h]; exact if_neg h

/-- the levels that the march reads -/
theorem readLevel_ok (hf : Fits s k nx ny nz) (hg : Good s k nx ny nz nw eta chi scale g) (lk : MLLookup Coord3)
    (hl : LevelsFor (GridTile3 (2 ^ k) (nx * (2 ^ k : Nat)) (ny * (2 ^ k : Nat)) (nz * (2 ^ k : Nat))) (fun _ => True) (mrOf s g lk) (fun _ => 0))
    (junk : ℤ) : readLevel s (mrOf s g lk) junk = (fileWorld k nx ny nz eta chi scale).lvl := by
  funext c
  obtain ⟨b1, b2, b3, -, -⟩ := bounds hf
  unfold readLevel
  rw [lvl_eq]
  by_cases hfit : fitsI32 (c 0) = true ∧ fitsI32 (c 1) = true ∧ fitsI32 (c 2) = true
  · rw [if_pos hfit]
    have hI : IsI32Coord3 ⟨c 0, c 1, c 2⟩ := by
      unfold fitsI32 at hfit
      simpa [IsI32Coord3] using hfit
    obtain ⟨v, w, s', e1, e2, e3⟩ := C07_level3 k nx ny nz (fun _ => True) (mrOf s g lk) (fun _ => 0) b1 b2 b3 hg.map hl
      (max 0 ((match (mgeo3 (2 ^ k)).sampleLevel (mrOf s g lk) (mgeo3 (2 ^ k)).fresh ⟨c 0, c 1, c 2⟩ with | .ok (v, _) => v | _ => 0) + 1))
      (le_max_left _ _) [] (by simp) (by simp) (mgeo3 (2 ^ k)).fresh rfl ⟨c 0, c 1, c 2⟩ hI
    rw [hf.block]
    simp only [e1] at e3 ⊢
    have hw : w = if InGrid k nx ny nz ⟨c 0, c 1, c 2⟩ then (0 : Int) else -1 := by
      rcases e2 with ⟨t, t1, t2, t3⟩ | ⟨t1, t2⟩
      · rw [if_pos (inGrid_of t1 t2), t3]
      · rw [if_neg, t2]
        intro hin
        obtain ⟨q1, q2⟩ := hasData _ hin
        exact t1 _ q1 q2
    rw [← hw]
    have hw0 : w ≤ 0 := by rw [hw]; split <;> omega
    have h1 := le_max_left 0 (v + 1)
    have h2 := le_max_right 0 (v + 1)
    rw [min_eq_left (by omega), min_eq_left (by omega)] at e3
    exact e3
  · rw [if_neg hfit, if_neg]
    rintro ⟨a1, a2, a3, a4, a5, a6⟩
    apply hfit
    unfold i32Max at b1 b2 b3
    unfold fitsI32
    push_cast at a2 a4 a6 b1 b2 b3
    simp only [decide_eq_true_eq] at *
    refine ⟨⟨?_, ?_⟩, ⟨?_, ?_⟩, ?_, ?_⟩ <;> linarith

/-- the arrays that the march reads -/
theorem readCell_ok {V : Type} (hf : Fits s k nx ny nz) (hg : Good s k nx ny nz nw eta chi scale g) (lk : MLLookup Coord3) (junk : V) (m : Int → V)
    (field : Coord3 → V) (hm : StoredAt3 (2 ^ k) nx ny nz (fun _ => True) (mrOf s g lk) 0 m field) (c : Fin 3 → ℤ)
    (hc : InGrid k nx ny nz ⟨c 0, c 1, c 2⟩) :
    readCell s g (mrOf s g lk) junk m 0 c = field ⟨c 0, c 1, c 2⟩ := by
  have hM := mipMap hf hg lk
  obtain ⟨q1, q2⟩ := hasData _ hc
  obtain ⟨a, s', e1, e2⟩ := hm ⟨c 0, c 1, c 2⟩ ⟨_, q1, trivial, q2⟩
  obtain ⟨s'', e3, -⟩ := hM.idx (mgeo3 (2 ^ k)).fresh ((mgeo3 (2 ^ k)).inv_fresh _) 0 le_rfl _ ⟨c 0, c 1, c 2⟩ q1 trivial q2
  rw [e1] at e3
  injection e3 with e3
  injection e3 with e3 _
  unfold readCell
  rw [hf.block, show (0 : ℤ).toNat = 0 from rfl, e1]
  simp only
  rw [if_pos, e2]
  obtain ⟨l0, l1⟩ := hg.map.numbering.active _ q1 trivial
  unfold InTile3 at q2
  obtain ⟨x1, x2, y1, y2, z1, z2⟩ := q2
  simp only [add_mul, one_mul] at x1 x2 y1 y2 z1 z2
  unfold bufLen
  rw [e3, hf.block]
  refine hM.range 0 le_rfl _ _ _ _ l0 l1 ?_ ?_ ?_ ?_ ?_ ?_ <;>
    simp only [pow_zero, Nat.cast_one, Int.ediv_one, Nat.sub_zero] <;> linarith

end

end DexRT.Given3
