import Verif.Spec.GivenFs
import Verif.Props.Mipmap
import Verif.Props.Sparse
/-! Lemmas for C82: the arrays and the levels of detail of a batch. -/
namespace DexRT.Given
open DexRT DexRT.Fs DexRT.AtmosFile DexRT.Dir Classical

/-- What `init_given_emis_opac` returns for a good file. -/
structure Good (s : Settings) (k nx nz nw : Nat) (eta chi : Coord2 → Int → ℝ) (scale : ℝ) (g : Given) : Prop where
  sx : g.nx = nx * (2 ^ k : Nat)
  sz : g.nz = nz * (2 ^ k : Nat)
  sw : g.nw = nw
  emis : g.eta = eta
  opac : g.chi = chi
  vox : g.scale = scale
  map : MapFor2 (2 ^ k) nx nz (fun _ => True) g.bm
  num : g.bm.numActive = nx * nz
  range : ∀ c : Coord2, 0 ≤ c.x → c.x < nx → 0 ≤ c.z → c.z < nz → 0 ≤ g.lk.flat2 c ∧ g.lk.flat2 c < nx * nz
  inj : ∀ c c' : Coord2, 0 ≤ c.x → c.x < nx → 0 ≤ c.z → c.z < nz → 0 ≤ c'.x → c'.x < nx → 0 ≤ c'.z → c'.z < nz →
    g.lk.flat2 c = g.lk.flat2 c' → c = c'
  pack : ∀ vals : List Int, vals.length = nx * nz → ∀ c : Coord2, 0 ≤ c.x → c.x < nx → 0 ≤ c.z → c.z < nz → ∀ v,
    vals[(g.lk.flat2 c).toNat]? = some v → (g.lk.pack s.E vals).get s.E (g.lk.flat2 c) = .ok (v % 2 ^ s.E).toNat
  off : mipOffsets s.E (2 ^ k) 2 g.bm.numActive g.maxMip = .ok g.off
  maxMip : g.maxMip = topLevel s

theorem maxLevel_go (levels : List Int) (hl : ∀ l ∈ levels, 0 ≤ l) : ∀ (is : List Nat), (∀ i ∈ is, i < levels.length) → ∀ a : Nat,
    is.foldlM (fun acc i => do let l ← readAt levels i; .ok (max acc l)) (a : Int) =
      .ok (((is.map fun i => (levels.getD i 0).toNat).foldl max a : Nat) : Int)
  | [], _, a => rfl
  | i :: is, h, a => by
    have hi := h i List.mem_cons_self
    have hr : readAt levels i = .ok levels[i] := by unfold readAt; rw [List.getElem?_eq_getElem hi]
    have h0 := hl _ (List.getElem_mem hi)
    rw [List.foldlM_cons, hr]
    simp only [Outcome.ok_bind, List.map_cons, List.foldl_cons]
    have hg : levels.getD i 0 = levels[i] := by simp [List.getD, List.getElem?_eq_getElem hi]
    have : max (a : Int) levels[i] = ((max a (levels.getD i 0).toNat : Nat) : Int) := by
      rw [hg]; push_cast; rw [Int.toNat_of_nonneg h0]
    rw [this]
    exact maxLevel_go levels hl is (fun j hj => h j (List.mem_cons_of_mem _ hj)) _

theorem foldl_max_le (M : Nat) : ∀ (l : List Nat) (a : Nat), a ≤ M → (∀ x ∈ l, x ≤ M) → l.foldl max a ≤ M
  | [], _, h, _ => h
  | x :: l, a, h, hl => foldl_max_le M l _ (max_le h (hl x List.mem_cons_self)) fun y hy => hl y (List.mem_cons_of_mem _ hy)

theorem le_foldl_max : ∀ (l : List Nat) (a : Nat), a ≤ l.foldl max a ∧ ∀ x ∈ l, x ≤ l.foldl max a
  | [], a => ⟨le_rfl, fun x hx => by simp at hx⟩
  | y :: l, a => by
    obtain ⟨h1, h2⟩ := le_foldl_max l (max a y)
    refine ⟨le_trans (le_max_left _ _) h1, fun x hx => ?_⟩
    rcases List.mem_cons.1 hx with rfl | hx
    · exact le_trans (le_max_right _ _) h1
    · exact h2 x hx

theorem getD_mem (levels : List Int) (i : Nat) (h : i < levels.length) : levels.getD i 0 ∈ levels := by
  simp [List.getD, List.getElem?_eq_getElem h]

theorem top_le {s : Settings} {k nx nz : Nat} (h : Fits s k nx nz) : topLevel s ≤ k ∧ topLevel s + 1 ≤ 2 ^ s.E - 1 := by
  have hin : ∀ x ∈ (List.range (s.num + 1)).map (fun i => (s.levels.getD i 0).toNat), (x : Int) ≤ k ∧ (x : Int) + 1 ≤ 2 ^ s.E - 1 := by
    intro x hx
    obtain ⟨i, hi, rfl⟩ := List.mem_map.1 hx
    have := h.levelRange _ (getD_mem s.levels i (by have := h.levels; have := List.mem_range.1 hi; omega))
    rw [Int.toNat_of_nonneg this.1]
    exact ⟨this.2.1, this.2.2⟩
  have hE : (1 : Int) ≤ 2 ^ s.E - 1 := by
    have : (2 : Int) ^ 1 ≤ 2 ^ s.E := pow_le_pow_right₀ (by norm_num) h.entry.1
    omega
  have hE2 : ((2 ^ s.E - 1 : Nat) : Int) = 2 ^ s.E - 1 := by
    rw [Nat.cast_sub Nat.one_le_two_pow]; push_cast; rfl
  constructor
  · exact foldl_max_le k _ 0 (by omega) fun x hx => by have := (hin x hx).1; omega
  · have : topLevel s ≤ 2 ^ s.E - 1 - 1 := foldl_max_le _ _ 0 (by omega) fun x hx => by have := (hin x hx).2; omega
    omega

theorem level_le_top {s : Settings} {k nx nz : Nat} (h : Fits s k nx nz) (n : Nat) (hn : n ≤ s.num) :
    s.levels.getD n 0 ≤ topLevel s := by
  have h1 := (le_foldl_max ((List.range (s.num + 1)).map fun i => (s.levels.getD i 0).toNat) 0).2 _
    (List.mem_map.2 ⟨n, List.mem_range.2 (by omega), rfl⟩)
  have h2 := (h.levelRange _ (getD_mem s.levels n (by have := h.levels; omega))).1
  unfold topLevel
  omega

theorem init_ok {W : Type} {s : Settings} {cv : W → ℝ} {f : NcFile (Coord2 × Int) W} {k nx nz nw : Nat}
    {eta chi : Coord2 → Int → ℝ} {scale : ℝ} (hf : Fits s k nx nz) (hh : Holds f cv (2 ^ k) nx nz nw eta chi scale) :
    ∃ g, initGiven2 s cv f = .ok g ∧ Good s k nx nz nw eta chi scale g := by
  obtain ⟨bm, b1, b2, b3, b4, -, b6⟩ := C03_dense2 (2 ^ k) nx nz hf.size
  obtain ⟨a, ha⟩ : ∃ a, nx = 2 * a := ⟨nx / 2, by have := hf.even.1; omega⟩
  obtain ⟨b, hb⟩ : ∃ b, nz = 2 * b := ⟨nz / 2, by have := hf.even.2; omega⟩
  have ha' : (nx : Int) = 2 * a := by exact_mod_cast ha
  have hb' : (nz : Int) = 2 * b := by exact_mod_cast hb
  obtain ⟨lk, l1, l2, l3, l4⟩ := C09_packed2 s.E a b hf.entry.1 hf.entry.2 (by
    rw [← ha', ← hb']
    refine le_trans ?_ hf.size.2.2.2
    have h1 : (1 : Int) ≤ ((2 ^ k : Nat) : Int) * ((2 ^ k : Nat) : Int) := by
      have : 0 < 2 ^ k * 2 ^ k := by positivity
      exact_mod_cast this
    nlinarith [mul_nonneg (Int.natCast_nonneg nx) (Int.natCast_nonneg nz)])
  rw [← ha', ← hb'] at l1 l2 l3 l4
  obtain ⟨t1, t2⟩ := top_le hf
  have hm : maxLevel s.levels s.num = .ok ((topLevel s : Nat) : Int) :=
    maxLevel_go s.levels (fun l hl => (hf.levelRange l hl).1) _ (fun i hi => by
      have := hf.levels; have := List.mem_range.1 hi; omega) 0
  obtain ⟨ea, ea1, ea2⟩ := hh.eta
  obtain ⟨ca, ca1, ca2⟩ := hh.chi
  have hoff : mipOffsets s.E (2 ^ k) 2 bm.numActive (topLevel s) =
      .ok (fillOffsets (2 ^ k) 2 bm.numActive (topLevel s + 1) 0 0 (fun _ => 0)) := by
    unfold mipOffsets; rw [if_neg (by omega)]
  have hs : ((f.scalar "voxel_scale").map cv).getD 1 = scale := by
    rcases hh.scale with ⟨h1, h2⟩ | ⟨v, h1, h2⟩
    · rw [h1, h2]; rfl
    · rw [h1, h2]; rfl
  refine ⟨{ nx := nx * (2 ^ k : Nat), nz := nz * (2 ^ k : Nat), nw := nw, eta := fun c la => cv (ea (c, la)),
            chi := fun c la => cv (ca (c, la)), scale := scale, bm := bm, lk := lk,
            off := fillOffsets (2 ^ k) 2 bm.numActive (topLevel s + 1) 0 0 (fun _ => 0), maxMip := topLevel s }, ?_, ?_⟩
  · unfold initGiven2
    simp only [hh.x, hh.z, hh.wavelength, ea1, ca1, need, Outcome.ok_bind, hf.block, b1, hm, b3, l1, hs, Int.toNat_natCast, hoff]
  · refine ⟨rfl, rfl, rfl, ?_, ?_, rfl, ⟨b3, b4, b6⟩, b2, l2, ?_, ?_, hoff, rfl⟩
    · funext c la; exact (ea2 c la).symm
    · funext c la; exact (ca2 c la).symm
    · intro c c' h1 h2 h3 h4 h5 h6 h7 h8 he
      obtain ⟨r1, r2⟩ := l2 c h1 h2 h3 h4
      obtain ⟨q, -, hq⟩ := l3 _ r1 r2
      exact (hq c ⟨⟨h1, h2, h3, h4⟩, rfl⟩).trans (hq c' ⟨⟨h5, h6, h7, h8⟩, he.symm⟩).symm
    · intro vals hv; exact l4 vals (by rw [hv, ha, hb])

section
variable {s : Settings} {k nx nz nw : Nat} {eta chi : Coord2 → Int → ℝ} {scale : ℝ} {g : Given}

theorem axes (hf : Fits s k nx nz) : (nx : Int) * (2 ^ k : Nat) ≤ i32Max ∧ (nz : Int) * (2 ^ k : Nat) ≤ i32Max := by
  have h := hf.size.2.2.2
  have hx : (1 : Int) ≤ nx := by exact_mod_cast hf.pos.1
  have hz : (1 : Int) ≤ nz := by exact_mod_cast hf.pos.2
  have hp : (1 : Int) ≤ ((2 ^ k : Nat) : Int) := by exact_mod_cast Nat.one_le_two_pow
  generalize ((2 ^ k : Nat) : Int) = P at *
  have h1 : (nx : Int) * P ≤ (nx * nz) * (P * P) := by
    have : (nx : Int) * P * 1 ≤ (nx : Int) * P * (nz * P) :=
      mul_le_mul_of_nonneg_left (by nlinarith) (by positivity)
    nlinarith
  have h2 : (nz : Int) * P ≤ (nx * nz) * (P * P) := by
    have : (nz : Int) * P * 1 ≤ (nz : Int) * P * (nx * P) :=
      mul_le_mul_of_nonneg_left (by nlinarith) (by positivity)
    nlinarith
  exact ⟨le_trans h1 h, le_trans h2 h⟩

theorem mipMap (hf : Fits s k nx nz) (hg : Good s k nx nz nw eta chi scale g) (lk : MLLookup Coord2) :
    MipMap2 s.E k nx nz (fun _ => True) (mrOf s g lk) g.maxMip := by
  obtain ⟨t1, t2⟩ := top_le hf
  refine ⟨hg.map, (axes hf).1, (axes hf).2, hg.off, ?_, ?_⟩
  · show g.maxMip < 2 ^ s.E - 1
    rw [hg.maxMip]; omega
  · rw [hg.maxMip]; exact t1

/-- every cell of the grid has data -/
theorem hasData (hf : Fits s k nx nz) (c : Coord2) (h1 : 0 ≤ c.x) (h2 : c.x < ((nx * 2 ^ k : Nat) : Int)) (h3 : 0 ≤ c.z)
    (h4 : c.z < ((nz * 2 ^ k : Nat) : Int)) :
    GridTile2 (2 ^ k) (nx * (2 ^ k : Nat)) (nz * (2 ^ k : Nat)) ⟨c.x / (2 ^ k : Nat), c.z / (2 ^ k : Nat)⟩ ∧
      InTile2 (2 ^ k) ⟨c.x / (2 ^ k : Nat), c.z / (2 ^ k : Nat)⟩ c := by
  have hp : (0 : Int) < ((2 ^ k : Nat) : Int) := by exact_mod_cast Nat.two_pow_pos k
  rw [Nat.cast_mul] at h2 h4
  unfold GridTile2 InTile2
  simp only
  generalize ((2 ^ k : Nat) : Int) = P at *
  have ex := Int.mul_ediv_add_emod c.x P
  have ez := Int.mul_ediv_add_emod c.z P
  have rx := Int.emod_nonneg c.x (ne_of_gt hp)
  have rz := Int.emod_nonneg c.z (ne_of_gt hp)
  have ux := Int.emod_lt_of_pos c.x hp
  have uz := Int.emod_lt_of_pos c.z hp
  have dx := Int.ediv_nonneg h1 hp.le
  have dz := Int.ediv_nonneg h3 hp.le
  constructor
  · refine ⟨dx, ?_, dz, ?_⟩ <;> nlinarith
  · refine ⟨?_, ?_, ?_, ?_⟩ <;> nlinarith

theorem forAll_ok {ι α : Type} (f : ι → Outcome α) (d : α) (is : List ι) (P : ι → α → Prop)
    (h : ∀ i ∈ is, ∃ a, f i = .ok a ∧ P i a) : ∃ F, forAll f d is = .ok F ∧ ∀ i ∈ is, f i = .ok (F i) ∧ P i (F i) := by
  unfold forAll
  rw [if_pos (fun i hi => (h i hi).imp fun a ha => ha.1)]
  refine ⟨_, rfl, fun i hi => ?_⟩
  obtain ⟨a, e, p⟩ := h i hi
  simp only [e]
  exact ⟨trivial, p⟩

/-- an array that holds `field` at the addresses of the cells -/
theorem stored_zero {V : Type} (hf : Fits s k nx nz) (hg : Good s k nx nz nw eta chi scale g) (lk : MLLookup Coord2) (m : Int → V) (field : Coord2 → V)
    (hm : ∀ c, HasData2 (2 ^ k) nx nz (fun _ => True) c → ∀ a, Addr2 (2 ^ k) g.bm c a → m a = field c) :
    StoredAt2 (2 ^ k) nx nz (fun _ => True) (mrOf s g lk) 0 m field := by
  have hM := mipMap hf hg lk
  intro c hc
  obtain ⟨t, ht, -, hct⟩ := hc
  obtain ⟨s', e', -⟩ := hM.idx _ ((mgeo2 (2 ^ k)).inv_fresh _) 0 (Nat.zero_le _) t c ht trivial hct
  refine ⟨_, s', e', hm c ⟨t, ht, trivial, hct⟩ _ ?_⟩
  have hti : tileOf2 (2 ^ k) c = t := (tileOf2_iff k c t).2 hct
  have hdim : inDims2 g.bm.dims t = true := by
    rw [hg.map.dims]; exact (grid2_iff (2 ^ k) nx nz (Nat.two_pow_pos k) t).1 ht
  have h0 := (hg.map.numbering.active t ht trivial).1
  have hoff : g.off 0 = 0 := by
    have := hg.off
    unfold mipOffsets at this
    split at this
    · simp at this
    · injection this with this
      rw [← this]
      have := fillOffsets_spec (2 ^ k) 2 g.bm.numActive (g.maxMip + 1) 0 (fun _ => 0) 0
      rw [if_pos ⟨le_rfl, by omega⟩] at this
      exact this
  have hne : ((geo2 (2 ^ k)).fresh).key ≠ t := by
    rintro rfl
    rw [hg.map.dims] at hdim
    revert hdim
    show inDims2 ⟨nx, nz⟩ {} = true → False
    unfold inDims2; simp
  refine ⟨{ key := t, base := g.bm.lookup t * (geo2 (2 ^ k)).cells }, ?_⟩
  unfold Geo.idx
  have hti' : (geo2 (2 ^ k)).tileOf c = t := hti
  rw [hti', if_neg hne]
  have hr : (geo2 (2 ^ k)).read g.bm t = .ok (g.bm.lookup t) := by
    unfold Geo.read
    show (if inDims2 g.bm.dims t = true then _ else _) = _
    rw [if_pos hdim]
  rw [hr, Outcome.ok_bind, if_pos h0]
  show Outcome.ok (g.bm.lookup t * (((2 ^ k : Nat) : Int) * ((2 ^ k : Nat) : Int)) + innerOffset2 (2 ^ k) (innerOf2 (2 ^ k) c), _) =
    Outcome.ok (A2 k g.off 0 (g.bm.lookup t) ((c.z - t.z * (2 ^ k : Nat)) / (2 ^ 0 : Nat)) ((c.x - t.x * (2 ^ k : Nat)) / (2 ^ 0 : Nat)), _)
  congr 2
  unfold A2 mipLoopIdx mipBase innerOffset2 innerOf2
  rw [hti, hoff]
  simp only [Nat.shiftRight_zero, pow_zero, Nat.cast_one, Int.ediv_one, Nat.sub_zero]
  push_cast
  ring

/-- the copy kernel -/
theorem copy_ok (hf : Fits s k nx nz) (hg : Good s k nx nz nw eta chi scale g) (src : Coord2 → Int → ℝ) (la w : Nat)
    (hw : w < s.W) (hlw : la + w < nw) (sched : List (Nat × Int))
    (hs : sched.Perm ((List.range (nx * nz)).flatMap fun t => (List.range (2 ^ k * 2 ^ k)).map fun b => (t, Int.ofNat b)))
    (old : Int → ℝ) (lk : MLLookup Coord2) :
    ∃ m, copyCol s g src la w sched old = .ok m ∧
      StoredAt2 (2 ^ k) nx nz (fun _ => True) (mrOf s g lk) 0 m (fun c => src c (la + w : Nat)) := by
  obtain ⟨m, e, hm⟩ := C36_sparsify2 k nx nz (fun _ => True) g.bm (axes hf).1 (axes hf).2 hg.map (fun c => src c (la + w : Nat))
    sched (by unfold loopIters; rw [hg.num, show ((nx : Int) * nz).toNat = nx * nz by rw [← Nat.cast_mul, Int.toNat_natCast]]; exact hs) old
  refine ⟨m, ?_, stored_zero hf hg lk m _ hm⟩
  · unfold copyCol
    rw [if_pos ⟨by rw [hg.sw]; exact_mod_cast hlw, hw⟩, hg.sx, hg.sz, hf.block]
    exact e

/-- the levels up to `n` -/
theorem chain_ok (hf : Fits s k nx nz) (hg : Good s k nx nz nw eta chi scale g) (lk : MLLookup Coord2) (sched : Nat → List (Nat × Int))
    (hs : ∀ l, (sched l).Perm ((List.range (nx * nz)).flatMap fun t =>
      (List.range ((2 ^ k) ^ 2 / (2 ^ (l + 1)) ^ 2)).map fun b => (t, Int.ofNat b))) (n : Nat) (hn : n ≤ g.maxMip) (m0 : Int → ℝ)
    (field : Coord2 → ℝ) (h0 : StoredAt2 (2 ^ k) nx nz (fun _ => True) (mrOf s g lk) 0 m0 field) :
    ∃ m, mipChain2 s.B (mrOf s g lk) (bufLen s g) mipScale2 sched n m0 = .ok m ∧
      ∀ l ≤ n, StoredAt2 (2 ^ k) nx nz (fun _ => True) (mrOf s g lk) l m (blockMean2 field l) := by
  have h := mipMap hf hg lk
  have hn2 : ((nx : Int) * nz).toNat = nx * nz := by rw [← Nat.cast_mul, Int.toNat_natCast]
  obtain ⟨m, e, _, hval⟩ := h.chain mipScale2 sched m0 n hn (fun l _ p => by
    rw [(hs l).mem_iff]; unfold mipIters loopIters; rw [show (mrOf s g lk).bm.numActive = nx * nz from hg.num, hn2])
  refine ⟨m, ?_, fun l hl => ?_⟩
  · rw [hf.block]; unfold bufLen; rw [hf.block]; exact e
  have := lift2 h m0 m mipScale2 n hn field h0 hval l hl
  intro c hc
  obtain ⟨a, s, e1, e2⟩ := this c hc
  refine ⟨a, s, e1, ?_⟩
  rw [e2]
  unfold blockMean2 mipScale2
  rw [← mul_pow, show (2 : ℝ) * 2 = 4 by norm_num, one_div, inv_pow, div_eq_mul_inv, mul_comm]

theorem dvd_tile (k l : Nat) (hl : l ≤ k) : ((2 ^ l : Nat) : Int) ∣ ((2 ^ k : Nat) : Int) := by
  exact_mod_cast pow_dvd_pow 2 hl

/-- the cell of an iteration of the kernel of level `l + 1`, and its quarters -/
theorem sub_ok (hf : Fits s k nx nz) (hg : Good s k nx nz nw eta chi scale g) (lk : MLLookup Coord2) (l : Nat) (hl : l + 1 ≤ g.maxMip)
    (i : Nat) (hi : i < g.bm.activeTiles.length) (b : Nat) (hb : b < (2 ^ k) ^ 2 / (2 ^ (l + 1)) ^ 2) :
    ∃ c, mipLoopCoord2 (2 ^ k) g.bm (l + 1) i b = .ok c ∧ InTile2 (2 ^ k) (decodeMorton2 g.bm.activeTiles[i]) c ∧
      ((2 ^ (l + 1) : Nat) : Int) ∣ c.x ∧ ((2 ^ (l + 1) : Nat) : Int) ∣ c.z ∧
      ∀ (m : Int → ℝ) (field : Coord2 → ℝ), StoredAt2 (2 ^ k) nx nz (fun _ => True) (mrOf s g lk) l m field →
        subCells s.B (mrOf s g lk) (bufLen s g) l (i, (b : Int)) m =
          .ok [field c, field ⟨c.x + (2 ^ l : Nat), c.z⟩, field ⟨c.x, c.z + (2 ^ l : Nat)⟩,
            field ⟨c.x + (2 ^ l : Nat), c.z + (2 ^ l : Nat)⟩] := by
  have h := mipMap hf hg lk
  have hp : (i, (b : Int)) ∈ mipIters (2 ^ k) 2 (l + 1) (mrOf s g lk).bm := by
    refine (mem_loopIters _ _ _).2 ⟨?_, Int.natCast_nonneg _, by show ((b : Nat) : Int) < _; exact_mod_cast hb⟩
    have := hg.map.numbering.count
    show ((i : Nat) : Int) < g.bm.numActive
    rw [← this]; exact_mod_cast hi
  obtain ⟨-, hi', hb0, hb1, hz0, hz1, hx0, hx1, hsum⟩ := h.iter (l + 1) hl _ hp
  simp only at hi' hb0 hb1 hz0 hz1 hx0 hx1 hsum
  have hk := h.levels
  obtain ⟨g1, g2, g3⟩ := hg.map.numbering.listed i hi
  have hw := w_level k (l + 1) (by omega)
  set w : Int := ((2 ^ (k - (l + 1)) : Nat) : Int) with hwdef
  set t := decodeMorton2 g.bm.activeTiles[i] with ht
  have hwl : ((2 ^ (k - l) : Nat) : Int) = 2 * w := by
    rw [hwdef, show k - l = (k - (l + 1)) + 1 by omega, pow_succ]; push_cast; ring
  set c : Coord2 := { x := t.x * (2 ^ k : Nat) + (b : Int) % w * (2 ^ (l + 1) : Nat),
                      z := t.z * (2 ^ k : Nat) + (b : Int) / w * (2 ^ (l + 1) : Nat) } with hc
  have hcoord : mipLoopCoord2 (2 ^ k) g.bm (l + 1) i b = .ok c := by
    unfold mipLoopCoord2
    rw [List.getElem?_eq_getElem hi]
    simp only [mipTileInner2, hw, ← ht, ← hwdef]
    rw [Int.tdiv_eq_ediv_of_nonneg hb0, ← Int.emod_def]
    rw [hc]
    push_cast; rfl
  have sub : ∀ (s' : MIdxState Coord2), (mgeo2 (2 ^ k)).Inv (mrOf s g lk) s' → ∀ (c : Coord2) (dz dx : Int), 0 ≤ dz → dz < 2 →
      0 ≤ dx → dx < 2 →
      c.x = t.x * (2 ^ k : Nat) + ((b : Int) % w * (2 ^ (l + 1) : Nat) + dx * (2 ^ l : Nat)) →
      c.z = t.z * (2 ^ k : Nat) + ((b : Int) / w * (2 ^ (l + 1) : Nat) + dz * (2 ^ l : Nat)) →
      InTile2 (2 ^ k) t c ∧ ∃ a s'', (mgeo2 (2 ^ k)).idx (mrOf s g lk) s' l c = .ok (a, s'') ∧ (mgeo2 (2 ^ k)).Inv (mrOf s g lk) s'' ∧
        (0 ≤ a ∧ a < bufLen s g) ∧
        ∀ (m : Int → ℝ) (field : Coord2 → ℝ), StoredAt2 (2 ^ k) nx nz (fun _ => True) (mrOf s g lk) l m field → m a = field c := by
    intro s' hs c dz dx a1 a2 a3 a4 ex ez
    have rx := sub_in k l (by omega) ((b : Int) % w) dx hx0 hx1 a3 a4
    have rz := sub_in k l (by omega) ((b : Int) / w) dz hz0 hz1 a1 a2
    have hin : InTile2 (2 ^ k) t c := by
      unfold InTile2; simp only [add_mul, one_mul]; omega
    refine ⟨hin, ?_⟩
    obtain ⟨s2, e, hinv⟩ := h.idx s' hs l (by omega) t c g1 g2 hin
    obtain ⟨s3, e', -⟩ := h.idx _ ((mgeo2 (2 ^ k)).inv_fresh _) l (by omega) t c g1 g2 hin
    refine ⟨_, s2, e, hinv, ?_, fun m field hst => ?_⟩
    · rw [ex, ez, show ∀ u v : Int, u + v - u = v by intros; ring, show ∀ u v : Int, u + v - u = v by intros; ring,
        sub_div l _ _ a1 a2, sub_div l _ _ a3 a4, show (mrOf s g lk).bm.lookup t = i from g3]
      unfold bufLen
      rw [hf.block]
      exact h.range l (by omega) _ _ _ (by omega) hi' (by omega) (by omega) (by omega) (by omega)
    · obtain ⟨a, s4, e4, hm⟩ := hst c ⟨t, g1, trivial, hin⟩
      rw [e'] at e4
      injection e4 with e4
      injection e4 with e4 _
      rw [e4]; exact hm
  obtain ⟨t0, q0, s0, e0, i0, r0, v0⟩ := sub _ ((mgeo2 (2 ^ k)).inv_fresh _) c 0 0 (by omega) (by omega) (by omega) (by omega)
    (by simp [hc]) (by simp [hc])
  obtain ⟨-, q1, s1, e1, i1, r1, v1⟩ := sub s0 i0 ⟨c.x + (2 ^ l : Nat), c.z⟩ 0 1 (by omega) (by omega) (by omega) (by omega)
    (by simp only [hc]; ring) (by simp [hc])
  obtain ⟨-, q2, s2, e2, i2, r2, v2⟩ := sub s1 i1 ⟨c.x, c.z + (2 ^ l : Nat)⟩ 1 0 (by omega) (by omega) (by omega)
    (by omega) (by simp [hc]) (by simp only [hc]; ring)
  obtain ⟨-, q3, s3, e3, i3, r3, v3⟩ := sub s2 i2 ⟨c.x + (2 ^ l : Nat), c.z + (2 ^ l : Nat)⟩ 1 1 (by omega) (by omega) (by omega)
    (by omega) (by simp only [hc]; ring) (by simp only [hc]; ring)
  have hd := dvd_tile k (l + 1) (by omega)
  refine ⟨c, hcoord, t0, ?_, ?_, fun m field hst => ?_⟩
  · exact dvd_add (Dvd.dvd.mul_left hd _) (dvd_mul_left _ _)
  · exact dvd_add (Dvd.dvd.mul_left hd _) (dvd_mul_left _ _)
  · have hcoord' : mipLoopCoord2 (2 ^ k) (mrOf s g lk).bm (l + 1) i b = .ok c := hcoord
    unfold subCells
    rw [hf.block]
    simp only [hcoord', Outcome.ok_bind, half_pow, e0, e1, e2, e3, mipRead, if_pos r0, if_pos r1, if_pos r2, if_pos r3,
      v0 m field hst, v1 m field hst, v2 m field hst, v3 m field hst]

/-- every aligned cell of the tile is met -/
theorem sub_onto (hf : Fits s k nx nz) (hg : Good s k nx nz nw eta chi scale g) (l : Nat) (hl : l + 1 ≤ g.maxMip)
    (i : Nat) (hi : i < g.bm.activeTiles.length) (c : Coord2) (hc : InTile2 (2 ^ k) (decodeMorton2 g.bm.activeTiles[i]) c)
    (hx : ((2 ^ (l + 1) : Nat) : Int) ∣ c.x) (hz : ((2 ^ (l + 1) : Nat) : Int) ∣ c.z) :
    ∃ b : Nat, b < (2 ^ k) ^ 2 / (2 ^ (l + 1)) ^ 2 ∧ mipLoopCoord2 (2 ^ k) g.bm (l + 1) i b = .ok c := by
  have h := mipMap hf hg g.lk
  have hk := h.levels
  have hw := w_level k (l + 1) (by omega)
  set w : Int := ((2 ^ (k - (l + 1)) : Nat) : Int) with hwdef
  set t := decodeMorton2 g.bm.activeTiles[i] with ht
  have hw0 : 0 < w := by rw [hwdef]; exact_mod_cast Nat.two_pow_pos _
  have hP : (0 : Int) < ((2 ^ (l + 1) : Nat) : Int) := by exact_mod_cast Nat.two_pow_pos _
  have hd := dvd_tile k (l + 1) (by omega)
  have hwm := w_mul k (l + 1) (by omega)
  rw [← hwdef] at hwm
  obtain ⟨X, hX⟩ := dvd_sub hx (Dvd.dvd.mul_left hd t.x)
  obtain ⟨Z, hZ⟩ := dvd_sub hz (Dvd.dvd.mul_left hd t.z)
  unfold InTile2 at hc
  simp only [add_mul, one_mul] at hc
  have x0 : 0 ≤ X := by
    by_contra hh
    have := mul_neg_of_pos_of_neg hP (not_le.1 hh)
    omega
  have z0 : 0 ≤ Z := by
    by_contra hh
    have := mul_neg_of_pos_of_neg hP (not_le.1 hh)
    omega
  have x1 : X < w := by
    by_contra hh
    have := mul_le_mul_of_nonneg_left (not_lt.1 hh) hP.le
    rw [mul_comm _ w, hwm] at this
    omega
  have z1 : Z < w := by
    by_contra hh
    have := mul_le_mul_of_nonneg_left (not_lt.1 hh) hP.le
    rw [mul_comm _ w, hwm] at this
    omega
  obtain ⟨o1, o2⟩ := off_range w Z X z0 z1 x0 x1
  refine ⟨(Z * w + X).toNat, ?_, ?_⟩
  · have := mipCells2 k (l + 1) (by omega)
    rw [← hwdef] at this
    rw [← this] at o2
    refine Int.ofNat_lt.1 ?_
    rw [Int.toNat_of_nonneg o1]
    exact o2
  · have d1 : (Z * w + X) / w = Z := by
      rw [add_comm, Int.add_mul_ediv_right _ _ (ne_of_gt hw0), Int.ediv_eq_zero_of_lt x0 x1]; omega
    have d2 : (Z * w + X) % w = X := by
      rw [add_comm, Int.add_mul_emod_self_right, Int.emod_eq_of_lt x0 x1]
    unfold mipLoopCoord2
    rw [List.getElem?_eq_getElem hi, Int.toNat_of_nonneg o1]
    simp only [mipTileInner2, hw, ← ht, ← hwdef]
    rw [Int.tdiv_eq_ediv_of_nonneg o1, ← Int.emod_def, d1, d2]
    congr 1
    have e1 : c.x = t.x * (2 ^ k : Nat) + X * 2 ^ (l + 1) := by
      have : ((2 ^ (l + 1) : Nat) : Int) * X = X * 2 ^ (l + 1) := by push_cast; ring
      omega
    have e2 : c.z = t.z * (2 ^ k : Nat) + Z * 2 ^ (l + 1) := by
      have : ((2 ^ (l + 1) : Nat) : Int) * Z = Z * 2 ^ (l + 1) := by push_cast; ring
      omega
    obtain ⟨cx, cz⟩ := c
    change cx = _ at e1
    change cz = _ at e2
    rw [e1, e2]

/-- the test of one cell -/
theorem test_ok (hf : Fits s k nx nz) (hg : Good s k nx nz nw eta chi scale g) (o : BatchOrder) (la wv : Nat)
    (ho : ∀ w l, (o.mips w l).Perm ((List.range (nx * nz)).flatMap fun t =>
      (List.range ((2 ^ k) ^ 2 / (2 ^ (l + 1)) ^ 2)).map fun b => (t, Int.ofNat b)))
    (emis opac : Nat → Int → ℝ)
    (he : ∀ w, w < wv → StoredAt2 (2 ^ k) nx nz (fun _ => True) (mrOf s g g.lk) 0 (emis w) (fun c => eta c (la + w : Nat)))
    (hc : ∀ w, w < wv → StoredAt2 (2 ^ k) nx nz (fun _ => True) (mrOf s g g.lk) 0 (opac w) (fun c => chi c (la + w : Nat)))
    (l : Nat) (hl : l + 1 ≤ g.maxMip) (i : Nat) (hi : i < g.bm.activeTiles.length) (b : Nat)
    (hb : b < (2 ^ k) ^ 2 / (2 ^ (l + 1)) ^ 2) (w : Nat) (hw : w < wv) :
    ∃ c, mipLoopCoord2 (2 ^ k) g.bm (l + 1) i b = .ok c ∧ InTile2 (2 ^ k) (decodeMorton2 g.bm.activeTiles[i]) c ∧
      ((2 ^ (l + 1) : Nat) : Int) ∣ c.x ∧ ((2 ^ (l + 1) : Nat) : Int) ∣ c.z ∧
      cellTest s g o emis opac l i (b, w) = .ok (
        let q := fun (dx dz : Int) => (⟨c.x + dx * (2 ^ l : Nat), c.z + dz * (2 ^ l : Nat)⟩ : Coord2)
        let v := fun (dx dz : Int) => (blockMean2 (fun c => chi c (la + w : Nat)) l (q dx dz), blockMean2 (fun c => eta c (la + w : Nat)) l (q dx dz))
        mipTest s.tol (1 / 4) 1e-15 (scale * (2 ^ l : Nat)) [v 0 0, v 1 0, v 0 1, v 1 1]) := by
  obtain ⟨c, h1, h2, h3, h4, h5⟩ := sub_ok hf hg g.lk l hl i hi b hb
  obtain ⟨me, e1, e2⟩ := chain_ok hf hg g.lk (o.mips w) (ho w) l (by omega) (emis w) _ (he w hw)
  obtain ⟨mc, c1, c2⟩ := chain_ok hf hg g.lk (o.mips w) (ho w) l (by omega) (opac w) _ (hc w hw)
  refine ⟨c, h1, h2, h3, h4, ?_⟩
  unfold cellTest
  have hds : (2 : Nat) ^ (l + 1) / 2 = 2 ^ l := by rw [pow_succ, Nat.mul_div_cancel _ (by omega)]
  simp only [e1, c1, Outcome.ok_bind, h5 me _ (e2 l le_rfl), h5 mc _ (c2 l le_rfl), hds, hg.vox, List.zip_cons_cons,
    List.zip_nil_right, zero_mul, one_mul, add_zero]

/-- the level of a tile -/
theorem level_ok (hf : Fits s k nx nz) (hg : Good s k nx nz nw eta chi scale g) (o : BatchOrder) (la wv : Nat) (hwv : 0 < wv)
    (ho : Orders s k nx nz wv o) (emis opac : Nat → Int → ℝ)
    (he : ∀ w, w < wv → StoredAt2 (2 ^ k) nx nz (fun _ => True) (mrOf s g g.lk) 0 (emis w) (fun c => eta c (la + w : Nat)))
    (hc : ∀ w, w < wv → StoredAt2 (2 ^ k) nx nz (fun _ => True) (mrOf s g g.lk) 0 (opac w) (fun c => chi c (la + w : Nat)))
    (i : Nat) (hi : i < g.bm.activeTiles.length) :
    ∃ L, tileLevel s g o wv emis opac i = .ok (L + 1) ∧
      IsLevel s k eta chi scale la wv (decodeMorton2 g.bm.activeTiles[i]) L := by
  have hT := fun l hl b hb w hw => test_ok hf hg o la wv ho.mips emis opac he hc l hl i hi b hb w hw
  obtain ⟨t1, t2⟩ := top_le hf
  rw [← hg.maxMip] at t1 t2
  obtain ⟨-, e, e1, e2, e3, -, e5, e6⟩ := C35_entry_partial s.E k 2 wv g.maxMip (by omega) hwv t1 t2
    (fun l bw => decide (cellTest s g o emis opac (l - 1) i bw = .ok true)) (o.tests i) (fun l _ _ => ho.tests i l)
  refine ⟨e - 1, ?_, ?_, ?_, ?_⟩
  · unfold tileLevel
    rw [if_pos, hf.block, e1]
    · congr 1; omega
    · rw [hf.block]
      rintro l hl ⟨b, w⟩ hbw
      obtain ⟨m1, m2⟩ := (mem_tileIters _ _ _ _ _).1 hbw
      obtain ⟨c, -, -, -, -, h⟩ := hT l (by omega) b m1 w m2
      exact ⟨_, h⟩
  · rw [← hg.maxMip]; omega
  · intro l hl c hct hx hz w hw
    obtain ⟨b, hb, hbc⟩ := sub_onto hf hg l (by omega) i hi c hct hx hz
    obtain ⟨c', h1, -, -, -, h5⟩ := hT l (by omega) b hb w hw
    rw [hbc] at h1
    obtain rfl : c = c' := by injection h1
    have := e5 (l + 1) (by omega) (by omega) b w hb hw
    rw [decide_eq_true_eq, Nat.add_sub_cancel, h5] at this
    injection this
  · intro hL hsm
    rw [← hg.maxMip] at hL
    obtain ⟨b, w, hb, hw, hfail⟩ := e6 (by omega)
    obtain ⟨l, rfl⟩ : ∃ l, e = l + 1 := ⟨e - 1, by omega⟩
    obtain ⟨c, -, h2, h3, h4, h5⟩ := hT l (by omega) b hb w hw
    rw [decide_eq_false_iff_not, Nat.add_sub_cancel, h5] at hfail
    rw [Nat.add_sub_cancel] at hsm
    exact hfail (congrArg Outcome.ok (hsm c h2 h3 h4 w hw))

theorem isLevel_unique (s : Settings) (k : Nat) (eta chi : Coord2 → Int → ℝ) (scale : ℝ) (la wv : Nat) (t : Coord2) (L L' : Nat)
    (h : IsLevel s k eta chi scale la wv t L) (h' : IsLevel s k eta chi scale la wv t L') : L = L' := by
  rcases Nat.lt_trichotomy L L' with hl | hl | hl
  · exact absurd (h'.smooth L hl) (h.largest (lt_of_lt_of_le hl h'.le))
  · exact hl
  · exact absurd (h.smooth L' hl) (h'.largest (lt_of_lt_of_le hl h.le))

/-- the packed levels -/
theorem pack_ok (hf : Fits s k nx nz) (hg : Good s k nx nz nw eta chi scale g) (o : BatchOrder) (la wv : Nat) (hwv : 0 < wv)
    (ho : Orders s k nx nz wv o) (emis opac : Nat → Int → ℝ)
    (he : ∀ w, w < wv → StoredAt2 (2 ^ k) nx nz (fun _ => True) (mrOf s g g.lk) 0 (emis w) (fun c => eta c (la + w : Nat)))
    (hc : ∀ w, w < wv → StoredAt2 (2 ^ k) nx nz (fun _ => True) (mrOf s g g.lk) 0 (opac w) (fun c => chi c (la + w : Nat)))
    (L : Coord2 → Nat)
    (hL : ∀ t : Coord2, 0 ≤ t.x → t.x < nx → 0 ≤ t.z → t.z < nz → IsLevel s k eta chi scale la wv t (L t)) :
    ∃ lk, packLevels s g o wv emis opac = .ok lk ∧
      LevelsFor (GridTile2 (2 ^ k) (nx * (2 ^ k : Nat)) (nz * (2 ^ k : Nat))) (fun _ => True) (mrOf s g lk) (fun t => (L t : Int)) := by
  have hgrid : ∀ t : Coord2, GridTile2 (2 ^ k) (nx * (2 ^ k : Nat)) (nz * (2 ^ k : Nat)) t ↔
      0 ≤ t.x ∧ t.x < nx ∧ 0 ≤ t.z ∧ t.z < nz := by
    intro t
    have hp : (0 : Int) < ((2 ^ k : Nat) : Int) := by exact_mod_cast Nat.two_pow_pos k
    unfold GridTile2
    constructor
    · rintro ⟨a, b, c, d⟩
      exact ⟨a, lt_of_mul_lt_mul_right b hp.le, c, lt_of_mul_lt_mul_right d hp.le⟩
    · rintro ⟨a, b, c, d⟩
      exact ⟨a, mul_lt_mul_of_pos_right b hp, c, mul_lt_mul_of_pos_right d hp⟩
  have hcount := hg.map.numbering.count
  rw [hg.num] at hcount
  have hlen : g.bm.activeTiles.length = nx * nz := by exact_mod_cast hcount
  have hN : g.bm.dims.x * g.bm.dims.z = ((nx * nz : Nat) : Int) := by rw [hg.map.dims]; push_cast; rfl
  have hlev : ∀ i (hi : i < g.bm.activeTiles.length), tileLevel s g o wv emis opac i = .ok (L (decodeMorton2 g.bm.activeTiles[i]) + 1) := by
    intro i hi
    obtain ⟨l, h1, h2⟩ := level_ok hf hg o la wv hwv ho emis opac he hc i hi
    obtain ⟨a, b, c, d⟩ := (hgrid _).1 (hg.map.numbering.listed i hi).1
    rw [h1, isLevel_unique s k eta chi scale la wv _ _ _ h2 (hL _ a b c d)]
  set F : Nat → Outcome (Int × Int) := fun i => do
      let m ← readAt g.bm.activeTiles i
      let key := g.lk.flat2 (decodeMorton2 m)
      let e ← tileLevel s g o wv emis opac i
      if 0 ≤ key ∧ key < g.bm.dims.x * g.bm.dims.z then .ok (key, (e : Int)) else .ub with hF
  have hFi : ∀ i (hi : i < g.bm.activeTiles.length), F i = .ok (g.lk.flat2 (decodeMorton2 g.bm.activeTiles[i]),
      ((L (decodeMorton2 g.bm.activeTiles[i]) + 1 : Nat) : Int)) := by
    intro i hi
    obtain ⟨a, b, c, d⟩ := (hgrid _).1 (hg.map.numbering.listed i hi).1
    obtain ⟨r1, r2⟩ := hg.range _ a b c d
    simp only [hF, readAt, List.getElem?_eq_getElem hi, Outcome.ok_bind, hlev i hi]
    rw [if_pos ⟨r1, by rw [hN]; push_cast; exact r2⟩]
  have hmem : ∀ i ∈ o.tiles, i < g.bm.activeTiles.length := by
    intro i hi; rw [hlen]; exact List.mem_range.1 ((ho.tiles.mem_iff).1 hi)
  obtain ⟨arr, a1, -, a3⟩ := writeLoop_spec F o.tiles (fun _ => (0 : Int)) (fun i hi => ⟨_, _, hFi i (hmem i hi)⟩)
  have harr : ∀ t, GridTile2 (2 ^ k) (nx * (2 ^ k : Nat)) (nz * (2 ^ k : Nat)) t → arr (g.lk.flat2 t) = ((L t + 1 : Nat) : Int) := by
    intro t ht
    obtain ⟨l0, l1⟩ := hg.map.numbering.active t ht trivial
    have hi : (g.bm.lookup t).toNat < g.bm.activeTiles.length := by rw [hlen]; rw [hg.num] at l1; zify; omega
    obtain ⟨d1, -, d3⟩ := hg.map.numbering.listed _ hi
    rw [Int.toNat_of_nonneg l0] at d3
    have hdt := hg.map.numbering.injective _ _ d1 ht trivial trivial d3
    refine a3 _ _ ⟨(g.bm.lookup t).toNat, ?_, _, by rw [hFi _ hi, hdt]⟩ ?_
    · rw [ho.tiles.mem_iff, List.mem_range, ← hlen]; exact hi
    · intro j hj v hv
      rw [hFi j (hmem j hj)] at hv
      injection hv with hv
      injection hv with hv1 hv2
      obtain ⟨p1, p2, p3, p4⟩ := (hgrid _).1 (hg.map.numbering.listed j (hmem j hj)).1
      obtain ⟨q1, q2, q3, q4⟩ := (hgrid _).1 ht
      rw [← hv2, hg.inj _ _ p1 p2 p3 p4 q1 q2 q3 q4 hv1]
  refine ⟨g.lk.pack s.E ((List.range (g.bm.dims.x * g.bm.dims.z).toNat).map fun j : Nat => arr (j : Int)), ?_, ?_⟩
  · show (writeLoop F o.tiles (fun _ => (0 : Int)) >>= fun arr => Outcome.ok (g.lk.pack s.E
      ((List.range (g.bm.dims.x * g.bm.dims.z).toNat).map fun j : Nat => arr (j : Int)))) = _
    rw [a1]; rfl
  · obtain ⟨t1, t2⟩ := top_le hf
    refine ⟨fun t ht => ?_, fun t ht => ?_, fun _ _ _ => trivial⟩
    · obtain ⟨q1, q2, q3, q4⟩ := (hgrid _).1 ht
      obtain ⟨r1, r2⟩ := hg.range _ q1 q2 q3 q4
      have hle := (hL t q1 q2 q3 q4).le
      have := hg.pack ((List.range (g.bm.dims.x * g.bm.dims.z).toNat).map fun j : Nat => arr (j : Int))
        (by rw [List.length_map, List.length_range, hN, Int.toNat_natCast]) t q1 q2 q3 q4 (L t + 1 : Nat) (by
          rw [List.getElem?_map, List.getElem?_range (by rw [hN, Int.toNat_natCast]; zify; push_cast; omega)]
          simp only [Option.map_some, Int.toNat_of_nonneg r1]
          rw [harr t ht])
      show MLLookup.get s.E _ (g.lk.flat2 t) = _
      rw [this]
      congr 1
      have hp : ((L t + 1 : Nat) : Int) < 2 ^ s.E := by
        have : L t + 1 < 2 ^ s.E := by omega
        exact_mod_cast this
      rw [Int.emod_eq_of_lt (by omega) hp]
      push_cast; rfl
    · obtain ⟨q1, q2, q3, q4⟩ := (hgrid _).1 ht
      have hle := (hL t q1 q2 q3 q4).le
      refine ⟨by omega, ?_⟩
      show (L t : Int) < ((2 ^ s.E - 1 : Nat) : Int)
      have : L t < 2 ^ s.E - 1 := by omega
      exact_mod_cast this

end

end DexRT.Given
