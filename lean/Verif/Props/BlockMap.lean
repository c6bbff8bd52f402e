import Verif.Lemmas.Grid
/-!
C03, C04, C41: block-map construction numbers the active tiles without gaps or repeats.
-/
namespace DexRT
/-! ## C03 -/

/-- C03 (2D): a dense map of whole tiles succeeds, has all `nx*nz` tiles active, and is a numbering. -/
theorem C03_dense2 (B nx nz : Nat) (h : GoodSize2 B nx nz) :
    ∃ bm, setupDense2 B (nx * B) (nz * B) = .ok bm ∧
      bm.numActive = nx * nz ∧ bm.dims = { x := nx, z := nz } ∧
      bm.bboxMax = { x := nx * B, z := nz * B } ∧
      bm.activeTiles.Pairwise (fun a b => a.toNat ≤ b.toNat) ∧
      TileNumbering decodeMorton2 (GridTile2 B (nx * B) (nz * B)) (fun _ => True) bm := by
  obtain ⟨hB, hx, hz, hcap⟩ := h
  obtain ⟨hin, hnd, hall⟩ := order2 nx nz hx hz
  obtain ⟨e, he, h1, h2, h3, h4⟩ := assign_numbering _ _ (fun _ => true) _ hin hnd hall
  have hfil : (sortCodes (tileCodes2 { x := nx, z := nz })).filter (fun _ => true) =
      sortCodes (tileCodes2 { x := nx, z := nz }) := List.filter_true _
  simp only [hfil] at he h1 h4
  have hlen : ((sortCodes (tileCodes2 { x := (nx : Int), z := nz })).length : Int) = nx * nz := by
    rw [(sortCodes_perm _).length_eq]
    exact length_tiles2 _ (by show (0 : Int) ≤ nx; omega) (by show (0 : Int) ≤ nz; omega)
  have hprod : (nx : Int) * nz ≤ i32Max := by
    refine le_trans ?_ hcap
    have := le_mul_pos ((nx : Int) * nz) (B * B) (by positivity) (by positivity)
    push_cast at this; exact this
  refine ⟨{ dims := { x := nx, z := nz }, numActive := nx * nz,
            bboxMax := { x := nx * B, z := nz * B }, lookup := e,
            mortonOrder := sortCodes (tileCodes2 { x := nx, z := nz }),
            activeTiles := sortCodes (tileCodes2 { x := nx, z := nz }) }, ?_, ?_⟩
  · unfold setupDense2
    simp only [(size_tile B nx hB).1, (size_tile B nz hB).1, (size_tile B nx hB).2,
      (size_tile B nz hB).2, ne_eq, not_true_eq_false, or_self, if_false, mulI32,
      fits_of _ (by positivity) hprod, if_true, Outcome.ok_bind, not_lt.2 hcap, he]
  · refine ⟨rfl, rfl, rfl, sortCodes_sorted _, ?_⟩
    refine ⟨hlen, ?_, ?_, ?_, ?_⟩
    · intro c hc _
      have := h1 c ((grid2_iff B nx nz hB c).1 hc) trivial
      rw [hlen] at this; exact this
    · intro c _ hc; exact absurd trivial hc
    · intro c c' hc hc' _ _ hcc
      exact h3 c c' ((grid2_iff B nx nz hB c).1 hc) ((grid2_iff B nx nz hB c').1 hc') rfl rfl hcc
    · intro i hi
      have := h4 i hi
      exact ⟨(grid2_iff B nx nz hB _).2 this.1, trivial, this.2.2⟩

/-- C03 (3D). -/
theorem C03_dense3 (B nx ny nz : Nat) (h : GoodSize3 B nx ny nz) :
    ∃ bm, setupDense3 B (nx * B) (ny * B) (nz * B) = .ok bm ∧
      bm.numActive = nx * ny * nz ∧ bm.dims = { x := nx, y := ny, z := nz } ∧
      bm.bboxMax = { x := nx * B, y := ny * B, z := nz * B } ∧
      bm.activeTiles.Pairwise (fun a b => a.toNat ≤ b.toNat) ∧
      TileNumbering decodeMorton3 (GridTile3 B (nx * B) (ny * B) (nz * B)) (fun _ => True) bm := by
  obtain ⟨hB, hx, hy, hz, hcap⟩ := h
  obtain ⟨hin, hnd, hall⟩ := order3 nx ny nz hx hy hz
  obtain ⟨e, he, h1, h2, h3, h4⟩ := assign_numbering _ _ (fun _ => true) _ hin hnd hall
  have hfil : (sortCodes (tileCodes3 { x := nx, y := ny, z := nz })).filter (fun _ => true) =
      sortCodes (tileCodes3 { x := nx, y := ny, z := nz }) := List.filter_true _
  simp only [hfil] at he h1 h4
  have hlen : ((sortCodes (tileCodes3 { x := (nx : Int), y := ny, z := nz })).length : Int) = nx * ny * nz := by
    rw [(sortCodes_perm _).length_eq]
    exact length_tiles3 _ (by show (0 : Int) ≤ nx; omega) (by show (0 : Int) ≤ ny; omega)
      (by show (0 : Int) ≤ nz; omega)
  have hprod1 : (nx : Int) * ny ≤ i32Max := by
    have : nx * ny ≤ 1024 * 1024 := Nat.mul_le_mul hx hy
    unfold i32Max; have : ((nx * ny : Nat) : Int) ≤ 1024 * 1024 := by exact_mod_cast this
    push_cast at this; omega
  have hprod : (nx : Int) * ny * nz ≤ i32Max := by
    refine le_trans ?_ hcap
    have := le_mul_pos ((nx : Int) * ny * nz) (B * B * B) (by positivity) (by positivity)
    push_cast at this; exact this
  refine ⟨{ dims := { x := nx, y := ny, z := nz }, numActive := nx * ny * nz,
            bboxMax := { x := nx * B, y := ny * B, z := nz * B }, lookup := e,
            mortonOrder := sortCodes (tileCodes3 { x := nx, y := ny, z := nz }),
            activeTiles := sortCodes (tileCodes3 { x := nx, y := ny, z := nz }) }, ?_, ?_⟩
  · unfold setupDense3
    simp only [(size_tile B nx hB).1, (size_tile B ny hB).1, (size_tile B nz hB).1, (size_tile B nx hB).2,
      (size_tile B ny hB).2, (size_tile B nz hB).2, ne_eq, not_true_eq_false, or_self, if_false, mulI32,
      fits_of _ (by positivity) hprod, fits_of _ (by positivity) hprod1,
      if_true, Outcome.ok_bind, not_lt.2 hcap, he]
  · refine ⟨rfl, rfl, rfl, sortCodes_sorted _, ?_⟩
    refine ⟨hlen, ?_, ?_, ?_, ?_⟩
    · intro c hc _
      have := h1 c ((grid3_iff B nx ny nz hB c).1 hc) trivial
      rw [hlen] at this; exact this
    · intro c _ hc; exact absurd trivial hc
    · intro c c' hc hc' _ _ hcc
      exact h3 c c' ((grid3_iff B nx ny nz hB c).1 hc) ((grid3_iff B nx ny nz hB c').1 hc') rfl rfl hcc
    · intro i hi
      have := h4 i hi
      exact ⟨(grid3_iff B nx ny nz hB _).2 this.1, trivial, this.2.2⟩

/-- C03: a side that is not a whole number of tiles is rejected (2D). -/
theorem C03_reject2 (B : Nat) (xs zs : Int) (h : ¬ ((B : Int) ∣ xs ∧ (B : Int) ∣ zs)) :
    setupDense2 B xs zs = .throws := by
  unfold setupDense2
  rw [if_pos]
  by_contra hc
  push Not at hc
  exact h ⟨Int.dvd_of_tmod_eq_zero hc.1, Int.dvd_of_tmod_eq_zero hc.2⟩

/-- C03: a side that is not a whole number of tiles is rejected (3D). -/
theorem C03_reject3 (B : Nat) (xs ys zs : Int)
    (h : ¬ ((B : Int) ∣ xs ∧ (B : Int) ∣ ys ∧ (B : Int) ∣ zs)) :
    setupDense3 B xs ys zs = .throws := by
  unfold setupDense3
  rw [if_pos]
  by_contra hc
  push Not at hc
  exact h ⟨Int.dvd_of_tmod_eq_zero hc.1, Int.dvd_of_tmod_eq_zero hc.2.1, Int.dvd_of_tmod_eq_zero hc.2.2⟩

/-! ## C04 -/

section
variable {F : Type} [LE F] [DecidableLE F]

/-- C04 (2D): for every temperature field and cutoff, the sparse map succeeds and numbers exactly the
tiles with a cell at or below the cutoff (all tiles when the cutoff is zero). -/
theorem C04_sparse2 (B nx nz : Nat) (h : GoodSize2 B nx nz) (temp : Int → Int → F) (cutoff : F)
    (cutoffIsZero : Bool) :
    ∃ bm, setupSparse2 B (nx * B) (nz * B) temp cutoff cutoffIsZero = .ok bm ∧
      bm.dims = { x := nx, z := nz } ∧ bm.bboxMax = { x := nx * B, z := nz * B } ∧
      bm.activeTiles.Pairwise (fun a b => a.toNat ≤ b.toNat) ∧
      TileNumbering decodeMorton2 (GridTile2 B (nx * B) (nz * B))
        (fun c => cutoffIsZero = true ∨ HasColdCell2 B temp cutoff c) bm := by
  obtain ⟨hB, hx, hz, hcap⟩ := h
  obtain ⟨hin, hnd, hall⟩ := order2 nx nz hx hz
  obtain ⟨e, he, h1, h2, h3, h4⟩ := assign_numbering _ _
    (fun c => cutoffIsZero || scanTile2 B temp cutoff c) _ hin hnd hall
  have hact : ∀ c, ((cutoffIsZero || scanTile2 B temp cutoff c) = true) ↔
      (cutoffIsZero = true ∨ HasColdCell2 B temp cutoff c) := by
    intro c; rw [Bool.or_eq_true, scan2_iff]
  have hlen : ((sortCodes (tileCodes2 { x := (nx : Int), z := nz })).length : Int) = nx * nz := by
    rw [(sortCodes_perm _).length_eq]
    exact length_tiles2 _ (by show (0 : Int) ≤ nx; omega) (by show (0 : Int) ≤ nz; omega)
  have hprod : (nx : Int) * nz ≤ i32Max := by
    refine le_trans ?_ hcap
    have := le_mul_pos ((nx : Int) * nz) (B * B) (by positivity) (by positivity)
    push_cast at this; exact this
  set act := fun m => (cutoffIsZero || scanTile2 B temp cutoff (decodeMorton2 m)) with hactdef
  set order := sortCodes (tileCodes2 { x := (nx : Int), z := nz }) with horder
  have hflen : ((order.filter act).length : Int) ≤ nx * nz := by
    rw [← hlen]; exact_mod_cast List.length_filter_le _ _
  have hcap' : ((order.filter act).length : Int) * (B * B) ≤ i32Max := by
    refine le_trans ?_ hcap
    exact mul_le_mul_of_nonneg_right hflen (by positivity)
  have hlist : (if cutoffIsZero = true then order else order.filter act) = order.filter act := by
    split
    · rename_i hz
      symm; rw [List.filter_eq_self]; intro a _; simp [hactdef, hz]
    · rfl
  refine ⟨{ dims := { x := nx, z := nz }, numActive := (order.filter act).length,
            bboxMax := { x := nx * B, z := nz * B }, lookup := e,
            mortonOrder := order, activeTiles := order.filter act }, ?_, ?_⟩
  · unfold setupSparse2
    simp only [(size_tile B nx hB).1, (size_tile B nz hB).1, (size_tile B nx hB).2,
      (size_tile B nz hB).2, ne_eq, not_true_eq_false, or_self, if_false, mulI32,
      fits_of _ (by positivity) hprod, if_true, Outcome.ok_bind, gt_iff_lt, ← horder, he, ← hactdef,
      not_lt.2 hcap', hlist]
  · refine ⟨rfl, rfl, (sortCodes_sorted _).filter _, ?_⟩
    refine ⟨rfl, ?_, ?_, ?_, ?_⟩
    · intro c hc ha
      exact h1 c ((grid2_iff B nx nz hB c).1 hc) ((hact c).2 ha)
    · intro c hc ha
      exact h2 c ((grid2_iff B nx nz hB c).1 hc) (by rw [← Bool.not_eq_true, hact]; exact ha)
    · intro c c' hc hc' ha ha' hcc
      exact h3 c c' ((grid2_iff B nx nz hB c).1 hc) ((grid2_iff B nx nz hB c').1 hc')
        ((hact c).2 ha) ((hact c').2 ha') hcc
    · intro i hi
      have := h4 i hi
      exact ⟨(grid2_iff B nx nz hB _).2 this.1, (hact _).1 this.2.1, this.2.2⟩

/-- C04 (3D). -/
theorem C04_sparse3 (B nx ny nz : Nat) (h : GoodSize3 B nx ny nz) (temp : Int → Int → Int → F)
    (cutoff : F) (cutoffIsZero : Bool) :
    ∃ bm, setupSparse3 B (nx * B) (ny * B) (nz * B) temp cutoff cutoffIsZero = .ok bm ∧
      bm.dims = { x := nx, y := ny, z := nz } ∧
      bm.bboxMax = { x := nx * B, y := ny * B, z := nz * B } ∧
      bm.activeTiles.Pairwise (fun a b => a.toNat ≤ b.toNat) ∧
      TileNumbering decodeMorton3 (GridTile3 B (nx * B) (ny * B) (nz * B))
        (fun c => cutoffIsZero = true ∨ HasColdCell3 B temp cutoff c) bm := by
  obtain ⟨hB, hx, hy, hz, hcap⟩ := h
  obtain ⟨hin, hnd, hall⟩ := order3 nx ny nz hx hy hz
  obtain ⟨e, he, h1, h2, h3, h4⟩ := assign_numbering _ _
    (fun c => cutoffIsZero || scanTile3 B temp cutoff c) _ hin hnd hall
  have hact : ∀ c, ((cutoffIsZero || scanTile3 B temp cutoff c) = true) ↔
      (cutoffIsZero = true ∨ HasColdCell3 B temp cutoff c) := by
    intro c; rw [Bool.or_eq_true, scan3_iff]
  have hlen : ((sortCodes (tileCodes3 { x := (nx : Int), y := ny, z := nz })).length : Int) = nx * ny * nz := by
    rw [(sortCodes_perm _).length_eq]
    exact length_tiles3 _ (by show (0 : Int) ≤ nx; omega) (by show (0 : Int) ≤ ny; omega)
      (by show (0 : Int) ≤ nz; omega)
  have hprod1 : (nz : Int) * ny ≤ i32Max := by
    have : nz * ny ≤ 1024 * 1024 := Nat.mul_le_mul hz hy
    unfold i32Max; have : ((nz * ny : Nat) : Int) ≤ 1024 * 1024 := by exact_mod_cast this
    push_cast at this; omega
  have hprod : (nz : Int) * ny * nx ≤ i32Max := by
    refine le_trans ?_ hcap
    have := le_mul_pos ((nx : Int) * ny * nz) (B * B * B) (by positivity) (by positivity)
    push_cast at this; rw [show (nz : Int) * ny * nx = nx * ny * nz by ac_rfl]; exact this
  set act := fun m => (cutoffIsZero || scanTile3 B temp cutoff (decodeMorton3 m)) with hactdef
  set order := sortCodes (tileCodes3 { x := (nx : Int), y := ny, z := nz }) with horder
  have hflen : ((order.filter act).length : Int) ≤ nx * ny * nz := by
    rw [← hlen]; exact_mod_cast List.length_filter_le _ _
  have hcap' : ((order.filter act).length : Int) * (B * B * B) ≤ i32Max := by
    refine le_trans ?_ hcap
    exact mul_le_mul_of_nonneg_right hflen (by positivity)
  have hlist : (if cutoffIsZero = true then order else order.filter act) = order.filter act := by
    split
    · rename_i hz
      symm; rw [List.filter_eq_self]; intro a _; simp [hactdef, hz]
    · rfl
  refine ⟨{ dims := { x := nx, y := ny, z := nz }, numActive := (order.filter act).length,
            bboxMax := { x := nx * B, y := ny * B, z := nz * B }, lookup := e,
            mortonOrder := order, activeTiles := order.filter act }, ?_, ?_⟩
  · unfold setupSparse3
    simp only [(size_tile B nx hB).1, (size_tile B ny hB).1, (size_tile B nz hB).1, (size_tile B nx hB).2,
      (size_tile B ny hB).2, (size_tile B nz hB).2, ne_eq, not_true_eq_false, or_self, if_false, mulI32,
      fits_of _ (by positivity) hprod, fits_of _ (by positivity) hprod1, if_true, Outcome.ok_bind,
      gt_iff_lt, ← horder, he, ← hactdef, not_lt.2 hcap', hlist]
  · refine ⟨rfl, rfl, (sortCodes_sorted _).filter _, ?_⟩
    refine ⟨rfl, ?_, ?_, ?_, ?_⟩
    · intro c hc ha
      exact h1 c ((grid3_iff B nx ny nz hB c).1 hc) ((hact c).2 ha)
    · intro c hc ha
      exact h2 c ((grid3_iff B nx ny nz hB c).1 hc) (by rw [← Bool.not_eq_true, hact]; exact ha)
    · intro c c' hc hc' ha ha' hcc
      exact h3 c c' ((grid3_iff B nx ny nz hB c).1 hc) ((grid3_iff B nx ny nz hB c').1 hc')
        ((hact c).2 ha) ((hact c').2 ha') hcc
    · intro i hi
      have := h4 i hi
      exact ⟨(grid3_iff B nx ny nz hB _).2 this.1, (hact _).1 this.2.1, this.2.2⟩

/-- C04: a side that is not a whole number of tiles is rejected (2D). -/
theorem C04_reject2 (B : Nat) (xs zs : Int) (temp : Int → Int → F) (cutoff : F) (b : Bool)
    (h : ¬ ((B : Int) ∣ xs ∧ (B : Int) ∣ zs)) : setupSparse2 B xs zs temp cutoff b = .throws := by
  unfold setupSparse2
  rw [if_pos]
  by_contra hc
  push Not at hc
  exact h ⟨Int.dvd_of_tmod_eq_zero hc.2, Int.dvd_of_tmod_eq_zero hc.1⟩

/-- C04: a side that is not a whole number of tiles is rejected (3D). -/
theorem C04_reject3 (B : Nat) (xs ys zs : Int) (temp : Int → Int → Int → F) (cutoff : F) (b : Bool)
    (h : ¬ ((B : Int) ∣ xs ∧ (B : Int) ∣ ys ∧ (B : Int) ∣ zs)) :
    setupSparse3 B xs ys zs temp cutoff b = .throws := by
  unfold setupSparse3
  rw [if_pos]
  by_contra hc
  push Not at hc
  exact h ⟨Int.dvd_of_tmod_eq_zero hc.2.2, Int.dvd_of_tmod_eq_zero hc.2.1, Int.dvd_of_tmod_eq_zero hc.1⟩

end

/-! ## C41: maps read from a sparse atmosphere file -/

/-- C41 (2D): if the file lists distinct codes of tiles inside the grid, and its sizes agree, the map is
a numbering of exactly the listed tiles, whatever order the parallel writes happen in. -/
theorem C41_file2 (B nx nz : Nat) (hB : 0 < B) (tiles : List (BitVec 32))
    (sched : List (BitVec 32 × Nat)) (hs : sched.Perm tiles.zipIdx)
    (hin : ∀ m ∈ tiles, GridTile2 B (nx * B) (nz * B) (decodeMorton2 m)) (hnd : tiles.Nodup)
    (hfit : (tiles.length : Int) * (B * B) ≤ i32Max) :
    ∃ bm, setupFromFile2 B (nx * B) (nz * B) tiles.length (tiles.length * (B * B)) tiles sched = .ok bm ∧
      bm.activeTiles = tiles ∧ bm.numActive = tiles.length ∧ bm.bboxMax = { x := nx * B, z := nz * B } ∧
      TileNumbering decodeMorton2 (GridTile2 B (nx * B) (nz * B)) (fun c => c ∈ tiles.map decodeMorton2) bm := by
  have hinj : Function.Injective decodeMorton2 := fun a b hab => by
    rw [← encode_decode2 a, ← encode_decode2 b, hab]
  have hndd : (tiles.map decodeMorton2).Nodup := hnd.map hinj
  obtain ⟨e, he, h1, h2⟩ := file_numbering (inDims2 { x := nx, z := nz }) decodeMorton2 tiles sched hs
    (fun m hm => (grid2_iff B nx nz hB _).1 (hin m hm)) hndd
  refine ⟨{ dims := { x := nx, z := nz }, numActive := tiles.length,
            bboxMax := { x := nx * B, z := nz * B }, lookup := e,
            mortonOrder := sortCodes (tileCodes2 { x := nx, z := nz }), activeTiles := tiles }, ?_, ?_⟩
  · unfold setupFromFile2
    simp only [(size_tile B nx hB).1, (size_tile B nz hB).1, (size_tile B nx hB).2,
      (size_tile B nz hB).2, ne_eq, not_true_eq_false, or_self, if_false, mulI32,
      fits_of _ (by positivity) hfit, if_true, Outcome.ok_bind, he]
  · refine ⟨rfl, rfl, rfl, rfl, ?_, fun c _ hc => h2 c hc, ?_, ?_⟩
    · intro c _ hc
      obtain ⟨m, hm, rfl⟩ := List.mem_map.1 hc
      obtain ⟨i, hi, rfl⟩ := List.getElem_of_mem hm
      have := h1 i hi
      show 0 ≤ e _ ∧ e _ < (tiles.length : Int)
      rw [this]; exact ⟨by omega, by exact_mod_cast hi⟩
    · intro c c' _ _ hc hc' hcc
      obtain ⟨m, hm, rfl⟩ := List.mem_map.1 hc
      obtain ⟨i, hi, rfl⟩ := List.getElem_of_mem hm
      obtain ⟨m', hm', rfl⟩ := List.mem_map.1 hc'
      obtain ⟨j, hj, rfl⟩ := List.getElem_of_mem hm'
      change e _ = e _ at hcc
      rw [h1 i hi, h1 j hj] at hcc
      have : i = j := by exact_mod_cast hcc
      subst this; rfl
    · intro i hi
      exact ⟨hin _ (List.getElem_mem hi), List.mem_map_of_mem (List.getElem_mem hi), h1 i hi⟩

/-- C41 (3D): as in 2D; codes must be below 2^30 (the codes of real tiles) to be told apart. -/
theorem C41_file3 (B nx ny nz : Nat) (hB : 0 < B) (tiles : List (BitVec 32))
    (sched : List (BitVec 32 × Nat)) (hs : sched.Perm tiles.zipIdx)
    (hin : ∀ m ∈ tiles, GridTile3 B (nx * B) (ny * B) (nz * B) (decodeMorton3 m))
    (hcode : ∀ m ∈ tiles, m.toNat < 2 ^ 30) (hnd : tiles.Nodup)
    (hfit : (tiles.length : Int) * (B * B * B) ≤ i32Max) :
    ∃ bm, setupFromFile3 B (nx * B) (ny * B) (nz * B) tiles.length (tiles.length * (B * B * B)) tiles sched
        = .ok bm ∧
      bm.activeTiles = tiles ∧ bm.numActive = tiles.length ∧
      bm.bboxMax = { x := nx * B, y := ny * B, z := nz * B } ∧
      TileNumbering decodeMorton3 (GridTile3 B (nx * B) (ny * B) (nz * B))
        (fun c => c ∈ tiles.map decodeMorton3) bm := by
  have hndd : (tiles.map decodeMorton3).Nodup := by
    refine List.Nodup.map_on ?_ hnd
    intro a ha b hb hab
    rw [← encode_decode3 a (hcode a ha), ← encode_decode3 b (hcode b hb), hab]
  obtain ⟨e, he, h1, h2⟩ := file_numbering (inDims3 { x := nx, y := ny, z := nz }) decodeMorton3 tiles
    sched hs (fun m hm => (grid3_iff B nx ny nz hB _).1 (hin m hm)) hndd
  refine ⟨{ dims := { x := nx, y := ny, z := nz }, numActive := tiles.length,
            bboxMax := { x := nx * B, y := ny * B, z := nz * B }, lookup := e,
            mortonOrder := sortCodes (tileCodes3 { x := nx, y := ny, z := nz }),
            activeTiles := tiles }, ?_, ?_⟩
  · unfold setupFromFile3
    simp only [(size_tile B nx hB).1, (size_tile B ny hB).1, (size_tile B nz hB).1, (size_tile B nx hB).2,
      (size_tile B ny hB).2, (size_tile B nz hB).2, ne_eq, not_true_eq_false, or_self, if_false, mulI32,
      fits_of _ (by positivity) hfit, if_true, Outcome.ok_bind, he]
  · refine ⟨rfl, rfl, rfl, rfl, ?_, fun c _ hc => h2 c hc, ?_, ?_⟩
    · intro c _ hc
      obtain ⟨m, hm, rfl⟩ := List.mem_map.1 hc
      obtain ⟨i, hi, rfl⟩ := List.getElem_of_mem hm
      have := h1 i hi
      show 0 ≤ e _ ∧ e _ < (tiles.length : Int)
      rw [this]; exact ⟨by omega, by exact_mod_cast hi⟩
    · intro c c' _ _ hc hc' hcc
      obtain ⟨m, hm, rfl⟩ := List.mem_map.1 hc
      obtain ⟨i, hi, rfl⟩ := List.getElem_of_mem hm
      obtain ⟨m', hm', rfl⟩ := List.mem_map.1 hc'
      obtain ⟨j, hj, rfl⟩ := List.getElem_of_mem hm'
      change e _ = e _ at hcc
      rw [h1 i hi, h1 j hj] at hcc
      have : i = j := by exact_mod_cast hcc
      subst this; rfl
    · intro i hi
      exact ⟨hin _ (List.getElem_mem hi), List.mem_map_of_mem (List.getElem_mem hi), h1 i hi⟩

/-- C41: the file is trusted: a file that lists a tile twice is accepted, and the resulting map is not a
numbering (slot 0 of the active list and slot 1 claim the same tile). -/
theorem C41_duplicates_accepted :
    ∃ bm, setupFromFile2 16 32 32 2 512 [0#32, 0#32] [(0#32, 0), (0#32, 1)] = .ok bm ∧
      ¬ TileNumbering decodeMorton2 (GridTile2 16 32 32) (fun c => c ∈ [0#32, 0#32].map decodeMorton2) bm := by
  refine ⟨_, rfl, ?_⟩
  intro h
  have := (h.listed 0 (by decide)).2.2
  revert this
  decide

example : ([3#32, 0#32] : List (BitVec 32)).Nodup ∧
    ∀ m ∈ ([3#32, 0#32] : List (BitVec 32)), GridTile2 16 32 32 (decodeMorton2 m) := by
  refine ⟨by decide, ?_⟩
  intro m hm
  rcases List.mem_cons.1 hm with rfl | hm
  · unfold GridTile2; decide
  · rw [List.mem_singleton] at hm; subst hm; unfold GridTile2; decide

/-- Non-vacuity: 1024 x 512 cells of 16x16 tiles; 512^3 cells of 8^3 tiles. -/
example : GoodSize2 16 64 32 := by unfold GoodSize2 i32Max; decide
example : GoodSize3 8 64 64 64 := by unfold GoodSize3 i32Max; decide
/-- A concrete 2x2-tile map with one cold cell: one active tile, number 0. -/
example : (setupSparse2 2 4 4 (fun z x => if z = 3 ∧ x = 0 then (1 : Int) else 9) 5 false).bind
    (fun bm => .ok (bm.numActive, bm.lookup ⟨0, 1⟩, bm.lookup ⟨0, 0⟩)) = .ok (1, 0, -1) := by
  decide +kernel

end DexRT
