import Verif.Lemmas.AtmosFile
import Verif.Props.Sparse
import Verif.Props.BlockMap
/-!
C81: reading the model atmosphere. Vocabulary: `Verif/Spec/AtmosFile.lean`.
-/
namespace DexRT
namespace AtmosFile

section
variable {W V : Type} [LE V] [DecidableLE V]

/-- C81 (2D, dense file): for every complete file on a whole number of tiles, every threshold and every schedule of the
kernels, the load succeeds, exactly the tiles with a cell at or below the threshold are kept (all of them when it is
zero), every kept cell has the file's values under the right names, and the atmosphere counts as moving exactly when a
cell of the file is faster than 10 m/s. -/
theorem C81_dense2 (k nx nz : Nat) (hg : GoodSize2 (2 ^ k) nx nz) (hx : FitsI32Axis k nx) (hz : FitsI32Axis k nz)
    (fl : FloatOps V) (num : V → Prop) (hl : FloatLaws fl num) (cv : W → V) (isZero : V → Bool) (f : NcFile Coord2 W)
    (hf : DenseFile2 (2 ^ k) nx nz f) (cutoff : V) (sc : Sched Coord2)
    (hs : GoodSched (2 ^ k * 2 ^ k) inDims2 sc) (junk : Atmos Int V) :
    ∃ bm a temp, f.grid "temperature" = some temp ∧ load2 (2 ^ k) fl cv isZero f cutoff sc junk = .ok (bm, a) ∧
      let Active : Coord2 → Prop := fun t =>
        isZero cutoff = true ∨ HasColdCell2 (2 ^ k) (fun z x => cv (temp { x := x, z := z })) cutoff t
      MapFor2 (2 ^ k) nx nz Active bm ∧
      (∀ c, HasData2 (2 ^ k) nx nz Active c → ∀ adr, Addr2 (2 ^ k) bm c adr → CellIs cv fl.zero f.grid a c adr) ∧
      ScalarsAre cv fl.zero f.scalar a ∧
      (a.moving = true ↔ ∃ c, InGrid2 (2 ^ k) nx nz c ∧ Fast fl cv f.grid c) := by
  obtain ⟨hsp, hdx, hdz, hc⟩ := hf
  obtain ⟨a0, ha0⟩ := readFields_ok fl cv f.scalar f.grid
    (sc.dense { x := nx * (2 ^ k : Nat), z := nz * (2 ^ k : Nat) }) hc
  have hr := readFields_is _ _ _ _ _ _ ha0
  obtain ⟨temp, htemp⟩ := Option.isSome_iff_exists.1 (hc.2 "temperature" (by simp [required]))
  have hT : ∀ c, a0.temperature c = cv (temp c) := by
    intro c
    have := hr.temperature c
    rw [htemp] at this
    simpa using this.symm
  obtain ⟨bm, hbm, hd, hb, _, hn⟩ := C04_sparse2 (2 ^ k) nx nz hg (fun z x => a0.temperature { x := x, z := z }) cutoff (isZero cutoff)
  have hm : MapFor2 (2 ^ k) nx nz (fun t =>
        isZero cutoff = true ∨ HasColdCell2 (2 ^ k) (fun z x => cv (temp { x := x, z := z })) cutoff t) bm := by
    have he : (fun z x => a0.temperature { x := x, z := z }) = (fun z x => cv (temp { x := x, z := z })) := by
      funext z x; exact hT _
    rw [he] at hn
    exact ⟨hd, hb, hn⟩
  obtain ⟨s, hsok, s0, s1, s2, s3, s4, s5⟩ := sparsify_spec
    (fun src old => sparsifyField2 (2 ^ k) bm { x := nx * (2 ^ k : Nat), z := nz * (2 ^ k : Nat) } src (sc.kernel bm) old)
    (fun c adr => HasData2 (2 ^ k) nx nz _ c ∧ Addr2 (2 ^ k) bm c adr)
    (fun src old => by
      obtain ⟨s, h1, h2⟩ := C36_sparsify2 k nx nz _ bm hx hz hm src (sc.kernel bm) (hs.kernel bm) old
      exact ⟨s, h1, fun c adr h => h2 c h.1 adr h.2⟩) a0 junk
  refine ⟨bm, s, temp, htemp, ?_, hm, ?_, scalars_of_read hr s s0 s1 s2 s3, ?_⟩
  · have hsp' : isSparse f = .ok false := by
      unfold isSparse
      rcases hsp with h | h <;> rw [h]
      rfl
    unfold load2 loadDense2
    rw [hsp', hdx, hdz]
    simp only [need, Outcome.ok_bind, Bool.false_eq_true, if_false, ha0, hbm, hsok]
  · intro c hcd adr hadr
    obtain ⟨p1, p2, p3, p4, p5, p6, p7, p8, p9⟩ := s5 c adr ⟨hcd, hadr⟩
    exact ⟨by rw [p1]; exact hr.temperature c, by rw [p2]; exact hr.pressure c, by rw [p3]; exact hr.ne c,
      by rw [p4]; exact hr.nhTot c, by rw [p6]; exact hr.vturb c, by rw [p7]; exact hr.vx c, by rw [p8]; exact hr.vy c,
      by rw [p9]; exact hr.vz c, by rw [p5]; exact hr.nh0 c⟩
  · rw [s4, moving_of_read hl hr]
    refine exists_congr fun c => and_congr_left fun _ => ?_
    rw [hs.dense, inGrid2_inDims]

/-- C81 (3D, dense file). -/
theorem C81_dense3 (k nx ny nz : Nat) (hg : GoodSize3 (2 ^ k) nx ny nz) (hx : FitsI32Axis k nx) (hy : FitsI32Axis k ny)
    (hz : FitsI32Axis k nz) (fl : FloatOps V) (num : V → Prop) (hl : FloatLaws fl num) (cv : W → V) (isZero : V → Bool)
    (f : NcFile Coord3 W)
    (hf : DenseFile3 (2 ^ k) nx ny nz f) (cutoff : V) (sc : Sched Coord3)
    (hs : GoodSched (2 ^ k * 2 ^ k * 2 ^ k) inDims3 sc) (junk : Atmos Int V) :
    ∃ bm a temp, f.grid "temperature" = some temp ∧ load3 (2 ^ k) fl cv isZero f cutoff sc junk = .ok (bm, a) ∧
      let Active : Coord3 → Prop := fun t =>
        isZero cutoff = true ∨ HasColdCell3 (2 ^ k) (fun z y x => cv (temp { x := x, y := y, z := z })) cutoff t
      MapFor3 (2 ^ k) nx ny nz Active bm ∧
      (∀ c, HasData3 (2 ^ k) nx ny nz Active c → ∀ adr, Addr3 (2 ^ k) bm c adr → CellIs cv fl.zero f.grid a c adr) ∧
      ScalarsAre cv fl.zero f.scalar a ∧
      (a.moving = true ↔ ∃ c, InGrid3 (2 ^ k) nx ny nz c ∧ Fast fl cv f.grid c) := by
  obtain ⟨hsp, hdx, hdy, hdz, hc⟩ := hf
  obtain ⟨a0, ha0⟩ := readFields_ok fl cv f.scalar f.grid
    (sc.dense { x := nx * (2 ^ k : Nat), y := ny * (2 ^ k : Nat), z := nz * (2 ^ k : Nat) }) hc
  have hr := readFields_is _ _ _ _ _ _ ha0
  obtain ⟨temp, htemp⟩ := Option.isSome_iff_exists.1 (hc.2 "temperature" (by simp [required]))
  have hT : ∀ c, a0.temperature c = cv (temp c) := by
    intro c
    have := hr.temperature c
    rw [htemp] at this
    simpa using this.symm
  obtain ⟨bm, hbm, hd, hb, _, hn⟩ := C04_sparse3 (2 ^ k) nx ny nz hg
    (fun z y x => a0.temperature { x := x, y := y, z := z }) cutoff (isZero cutoff)
  have hm : MapFor3 (2 ^ k) nx ny nz (fun t =>
        isZero cutoff = true ∨ HasColdCell3 (2 ^ k) (fun z y x => cv (temp { x := x, y := y, z := z })) cutoff t) bm := by
    have he : (fun z y x => a0.temperature { x := x, y := y, z := z }) = (fun z y x => cv (temp { x := x, y := y, z := z })) := by
      funext z y x; exact hT _
    rw [he] at hn
    exact ⟨hd, hb, hn⟩
  obtain ⟨s, hsok, s0, s1, s2, s3, s4, s5⟩ := sparsify_spec
    (fun src old => sparsifyField3 (2 ^ k) bm { x := nx * (2 ^ k : Nat), y := ny * (2 ^ k : Nat), z := nz * (2 ^ k : Nat) }
      src (sc.kernel bm) old)
    (fun c adr => HasData3 (2 ^ k) nx ny nz _ c ∧ Addr3 (2 ^ k) bm c adr)
    (fun src old => by
      obtain ⟨s, h1, h2⟩ := C36_sparsify3 k nx ny nz _ bm hx hy hz hm src (sc.kernel bm) (hs.kernel bm) old
      exact ⟨s, h1, fun c adr h => h2 c h.1 adr h.2⟩) a0 junk
  refine ⟨bm, s, temp, htemp, ?_, hm, ?_, scalars_of_read hr s s0 s1 s2 s3, ?_⟩
  · have hsp' : isSparse f = .ok false := by
      unfold isSparse
      rcases hsp with h | h <;> rw [h]
      rfl
    unfold load3 loadDense3
    rw [hsp', hdx, hdy, hdz]
    simp only [need, Outcome.ok_bind, Bool.false_eq_true, if_false, ha0, hbm, hsok]
  · intro c hcd adr hadr
    obtain ⟨p1, p2, p3, p4, p5, p6, p7, p8, p9⟩ := s5 c adr ⟨hcd, hadr⟩
    exact ⟨by rw [p1]; exact hr.temperature c, by rw [p2]; exact hr.pressure c, by rw [p3]; exact hr.ne c,
      by rw [p4]; exact hr.nhTot c, by rw [p6]; exact hr.vturb c, by rw [p7]; exact hr.vx c, by rw [p8]; exact hr.vy c,
      by rw [p9]; exact hr.vz c, by rw [p5]; exact hr.nh0 c⟩
  · rw [s4, moving_of_read hl hr]
    refine exists_congr fun c => and_congr_left fun _ => ?_
    rw [hs.dense, inGrid3_inDims]

/-- C81 (2D, sparse file): a well-formed sparse file gives the map of its tile list and, at every storage address, the
file's values; the threshold plays no part; the atmosphere is moving exactly when a stored cell is fast. -/
theorem C81_sparse2 (k nx nz : Nat) (fl : FloatOps V) (num : V → Prop) (hl : FloatLaws fl num) (cv : W → V)
    (isZero : V → Bool) (f : NcFile Coord2 W) (tiles : List (BitVec 32)) (hf : SparseFile2 (2 ^ k) nx nz tiles f) (cutoff : V) (sc : Sched Coord2)
    (hs : GoodSched (2 ^ k * 2 ^ k) inDims2 sc) (junk : Atmos Int V) :
    ∃ bm a, load2 (2 ^ k) fl cv isZero f cutoff sc junk = .ok (bm, a) ∧ bm.activeTiles = tiles ∧
      MapFor2 (2 ^ k) nx nz (fun t => t ∈ tiles.map decodeMorton2) bm ∧
      (∀ adr, CellIs cv fl.zero f.flat a adr adr) ∧ ScalarsAre cv fl.zero f.scalar a ∧
      (a.moving = true ↔ ∃ i : Int, 0 ≤ i ∧ i < (tiles.length : Int) * ((2 ^ k : Nat) * (2 ^ k : Nat)) ∧ Fast fl cv f.flat i) := by
  obtain ⟨⟨v, hv, hsp⟩, hdx, hdz, hbs, ht, hin, hnd, hfit, hn, hcells, hc⟩ := hf
  obtain ⟨a, ha⟩ := readFields_ok fl cv f.scalar f.flat (sc.flat ((tiles.length : Int) * ((2 ^ k : Nat) * (2 ^ k : Nat)))) hc
  have hr := readFields_is _ _ _ _ _ _ ha
  obtain ⟨bm, hbm, hat, hna, hb, hnum⟩ := C41_file2 (2 ^ k) nx nz (Nat.two_pow_pos k) tiles (sc.tileWrites tiles)
    (hs.tileWrites tiles) hin hnd hfit
  have hB : ((2 ^ k : Nat) : Int) ≠ 0 := by have := Nat.two_pow_pos k; omega
  have hdims : bm.dims = { x := nx, z := nz } := by
    have h := hbm
    unfold setupFromFile2 at h
    by_cases hm : (↑nx * ((2 ^ k : Nat) : Int)).tmod ((2 ^ k : Nat) : Int) ≠ 0 ∨ (↑nz * ((2 ^ k : Nat) : Int)).tmod ((2 ^ k : Nat) : Int) ≠ 0
    · rw [if_pos hm] at h; exact absurd h (by simp)
    · rw [if_neg hm] at h
      obtain ⟨e, _, h⟩ := obind h
      by_cases he : e ≠ (tiles.length : Int) * (((2 ^ k : Nat) : Int) * ((2 ^ k : Nat) : Int))
      · rw [if_pos he] at h; exact absurd h (by simp)
      · rw [if_neg he] at h
        obtain ⟨e', _, h⟩ := obind h
        simp only [Outcome.ok.injEq] at h
        rw [← h]
        simp only [Int.mul_tdiv_cancel _ hB]
  refine ⟨bm, a, ?_, hat, ⟨hdims, hb, hnum⟩, ?_, scalars_of_read hr a rfl rfl rfl rfl, ?_⟩
  · have hsp' : isSparse f = .ok true := by
      unfold isSparse; rw [hsp]; simp [hv]
    unfold load2 loadSparse2 needAttr
    rw [hsp', hdx, hdz, hbs, ht, hn, hcells]
    simp only [need, Outcome.ok_bind, if_true, ha, hbm, ne_eq, not_true_eq_false, if_false]
  · intro adr
    exact ⟨hr.temperature adr, hr.pressure adr, hr.ne adr, hr.nhTot adr, hr.vturb adr, hr.vx adr, hr.vy adr, hr.vz adr, hr.nh0 adr⟩
  · rw [moving_of_read hl hr]
    refine exists_congr fun c => ?_
    rw [hs.flat, and_assoc]

/-- C81 (3D, sparse file). -/
theorem C81_sparse3 (k nx ny nz : Nat) (fl : FloatOps V) (num : V → Prop) (hl : FloatLaws fl num) (cv : W → V)
    (isZero : V → Bool) (f : NcFile Coord3 W)
    (tiles : List (BitVec 32)) (hf : SparseFile3 (2 ^ k) nx ny nz tiles f) (cutoff : V) (sc : Sched Coord3)
    (hs : GoodSched (2 ^ k * 2 ^ k * 2 ^ k) inDims3 sc) (junk : Atmos Int V) :
    ∃ bm a, load3 (2 ^ k) fl cv isZero f cutoff sc junk = .ok (bm, a) ∧ bm.activeTiles = tiles ∧
      MapFor3 (2 ^ k) nx ny nz (fun t => t ∈ tiles.map decodeMorton3) bm ∧
      (∀ adr, CellIs cv fl.zero f.flat a adr adr) ∧ ScalarsAre cv fl.zero f.scalar a ∧
      (a.moving = true ↔
        ∃ i : Int, 0 ≤ i ∧ i < (tiles.length : Int) * ((2 ^ k : Nat) * (2 ^ k : Nat) * (2 ^ k : Nat)) ∧ Fast fl cv f.flat i) := by
  obtain ⟨⟨v, hv, hsp⟩, hdx, hdy, hdz, hbs, ht, hin, hcode, hnd, hfit, hn, hcells, hc⟩ := hf
  obtain ⟨a, ha⟩ := readFields_ok fl cv f.scalar f.flat
    (sc.flat ((tiles.length : Int) * ((2 ^ k : Nat) * (2 ^ k : Nat) * (2 ^ k : Nat)))) hc
  have hr := readFields_is _ _ _ _ _ _ ha
  obtain ⟨bm, hbm, hat, hna, hb, hnum⟩ := C41_file3 (2 ^ k) nx ny nz (Nat.two_pow_pos k) tiles (sc.tileWrites tiles)
    (hs.tileWrites tiles) hin hcode hnd hfit
  have hB : ((2 ^ k : Nat) : Int) ≠ 0 := by have := Nat.two_pow_pos k; omega
  have hdims : bm.dims = { x := nx, y := ny, z := nz } := by
    have h := hbm
    unfold setupFromFile3 at h
    by_cases hm : (↑nx * ((2 ^ k : Nat) : Int)).tmod ((2 ^ k : Nat) : Int) ≠ 0 ∨ (↑nz * ((2 ^ k : Nat) : Int)).tmod ((2 ^ k : Nat) : Int) ≠ 0 ∨
        (↑ny * ((2 ^ k : Nat) : Int)).tmod ((2 ^ k : Nat) : Int) ≠ 0
    · rw [if_pos hm] at h; exact absurd h (by simp)
    · rw [if_neg hm] at h
      obtain ⟨e, _, h⟩ := obind h
      by_cases he : e ≠ (tiles.length : Int) * (((2 ^ k : Nat) : Int) * ((2 ^ k : Nat) : Int) * ((2 ^ k : Nat) : Int))
      · rw [if_pos he] at h; exact absurd h (by simp)
      · rw [if_neg he] at h
        obtain ⟨e', _, h⟩ := obind h
        simp only [Outcome.ok.injEq] at h
        rw [← h]
        simp only [Int.mul_tdiv_cancel _ hB]
  refine ⟨bm, a, ?_, hat, ⟨hdims, hb, hnum⟩, ?_, scalars_of_read hr a rfl rfl rfl rfl, ?_⟩
  · have hsp' : isSparse f = .ok true := by
      unfold isSparse; rw [hsp]; simp [hv]
    unfold load3 loadSparse3 needAttr
    rw [hsp', hdx, hdy, hdz, hbs, ht, hn, hcells]
    simp only [need, Outcome.ok_bind, if_true, ha, hbm, ne_eq, not_true_eq_false, if_false]
  · intro adr
    exact ⟨hr.temperature adr, hr.pressure adr, hr.ne adr, hr.nhTot adr, hr.vturb adr, hr.vx adr, hr.vy adr, hr.vz adr, hr.nh0 adr⟩
  · rw [moving_of_read hl hr]
    refine exists_congr fun c => ?_
    rw [hs.flat, and_assoc]

/-- C81: only a non-zero integer attribute "sparse" makes a file sparse; an attribute of another length is refused. -/
theorem C81_detect {C : Type} (f : NcFile C W) :
    (isSparse f = .ok true ↔ ∃ v, v ≠ 0 ∧ f.attr "sparse" = some [v]) ∧
    (isSparse f = .ok false ↔ f.attr "sparse" = none ∨ f.attr "sparse" = some [0]) ∧
    (isSparse f = .throws ↔ ∃ l, f.attr "sparse" = some l ∧ l.length ≠ 1) := by
  unfold isSparse
  rcases h : f.attr "sparse" with _ | l
  · simp
  · rcases l with _ | ⟨v, _ | ⟨w, l⟩⟩
    · simp
    · simp
    · simp

/-- C81: a dense file lacking a dimension, the voxel scale or one of the eight fields is refused, and so is a grid that is
not a whole number of tiles. -/
theorem C81_reject_dense2 (B : Nat) (fl : FloatOps V) (cv : W → V) (isZero : V → Bool) (f : NcFile Coord2 W)
    (hsp : f.attr "sparse" = none ∨ f.attr "sparse" = some [0])
    (h : f.dim "x" = none ∨ f.dim "z" = none ∨ ¬ Complete f.scalar f.grid ∨
      ∃ x z, f.dim "x" = some x ∧ f.dim "z" = some z ∧ ¬ ((B : Int) ∣ x ∧ (B : Int) ∣ z))
    (cutoff : V) (sc : Sched Coord2) (junk : Atmos Int V) : load2 B fl cv isZero f cutoff sc junk = .throws := by
  have hsp' : isSparse f = .ok false := (C81_detect f).2.1.2 hsp
  unfold load2 loadDense2
  rw [hsp']
  simp only [Outcome.ok_bind, Bool.false_eq_true, if_false]
  rcases hX : f.dim "x" with _ | x
  · rfl
  rcases hZ : f.dim "z" with _ | z
  · rfl
  simp only [need, Outcome.ok_bind]
  by_cases hc : Complete f.scalar f.grid
  · obtain ⟨a, ha⟩ := readFields_ok fl cv f.scalar f.grid (sc.dense { x := x, z := z }) hc
    rw [ha]
    simp only [Outcome.ok_bind]
    rcases h with h | h | h | ⟨x', z', h1, h2, h3⟩
    · rw [hX] at h; simp at h
    · rw [hZ] at h; simp at h
    · exact absurd hc h
    · rw [hX] at h1; rw [hZ] at h2
      simp only [Option.some.injEq] at h1 h2
      subst h1 h2
      rw [C04_reject2 B x z _ _ _ h3]
      rfl
  · rw [readFields_missing fl cv f.scalar f.grid _ hc]; rfl

/-- C81 (3D). -/
theorem C81_reject_dense3 (B : Nat) (fl : FloatOps V) (cv : W → V) (isZero : V → Bool) (f : NcFile Coord3 W)
    (hsp : f.attr "sparse" = none ∨ f.attr "sparse" = some [0])
    (h : f.dim "x" = none ∨ f.dim "y" = none ∨ f.dim "z" = none ∨ ¬ Complete f.scalar f.grid ∨
      ∃ x y z, f.dim "x" = some x ∧ f.dim "y" = some y ∧ f.dim "z" = some z ∧ ¬ ((B : Int) ∣ x ∧ (B : Int) ∣ y ∧ (B : Int) ∣ z))
    (cutoff : V) (sc : Sched Coord3) (junk : Atmos Int V) : load3 B fl cv isZero f cutoff sc junk = .throws := by
  have hsp' : isSparse f = .ok false := (C81_detect f).2.1.2 hsp
  unfold load3 loadDense3
  rw [hsp']
  simp only [Outcome.ok_bind, Bool.false_eq_true, if_false]
  rcases hX : f.dim "x" with _ | x
  · rfl
  rcases hY : f.dim "y" with _ | y
  · rfl
  rcases hZ : f.dim "z" with _ | z
  · rfl
  simp only [need, Outcome.ok_bind]
  by_cases hc : Complete f.scalar f.grid
  · obtain ⟨a, ha⟩ := readFields_ok fl cv f.scalar f.grid (sc.dense { x := x, y := y, z := z }) hc
    rw [ha]
    simp only [Outcome.ok_bind]
    rcases h with h | h | h | h | ⟨x', y', z', h1, h2, h3, h4⟩
    · rw [hX] at h; simp at h
    · rw [hY] at h; simp at h
    · rw [hZ] at h; simp at h
    · exact absurd hc h
    · rw [hX] at h1; rw [hY] at h2; rw [hZ] at h3
      simp only [Option.some.injEq] at h1 h2 h3
      subst h1 h2 h3
      rw [C04_reject3 B x y z _ _ _ h4]
      rfl
  · rw [readFields_missing fl cv f.scalar f.grid _ hc]; rfl

/-- C81: a sparse file for another block size is refused, and so is one that lacks a field. -/
theorem C81_reject_sparse2 (B : Nat) (fl : FloatOps V) (cv : W → V) (isZero : V → Bool) (f : NcFile Coord2 W)
    (hsp : ∃ v, v ≠ 0 ∧ f.attr "sparse" = some [v]) (x z b : Int) (hx : f.attr "num_x" = some [x])
    (hz : f.attr "num_z" = some [z]) (hb : f.attr "block_size" = some [b])
    (h : b ≠ B ∨ ¬ Complete f.scalar f.flat) (cutoff : V) (sc : Sched Coord2) (junk : Atmos Int V) :
    load2 B fl cv isZero f cutoff sc junk = .throws := by
  have hsp' : isSparse f = .ok true := (C81_detect f).1.2 hsp
  unfold load2 loadSparse2 needAttr
  rw [hsp', hx, hz, hb]
  simp only [Outcome.ok_bind, if_true]
  rcases hC : f.dim "cells" with _ | n
  · rfl
  simp only [need, Outcome.ok_bind]
  by_cases hbB : b ≠ B
  · rw [if_pos hbB]; rfl
  · rw [if_neg hbB, readFields_missing fl cv f.scalar f.flat _ (h.resolve_left hbB)]; rfl

/-- C81 (3D). -/
theorem C81_reject_sparse3 (B : Nat) (fl : FloatOps V) (cv : W → V) (isZero : V → Bool) (f : NcFile Coord3 W)
    (hsp : ∃ v, v ≠ 0 ∧ f.attr "sparse" = some [v]) (x y z b : Int) (hx : f.attr "num_x" = some [x])
    (hy : f.attr "num_y" = some [y]) (hz : f.attr "num_z" = some [z]) (hb : f.attr "block_size" = some [b])
    (h : b ≠ B ∨ ¬ Complete f.scalar f.flat) (cutoff : V) (sc : Sched Coord3) (junk : Atmos Int V) :
    load3 B fl cv isZero f cutoff sc junk = .throws := by
  have hsp' : isSparse f = .ok true := (C81_detect f).1.2 hsp
  unfold load3 loadSparse3 needAttr
  rw [hsp', hx, hy, hz, hb]
  simp only [Outcome.ok_bind, if_true]
  rcases hC : f.dim "cells" with _ | n
  · rfl
  simp only [need, Outcome.ok_bind]
  by_cases hbB : b ≠ B
  · rw [if_pos hbB]; rfl
  · rw [if_neg hbB, readFields_missing fl cv f.scalar f.flat _ (h.resolve_left hbB)]; rfl

/-- C81 (2D): storing a loaded dense atmosphere as a sparse file (same tiles, and at each cell's address the cell's values)
and loading that file gives the same map, the same addresses and the same values; it counts as moving only if the dense
one did (the converse is refuted by `C81_moving_refuted`). -/
theorem C81_same2_partial (k nx nz : Nat) (hg : GoodSize2 (2 ^ k) nx nz) (hx : FitsI32Axis k nx) (hz : FitsI32Axis k nz)
    (fl : FloatOps V) (num : V → Prop) (hl : FloatLaws fl num) (cv : W → V) (isZero : V → Bool) (f g : NcFile Coord2 W)
    (hf : DenseFile2 (2 ^ k) nx nz f) (cutoff cutoff' : V) (sc sc' : Sched Coord2)
    (hs : GoodSched (2 ^ k * 2 ^ k) inDims2 sc) (hs' : GoodSched (2 ^ k * 2 ^ k) inDims2 sc') (junk junk' : Atmos Int V)
    (bm : BlockMap Coord2) (a : Atmos Int V) (hload : load2 (2 ^ k) fl cv isZero f cutoff sc junk = .ok (bm, a))
    (hgs : SparseFile2 (2 ^ k) nx nz bm.activeTiles g) (hsc : g.scalar = f.scalar)
    (hval : ∀ n ∈ required, ∀ c adr, HasData2 (2 ^ k) nx nz (· ∈ bm.activeTiles.map decodeMorton2) c →
      Addr2 (2 ^ k) bm c adr → (g.flat n).map (fun v => v adr) = (f.grid n).map (fun v => v c)) :
    ∃ bm' a', load2 (2 ^ k) fl cv isZero g cutoff' sc' junk' = .ok (bm', a') ∧ bm'.activeTiles = bm.activeTiles ∧
      (∀ t, GridTile2 (2 ^ k) (nx * (2 ^ k : Nat)) (nz * (2 ^ k : Nat)) t → bm'.lookup t = bm.lookup t) ∧
      a'.voxelScale = a.voxelScale ∧ a'.offsetX = a.offsetX ∧ a'.offsetY = a.offsetY ∧ a'.offsetZ = a.offsetZ ∧
      (∀ adr, 0 ≤ adr → adr < bm.numActive * ((2 ^ k : Nat) * (2 ^ k : Nat)) →
        a'.temperature adr = a.temperature adr ∧ a'.pressure adr = a.pressure adr ∧ a'.ne adr = a.ne adr ∧
        a'.nhTot adr = a.nhTot adr ∧ a'.nh0 adr = a.nh0 adr ∧ a'.vturb adr = a.vturb adr ∧
        a'.vx adr = a.vx adr ∧ a'.vy adr = a.vy adr ∧ a'.vz adr = a.vz adr) ∧
      (a'.moving = true → a.moving = true) := by
  obtain ⟨bm0, a0, temp, htemp, hl0, hm, hcell, hscal, hmov⟩ :=
    C81_dense2 k nx nz hg hx hz fl num hl cv isZero f hf cutoff sc hs junk
  rw [hload] at hl0
  simp only [Outcome.ok.injEq, Prod.mk.injEq] at hl0
  obtain ⟨rfl, rfl⟩ := hl0
  obtain ⟨bm', a', hl', hat, hm', hcell', hscal', hmov'⟩ :=
    C81_sparse2 k nx nz fl num hl cv isZero g bm.activeTiles hgs cutoff' sc' hs' junk'
  have hN := hm.numbering
  have hN' := hm'.numbering
  have hAct : ∀ t, GridTile2 (2 ^ k) (nx * (2 ^ k : Nat)) (nz * (2 ^ k : Nat)) t →
      (isZero cutoff = true ∨ HasColdCell2 (2 ^ k) (fun z x => cv (temp { x := x, z := z })) cutoff t) →
      ∃ (i : Nat) (hi : i < bm.activeTiles.length), bm.lookup t = i ∧ t = decodeMorton2 bm.activeTiles[i] := by
    intro t ht hA
    obtain ⟨l0, l1⟩ := hN.active t ht hA
    have hlen := hN.count
    obtain ⟨i, hi⟩ : ∃ i : Nat, bm.lookup t = i := ⟨(bm.lookup t).toNat, by omega⟩
    have hi' : i < bm.activeTiles.length := by omega
    obtain ⟨g1, g2, g3⟩ := hN.listed i hi'
    exact ⟨i, hi', hi, hN.injective t _ ht g1 hA g2 (by rw [hi, g3])⟩
  -- every storage address is the address of a cell with data
  have haddr : ∀ adr, 0 ≤ adr → adr < bm.numActive * (((2 ^ k : Nat) : Int) * ((2 ^ k : Nat) : Int)) →
      ∃ c, HasData2 (2 ^ k) nx nz (fun t => isZero cutoff = true ∨
        HasColdCell2 (2 ^ k) (fun z x => cv (temp { x := x, z := z })) cutoff t) c ∧ Addr2 (2 ^ k) bm c adr := by
    intro adr h0 h1
    have I := iterSpace2 k nx nz _ bm hx hz hm
    obtain ⟨p, hp, he⟩ := I.ontoN adr h0 h1
    obtain ⟨c, _, hc, ha⟩ := I.co p hp
    exact ⟨c, hc, he ▸ ha⟩
  have key : ∀ adr, 0 ≤ adr → adr < bm.numActive * (((2 ^ k : Nat) : Int) * ((2 ^ k : Nat) : Int)) →
      ∃ c, InGrid2 (2 ^ k) nx nz c ∧ CellIs cv fl.zero f.grid a c adr ∧
        ∀ n ∈ required, (g.flat n).map (fun v => cv (v adr)) = (f.grid n).map (fun v => cv (v c)) := by
    intro adr h0 h1
    obtain ⟨c, hc, ha⟩ := haddr adr h0 h1
    refine ⟨c, hasData2_inGrid _ nx nz _ c hc, hcell c hc adr ha, fun n hn => ?_⟩
    have hc2 : HasData2 (2 ^ k) nx nz (· ∈ bm.activeTiles.map decodeMorton2) c := by
      obtain ⟨t, ht, hA, hi⟩ := hc
      obtain ⟨i, hi', _, e⟩ := hAct t ht hA
      exact ⟨t, ht, List.mem_map.2 ⟨_, List.getElem_mem hi', e.symm⟩, hi⟩
    have := congrArg (Option.map cv) (hval n hn c adr hc2 ha)
    simpa [Option.map_map, Function.comp_def] using this
  refine ⟨bm', a', hl', hat, ?_, ?_, ?_, ?_, ?_, ?_, ?_⟩
  · intro t ht
    by_cases hA : isZero cutoff = true ∨ HasColdCell2 (2 ^ k) (fun z x => cv (temp { x := x, z := z })) cutoff t
    · obtain ⟨i, hi', hi, e⟩ := hAct t ht hA
      obtain ⟨_, _, g3'⟩ := hN'.listed i (by rw [hat]; exact hi')
      have : bm'.activeTiles[i]'(by rw [hat]; exact hi') = bm.activeTiles[i] := by simp only [hat]
      rw [this, ← e] at g3'
      rw [g3', hi]
    · rw [hN.inactive t ht hA]
      refine hN'.inactive t ht ?_
      intro hmem
      rw [List.mem_map] at hmem
      obtain ⟨m, hm1, hm2⟩ := hmem
      obtain ⟨i, hi, rfl⟩ := List.getElem_of_mem hm1
      exact hA (hm2 ▸ (hN.listed i hi).2.1)
  · have h1 := hscal'.voxelScale
    rw [hsc, hscal.voxelScale] at h1
    simpa using h1.symm
  · have h1 := hscal'.offsetX; have h2 := hscal.offsetX
    rw [hsc] at h1
    rcases ho : f.scalar "offset_x" with _ | w
    · rw [h1.2 ho, h2.2 ho]
    · rw [h1.1 w ho, h2.1 w ho]
  · have h1 := hscal'.offsetY; have h2 := hscal.offsetY
    rw [hsc] at h1
    rcases ho : f.scalar "offset_y" with _ | w
    · rw [h1.2 ho, h2.2 ho]
    · rw [h1.1 w ho, h2.1 w ho]
  · have h1 := hscal'.offsetZ; have h2 := hscal.offsetZ
    rw [hsc] at h1
    rcases ho : f.scalar "offset_z" with _ | w
    · rw [h1.2 ho, h2.2 ho]
    · rw [h1.1 w ho, h2.1 w ho]
  · intro adr h0 h1
    obtain ⟨c, _, hc, hv⟩ := key adr h0 h1
    have hc' := hcell' adr
    have tr : ∀ n ∈ required, ∀ u u' : V, (f.grid n).map (fun v => cv (v c)) = some u →
        (g.flat n).map (fun v => cv (v adr)) = some u' → u' = u := by
      intro n hn u u' e e'
      rw [hv n hn, e] at e'
      simpa using e'.symm
    exact ⟨tr _ (by simp [required]) _ _ hc.temperature hc'.temperature, tr _ (by simp [required]) _ _ hc.pressure hc'.pressure,
      tr _ (by simp [required]) _ _ hc.ne hc'.ne, tr _ (by simp [required]) _ _ hc.nhTot hc'.nhTot,
      by rw [hc.nh0, hc'.nh0], tr _ (by simp [required]) _ _ hc.vturb hc'.vturb,
      tr _ (by simp [required]) _ _ hc.vx hc'.vx, tr _ (by simp [required]) _ _ hc.vy hc'.vy,
      tr _ (by simp [required]) _ _ hc.vz hc'.vz⟩
  · rw [hmov', hmov]
    rintro ⟨i, h0, h1, x, y, z, ex, ey, ez, hfast⟩
    rw [hN.count] at h1
    obtain ⟨c, hc, _, hv⟩ := key i h0 h1
    have ux := hv "vx" (by simp [required])
    have uy := hv "vy" (by simp [required])
    have uz := hv "vz" (by simp [required])
    rw [ex] at ux; rw [ey] at uy; rw [ez] at uz
    obtain ⟨x', ex', hx'⟩ := Option.map_eq_some_iff.1 ux.symm
    obtain ⟨y', ey', hy'⟩ := Option.map_eq_some_iff.1 uy.symm
    obtain ⟨z', ez', hz'⟩ := Option.map_eq_some_iff.1 uz.symm
    exact ⟨c, hc, x', y', z', ex', ey', ez', by rw [hx', hy', hz']; exact hfast⟩

end

/-! ## A concrete case -/

/-- Integers as the numbers of the machine. -/
def intOps : FloatOps Int where
  add := (· + ·)
  mul := (· * ·)
  sqrt := fun v => (v.toNat.sqrt : Int)
  gt := fun a b => decide (b < a)
  lowest := -1000000
  zero := 0
  ten := 10

/-- They satisfy the laws. -/
theorem intLaws : FloatLaws intOps (fun _ => True) where
  gt_num := fun _ _ _ => ⟨trivial, trivial⟩
  irrefl := fun a => by simp [intOps]
  trans := fun a b c h1 h2 => by simp only [intOps, decide_eq_true_eq] at *; omega
  split := fun a b c _ h => by simp only [intOps, decide_eq_true_eq] at *; omega
  num_lowest := trivial
  sqrt_mono := fun a b _ h1 h2 => by
    simp only [intOps, decide_eq_true_eq, decide_eq_false_iff_not] at *
    have : a.toNat.sqrt ≤ b.toNat.sqrt := Nat.sqrt_le_sqrt (by omega)
    omega
  sqrt_pos := fun a h => by
    simp only [intOps, decide_eq_true_eq] at *
    by_contra hc
    have : a.toNat = 0 := by omega
    rw [this] at h
    simp at h

/-- A 4 by 2 grid: the left tile cold and still, the right one hot and fast. -/
def exFile : NcFile Coord2 Int where
  dim := fun n => if n = "x" then some 4 else if n = "z" then some 2 else none
  scalar := fun n => if n = "voxel_scale" then some 5 else if n = "offset_z" then some 7 else none
  grid := fun n => if n = "temperature" then some (fun c => if c.x < 2 then 3 else 9)
    else if n = "vx" then some (fun c => if c.x < 2 then 0 else 30)
    else if n = "vy" ∨ n = "vz" then some (fun _ => 0)
    else if n ∈ required then some (fun c => 100 * n.length + 10 * c.z + c.x) else none
  flat := fun _ => none
  tiles := fun _ => none
  attr := fun _ => none

/-- The same model stored with its one cold tile. -/
def exSparse : NcFile Coord2 Int where
  dim := fun n => if n = "cells" then some 4 else if n = "num_active_tiles" then some 1 else none
  scalar := exFile.scalar
  grid := fun _ => none
  flat := fun n => if n = "temperature" then some (fun _ => 3) else if n = "vx" then some (fun _ => 0)
    else if n = "vy" ∨ n = "vz" then some (fun _ => 0)
    else if n ∈ required then some (fun a => 100 * n.length + 10 * (a / 2) + a % 2) else none
  tiles := fun n => if n = "morton_tiles" then some [0#32] else none
  attr := fun n => if n = "sparse" then some [1] else if n = "num_x" then some [4] else if n = "num_z" then some [2]
    else if n = "block_size" then some [2] else none

/-- Kernels run backwards; the reductions are joined from two halves. -/
def exSched : Sched Coord2 where
  kernel := fun bm => (loopIters 4 bm).reverse
  tileWrites := fun t => t.zipIdx
  dense := fun d => .join (.chunk []) (.chunk ((loopTo d.z).flatMap fun z => (loopTo d.x).map fun x => { x := x, z := z }))
  flat := fun n => .join (.chunk (loopTo n)) (.chunk [])

/-- Uninitialised arrays. -/
def exJunk : Atmos Int Int where
  voxelScale := -1
  offsetX := -1
  offsetY := -1
  offsetZ := -1
  moving := false
  temperature := fun _ => -1
  pressure := fun _ => -1
  ne := fun _ => -1
  nhTot := fun _ => -1
  nh0 := fun _ => -1
  vturb := fun _ => -1
  vx := fun _ => -1
  vy := fun _ => -1
  vz := fun _ => -1

theorem mem_loopTo (n i : Int) : i ∈ loopTo n ↔ 0 ≤ i ∧ i < n := by
  unfold loopTo
  rw [List.mem_map]
  constructor
  · rintro ⟨m, hm, rfl⟩
    rw [List.mem_range] at hm
    exact ⟨Int.natCast_nonneg m, by have : (Int.ofNat m) = (m : Int) := rfl; omega⟩
  · rintro ⟨h0, h1⟩
    exact ⟨i.toNat, by rw [List.mem_range]; omega, by simp [h0]⟩

/-- The hypotheses of `C81_dense2`, `C81_sparse2` are met by these files and schedules. -/
example : GoodSched (2 ^ 1 * 2 ^ 1) inDims2 exSched ∧ DenseFile2 (2 ^ 1) 2 1 exFile ∧
    SparseFile2 (2 ^ 1) 2 1 [0#32] exSparse ∧ GoodSize2 (2 ^ 1) 2 1 := by
  refine ⟨⟨fun bm => List.reverse_perm _, fun t => List.Perm.refl _, ?_, ?_⟩, ⟨Or.inl rfl, rfl, rfl, rfl, by decide⟩,
    ⟨⟨1, by decide, rfl⟩, rfl, rfl, rfl, rfl, ?_, by decide, by decide, rfl, rfl, rfl, by decide⟩,
    by unfold GoodSize2; decide⟩
  · intro d c
    simp only [exSched, Red.iters, List.nil_append, List.mem_flatMap, List.mem_map, mem_loopTo, inDims2, decide_eq_true_eq]
    constructor
    · rintro ⟨z, hz, x, hx, rfl⟩; exact ⟨hx.1, hx.2, hz.1, hz.2⟩
    · rintro ⟨h1, h2, h3, h4⟩; exact ⟨c.z, ⟨h3, h4⟩, c.x, ⟨h1, h2⟩, rfl⟩
  · intro n i
    simp [exSched, Red.iters, mem_loopTo]
  · intro m hm
    rw [List.mem_singleton] at hm
    subst hm
    unfold GridTile2
    decide

/-- The two loads of the example model: the same tile is kept with the same values. -/
example : ((load2 2 intOps id (· == 0) exFile 5 exSched exJunk).bind fun r =>
    .ok ([r.1.numActive, r.1.lookup ⟨0, 0⟩, r.1.lookup ⟨1, 0⟩, r.2.offsetX, r.2.offsetZ], [0, 1, 2, 3].map r.2.temperature,
      [0, 1, 2, 3].map r.2.ne)) = .ok ([1, 0, -1, 0, 7], [3, 3, 3, 3], [200, 201, 210, 211]) := by decide +kernel

example : ((load2 2 intOps id (· == 0) exSparse 0 exSched exJunk).bind fun r =>
    .ok ([r.1.numActive, r.1.lookup ⟨0, 0⟩, r.1.lookup ⟨1, 0⟩, r.2.offsetX, r.2.offsetZ], [0, 1, 2, 3].map r.2.temperature,
      [0, 1, 2, 3].map r.2.ne)) = .ok ([1, 0, -1, 0, 7], [3, 3, 3, 3], [200, 201, 210, 211]) := by decide +kernel

/-- The values of `exSparse` are those of `exFile` in the sense of `C81_same2_partial`, cell by cell. -/
example : ∀ n ∈ required, ∀ x ∈ [0, 1], ∀ z ∈ [0, 1], ((load2 2 intOps id (· == 0) exFile 5 exSched exJunk).bind fun r =>
    ((geo2 2).idx r.1 (geo2 2).fresh ⟨x, z⟩).bind fun p =>
      .ok (r.1.activeTiles, decide ((exSparse.flat n).map (fun v => v p.1) = (exFile.grid n).map (fun v => v ⟨x, z⟩)))) =
    .ok ([0#32], true) := by decide +kernel

/-- C81: the same model is moving when loaded from the dense file and still when loaded from the sparse one, because the
dense test also looks at the cells that are thrown away. -/
theorem C81_moving_refuted :
    ((load2 2 intOps id (· == 0) exFile 5 exSched exJunk).bind fun r => .ok r.2.moving) = .ok true ∧
    ((load2 2 intOps id (· == 0) exSparse 5 exSched exJunk).bind fun r => .ok r.2.moving) = .ok false := by
  constructor <;> decide +kernel

end AtmosFile
end DexRT
