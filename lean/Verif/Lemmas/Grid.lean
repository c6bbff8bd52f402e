import Verif.Spec.Grid
import Verif.Lemmas.BlockMap
import Mathlib.Tactic.Linarith
import Mathlib.Tactic.Positivity
/-! Helper lemmas about grids of tiles. -/
namespace DexRT

/-! Small private facts about sizes. -/

theorem size_tile (B n : Nat) (hB : 0 < B) :
    ((n : Int) * B).tmod B = 0 ∧ ((n : Int) * B).tdiv B = n := by
  constructor
  · exact Int.mul_tmod_left _ _
  · exact Int.mul_tdiv_cancel _ (by omega)

theorem tile_lt (B n : Nat) (hB : 0 < B) (v : Int) : v * B < (n : Int) * B ↔ v < n := by
  constructor
  · intro h; exact lt_of_mul_lt_mul_right h (by omega)
  · intro h; exact mul_lt_mul_of_pos_right h (by omega)

theorem grid2_iff (B nx nz : Nat) (hB : 0 < B) (c : Coord2) :
    GridTile2 B (nx * B) (nz * B) c ↔ inDims2 { x := nx, z := nz } c = true := by
  unfold GridTile2 inDims2
  rw [tile_lt B nx hB, tile_lt B nz hB, decide_eq_true_eq]

theorem grid3_iff (B nx ny nz : Nat) (hB : 0 < B) (c : Coord3) :
    GridTile3 B (nx * B) (ny * B) (nz * B) c ↔ inDims3 { x := nx, y := ny, z := nz } c = true := by
  unfold GridTile3 inDims3
  rw [tile_lt B nx hB, tile_lt B ny hB, tile_lt B nz hB, decide_eq_true_eq]

theorem fits_of (v : Int) (h0 : 0 ≤ v) (h1 : v ≤ i32Max) : fitsI32 v = true := by
  unfold fitsI32; unfold i32Max at h1; rw [decide_eq_true_eq]; omega

theorem le_mul_pos (a : Int) (k : Nat) (hk : 0 < k) (ha : 0 ≤ a) : a ≤ a * k := by
  nlinarith [(by exact_mod_cast hk : (1 : Int) ≤ k)]

theorem order2 (nx nz : Nat) (hx : nx ≤ 65536) (hz : nz ≤ 65536) :
    let d : Coord2 := { x := nx, z := nz }
    (∀ m ∈ sortCodes (tileCodes2 d), inDims2 d (decodeMorton2 m) = true) ∧
    ((sortCodes (tileCodes2 d)).map decodeMorton2).Nodup ∧
    (∀ c, inDims2 d c = true → c ∈ (sortCodes (tileCodes2 d)).map decodeMorton2) := by
  intro d
  have hp := (sortCodes_perm (tileCodes2 d)).map decodeMorton2
  have hd := decoded_tiles2 d (by show (nx : Int) ≤ 65536; exact_mod_cast hx)
    (by show (nz : Int) ≤ 65536; exact_mod_cast hz)
  rw [hd] at hp
  refine ⟨fun m hm => ?_, hp.nodup_iff.2 (nodup_tiles2 d), fun c hc => hp.mem_iff.2 ((mem_tiles2 d c).2 hc)⟩
  exact (mem_tiles2 d _).1 (hp.mem_iff.1 (List.mem_map_of_mem hm))

theorem order3 (nx ny nz : Nat) (hx : nx ≤ 1024) (hy : ny ≤ 1024) (hz : nz ≤ 1024) :
    let d : Coord3 := { x := nx, y := ny, z := nz }
    (∀ m ∈ sortCodes (tileCodes3 d), inDims3 d (decodeMorton3 m) = true) ∧
    ((sortCodes (tileCodes3 d)).map decodeMorton3).Nodup ∧
    (∀ c, inDims3 d c = true → c ∈ (sortCodes (tileCodes3 d)).map decodeMorton3) := by
  intro d
  have hp := (sortCodes_perm (tileCodes3 d)).map decodeMorton3
  have hd := decoded_tiles3 d (by show (nx : Int) ≤ 1024; exact_mod_cast hx)
    (by show (ny : Int) ≤ 1024; exact_mod_cast hy) (by show (nz : Int) ≤ 1024; exact_mod_cast hz)
  rw [hd] at hp
  refine ⟨fun m hm => ?_, hp.nodup_iff.2 (nodup_tiles3 d), fun c hc => hp.mem_iff.2 ((mem_tiles3 d c).2 hc)⟩
  exact (mem_tiles3 d _).1 (hp.mem_iff.1 (List.mem_map_of_mem hm))

section
variable {F : Type} [LE F] [DecidableLE F]

theorem mem_tileRange (B : Nat) (t v : Int) : v ∈ tileRange B t ↔ t * B ≤ v ∧ v < (t + 1) * B := by
  unfold tileRange
  simp only [List.mem_map, List.mem_range]
  have e : (t + 1) * (B : Int) = t * B + B := by rw [Int.add_mul, Int.one_mul]
  rw [e]
  constructor
  · rintro ⟨k, hk, rfl⟩; omega
  · rintro ⟨h0, h1⟩; exact ⟨(v - t * B).toNat, by omega, by omega⟩

theorem scan2_iff (B : Nat) (temp : Int → Int → F) (cutoff : F) (c : Coord2) :
    scanTile2 B temp cutoff c = true ↔ HasColdCell2 B temp cutoff c := by
  unfold scanTile2 HasColdCell2
  simp only [List.any_eq_true, mem_tileRange, decide_eq_true_eq]
  constructor
  · rintro ⟨z, hz, x, hx, h⟩; exact ⟨z, x, hz.1, hz.2, hx.1, hx.2, h⟩
  · rintro ⟨z, x, h1, h2, h3, h4, h⟩; exact ⟨z, ⟨h1, h2⟩, x, ⟨h3, h4⟩, h⟩

theorem scan3_iff (B : Nat) (temp : Int → Int → Int → F) (cutoff : F) (c : Coord3) :
    scanTile3 B temp cutoff c = true ↔ HasColdCell3 B temp cutoff c := by
  unfold scanTile3 HasColdCell3
  simp only [List.any_eq_true, mem_tileRange, decide_eq_true_eq]
  constructor
  · rintro ⟨z, hz, y, hy, x, hx, h⟩; exact ⟨z, y, x, hz.1, hz.2, hy.1, hy.2, hx.1, hx.2, h⟩
  · rintro ⟨z, y, x, h1, h2, h3, h4, h5, h6, h⟩; exact ⟨z, ⟨h1, h2⟩, y, ⟨h3, h4⟩, x, ⟨h5, h6⟩, h⟩

end

theorem zipIdx_mem_dec {C : Type} (dec : BitVec 32 → C) (tiles : List (BitVec 32)) :
    (tiles.zipIdx).map (fun p => dec p.1) = tiles.map dec := by
  rw [show (fun p : BitVec 32 × Nat => dec p.1) = dec ∘ Prod.fst from rfl, ← List.map_map,
    List.zipIdx_map_fst]

/-- Generic core of C41. -/
theorem file_numbering {C : Type} [DecidableEq C] (inb : C → Bool) (dec : BitVec 32 → C)
    (tiles : List (BitVec 32)) (sched : List (BitVec 32 × Nat)) (hs : sched.Perm tiles.zipIdx)
    (hin : ∀ m ∈ tiles, inb (dec m) = true) (hnd : (tiles.map dec).Nodup) :
    ∃ e : Entries C, writeTiles inb dec sched Entries.init = .ok e ∧
      (∀ i (h : i < tiles.length), e (dec tiles[i]) = i) ∧
      (∀ c, c ∉ tiles.map dec → e c = -1) := by
  have hp := hs.map (fun p => dec p.1)
  rw [zipIdx_mem_dec] at hp
  obtain ⟨e, h1, h2, h3⟩ := writeTiles_spec inb dec sched Entries.init (by
    intro p hp'
    have := hs.mem_iff.1 hp'
    exact hin _ (List.fst_mem_of_mem_zipIdx this)) (hp.nodup_iff.2 hnd)
  refine ⟨e, h1, ?_, ?_⟩
  · intro i hi
    have : (tiles[i], i) ∈ sched := hs.mem_iff.2 (by
      rw [List.mem_zipIdx_iff_getElem?]; exact List.getElem?_eq_getElem hi)
    exact h2 _ this
  · intro c hc
    rw [h3 c (fun h => hc (hp.mem_iff.1 h))]; rfl


end DexRT
