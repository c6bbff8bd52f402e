import Verif.Lemmas.IndexGen
import Verif.Props.BlockMap
/-!
C05, C06: addresses of cells.
Vocabulary (`MapFor2`, `HasData2`, `InTile2`, `GridTile2`): `Verif/Spec/Grid.lean`.
-/
namespace DexRT

/-- Coordinate sizes that fit the code's `i32` coordinates. -/
def FitsI32Axis (k n : Nat) : Prop := (n : Int) * (2 ^ k : Nat) ≤ i32Max

/-! ## C06: the tile cache -/

/-- What a stateless generator must answer for cell `c` (2D): `has_leaves` iff the cell is in an active
tile; `idx` is the slot in an active tile, -1 in an inactive tile of the grid. -/
structure Stateless2 (B nx nz : Nat) (Active : Coord2 → Prop) (bm : BlockMap Coord2)
    (s : IdxState Coord2) (c : Coord2) : Prop where
  leaves : ∃ b s', (geo2 B).hasLeaves bm s c = .ok (b, s') ∧ (b = true ↔ HasData2 B nx nz Active c)
  addr : ∀ t, GridTile2 B (nx * B) (nz * B) t → InTile2 B t c → Active t →
    ∃ s', (geo2 B).idx bm s c =
      .ok (bm.lookup t * (B * B) + ((c.z - t.z * B) * B + (c.x - t.x * B)), s')
  hole : ∀ t, GridTile2 B (nx * B) (nz * B) t → InTile2 B t c → ¬ Active t →
    ∃ s', (geo2 B).idx bm s c = .ok (-1, s')

/-- 3D version of `Stateless2`. -/
structure Stateless3 (B nx ny nz : Nat) (Active : Coord3 → Prop) (bm : BlockMap Coord3)
    (s : IdxState Coord3) (c : Coord3) : Prop where
  leaves : ∃ b s', (geo3 B).hasLeaves bm s c = .ok (b, s') ∧ (b = true ↔ HasData3 B nx ny nz Active c)
  addr : ∀ t, GridTile3 B (nx * B) (ny * B) (nz * B) t → InTile3 B t c → Active t →
    ∃ s', (geo3 B).idx bm s c =
      .ok (bm.lookup t * (B * B * B) +
        (((c.z - t.z * B) * B + (c.y - t.y * B)) * B + (c.x - t.x * B)), s')
  hole : ∀ t, GridTile3 B (nx * B) (ny * B) (nz * B) t → InTile3 B t c → ¬ Active t →
    ∃ s', (geo3 B).idx bm s c = .ok (-1, s')

/-- Full C06 for one 2D map: after every history every cell gets the stateless answer. -/
def C06_full2 (B nx nz : Nat) (Active : Coord2 → Prop) (bm : BlockMap Coord2) : Prop :=
  ∀ qs s, (geo2 B).run bm (geo2 B).fresh qs = .ok s → ∀ c, IsI32Coord2 c → Stateless2 B nx nz Active bm s c

/-- Full C06 for one 3D map. -/
def C06_full3 (B nx ny nz : Nat) (Active : Coord3 → Prop) (bm : BlockMap Coord3) : Prop :=
  ∀ qs s, (geo3 B).run bm (geo3 B).fresh qs = .ok s → ∀ c, IsI32Coord3 c →
    Stateless3 B nx ny nz Active bm s c

/-- C06 as stated is false of the code, for every 2D map: a new generator believes the tile
(-1,-1) just outside the grid is cached, so the cell (-1,-1) `has_leaves`. -/
theorem C06_refuted2 (k nx nz : Nat) (Active : Coord2 → Prop) (bm : BlockMap Coord2) :
    ¬ C06_full2 (2 ^ k) nx nz Active bm := by
  intro h
  have hB : (0 : Int) < (2 ^ k : Nat) := by exact_mod_cast Nat.two_pow_pos k
  obtain ⟨b, s', hb, hd⟩ := (h [] _ rfl { x := -1, z := -1 } (by unfold IsI32Coord2; decide)).leaves
  have ht : tileOf2 (2 ^ k) { x := -1, z := -1 } = { x := -1, z := -1 } := by
    rw [tileOf2_iff]; unfold InTile2; simp only; omega
  have hl : (geo2 (2 ^ k)).hasLeaves bm (geo2 (2 ^ k)).fresh { x := -1, z := -1 } =
      .ok (true, (geo2 (2 ^ k)).fresh) := by
    unfold Geo.hasLeaves
    rw [show (geo2 (2 ^ k)).tileOf { x := -1, z := -1 } = { x := -1, z := -1 } from ht]
    rfl
  rw [hl] at hb
  injection hb with hb; injection hb with hb _
  obtain ⟨t, hg, _, hi⟩ := hd.1 hb.symm
  have h1 := hg.1; have h2 := hi.1
  have := mul_nonneg h1 hB.le
  simp only at h2
  omega

/-- C06 is false of the code for every 3D map, for the same reason. -/
theorem C06_refuted3 (k nx ny nz : Nat) (Active : Coord3 → Prop) (bm : BlockMap Coord3) :
    ¬ C06_full3 (2 ^ k) nx ny nz Active bm := by
  intro h
  have hB : (0 : Int) < (2 ^ k : Nat) := by exact_mod_cast Nat.two_pow_pos k
  obtain ⟨b, s', hb, hd⟩ := (h [] _ rfl { x := -1, y := -1, z := -1 } (by unfold IsI32Coord3; decide)).leaves
  have ht : tileOf3 (2 ^ k) { x := -1, y := -1, z := -1 } = { x := -1, y := -1, z := -1 } := by
    rw [tileOf3_iff]; unfold InTile3; simp only; omega
  have hl : (geo3 (2 ^ k)).hasLeaves bm (geo3 (2 ^ k)).fresh { x := -1, y := -1, z := -1 } =
      .ok (true, (geo3 (2 ^ k)).fresh) := by
    unfold Geo.hasLeaves
    rw [show (geo3 (2 ^ k)).tileOf { x := -1, y := -1, z := -1 } = { x := -1, y := -1, z := -1 } from ht]
    rfl
  rw [hl] at hb
  injection hb with hb; injection hb with hb _
  obtain ⟨t, hg, _, hi⟩ := hd.1 hb.symm
  have h1 := hg.1; have h2 := hi.1
  have := mul_nonneg h1 hB.le
  simp only at h2
  omega

/-- C06 (2D), everywhere except the one bad tile: after any history, every cell outside tile (-1,-1)
gets the stateless answer, and so does every cell once any query has touched an active tile.
Missing for full C06: cells of tile (-1,-1) on a generator that has not yet seen an active tile
(`C06_refuted2` shows they are answered wrongly). -/
theorem C06_cache2_partial (k nx nz : Nat) (Active : Coord2 → Prop) (bm : BlockMap Coord2)
    (hx : FitsI32Axis k nx) (hz : FitsI32Axis k nz) (hm : MapFor2 (2 ^ k) nx nz Active bm)
    (qs : List (Query Coord2)) (hqs : ∀ q ∈ qs, IsI32Coord2 q.coord) (s : IdxState Coord2)
    (hrun : (geo2 (2 ^ k)).run bm (geo2 (2 ^ k)).fresh qs = .ok s) (c : Coord2) (hc : IsI32Coord2 c)
    (hok : ¬ InTile2 (2 ^ k) { x := -1, z := -1 } c ∨ ∃ q ∈ qs, HasData2 (2 ^ k) nx nz Active q.coord) :
    Stateless2 (2 ^ k) nx nz Active bm s c := by
  have hB : 0 < 2 ^ k := Nat.two_pow_pos k
  obtain ⟨hdims, hbb, hn⟩ := hm
  have hg := fun t => grid2_iff (2 ^ k) nx nz hB t
  have hbox := fun c hc => geo2_box k nx nz hx hz c hc
  have hlo : ∀ t, (geo2 (2 ^ k)).inDims bm.dims t = true → -1 ≤ bm.lookup t := by
    intro t ht
    rw [hdims] at ht
    have hg' := (hg t).2 ht
    by_cases ha : Active t
    · have := hn.active t hg' ha; omega
    · have := hn.inactive t hg' ha; omega
  have hd : (geo2 (2 ^ k)).inDims bm.dims (geo2 (2 ^ k)).dflt = false := by
    show inDims2 bm.dims {} = false
    unfold inDims2; rw [decide_eq_false_iff_not]; simp only; omega
  have hpos : ∀ t, GridTile2 (2 ^ k) (nx * (2 ^ k : Nat)) (nz * (2 ^ k : Nat)) t →
      (0 ≤ bm.lookup t ↔ Active t) := by
    intro t ht
    by_cases ha : Active t
    · have := hn.active t ht ha; simp only [ha, iff_true]; omega
    · have := hn.inactive t ht ha; simp only [ha, iff_false]; omega
  have hdata : ∀ c, HasData2 (2 ^ k) nx nz Active c ↔
      inDims2 { x := nx, z := nz } (tileOf2 (2 ^ k) c) = true ∧ 0 ≤ bm.lookup (tileOf2 (2 ^ k) c) := by
    intro c
    constructor
    · rintro ⟨t, h1, h2, h3⟩
      have := (tileOf2_iff k c t).2 h3
      rw [this]
      exact ⟨(hg t).1 h1, (hpos t h1).2 h2⟩
    · rintro ⟨h1, h2⟩
      exact ⟨_, (hg _).2 h1, (hpos _ ((hg _).2 h1)).1 h2, (tileOf2_iff k c _).1 rfl⟩
  obtain ⟨hinv, hkey⟩ := (geo2 (2 ^ k)).run_inv bm hlo hd qs _ s ((geo2 (2 ^ k)).inv_fresh bm) hrun
  have hne : (geo2 (2 ^ k)).tileOf c ≠ (geo2 (2 ^ k)).dflt ∨ s.key ≠ (geo2 (2 ^ k)).dflt := by
    rcases hok with h | ⟨q, hq, hqd⟩
    · left; intro he; exact h ((tileOf2_iff k c _).1 he)
    · right
      refine hkey (Or.inr ⟨q, hq, ?_⟩)
      obtain ⟨a, b⟩ := (hdata q.coord).1 hqd
      refine ⟨by rw [hdims]; exact a, b, ?_⟩
      rw [hbb]; exact (hbox q.coord (hqs q hq)).2 a
  have hans := (geo2 (2 ^ k)).idx_answer bm s hinv c hne
  obtain ⟨b, s', hb, hbi⟩ := (geo2 (2 ^ k)).hasLeaves_answer bm hlo s hinv c
    (by rw [hbb, hdims]; exact (hbox c hc).1) (by rw [hbb, hdims]; exact (hbox c hc).2) hne
  rw [hbb, hbox c hc] at hbi
  rw [hdims] at hans
  refine ⟨⟨b, s', hb, hbi.trans (hdata c).symm⟩, ?_, ?_⟩
  · intro t h1 h2 h3
    have ht := (tileOf2_iff k c t).2 h2
    have hti : (geo2 (2 ^ k)).tileOf c = t := ht
    obtain ⟨s', hs'⟩ := hans.2.1 (by rw [hti]; exact (hg t).1 h1) (by rw [hti]; exact (hpos t h1).2 h3)
    refine ⟨s', ?_⟩
    rw [hs', hti]
    show Outcome.ok (bm.lookup t * (((2 ^ k : Nat) : Int) * (2 ^ k : Nat)) +
      innerOffset2 (2 ^ k) (innerOf2 (2 ^ k) c), s') = _
    unfold innerOffset2 innerOf2; rw [ht]
  · intro t h1 h2 h3
    have hti : (geo2 (2 ^ k)).tileOf c = t := (tileOf2_iff k c t).2 h2
    refine hans.2.2 (by rw [hti]; exact (hg t).1 h1) ?_
    rw [hti]; have := hn.inactive t h1 h3; omega

/-- C06 (3D), everywhere except the one bad tile; see `C06_cache2_partial`. -/
theorem C06_cache3_partial (k nx ny nz : Nat) (Active : Coord3 → Prop) (bm : BlockMap Coord3)
    (hx : FitsI32Axis k nx) (hy : FitsI32Axis k ny) (hz : FitsI32Axis k nz)
    (hm : MapFor3 (2 ^ k) nx ny nz Active bm)
    (qs : List (Query Coord3)) (hqs : ∀ q ∈ qs, IsI32Coord3 q.coord) (s : IdxState Coord3)
    (hrun : (geo3 (2 ^ k)).run bm (geo3 (2 ^ k)).fresh qs = .ok s) (c : Coord3) (hc : IsI32Coord3 c)
    (hok : ¬ InTile3 (2 ^ k) { x := -1, y := -1, z := -1 } c ∨
      ∃ q ∈ qs, HasData3 (2 ^ k) nx ny nz Active q.coord) :
    Stateless3 (2 ^ k) nx ny nz Active bm s c := by
  have hB : 0 < 2 ^ k := Nat.two_pow_pos k
  obtain ⟨hdims, hbb, hn⟩ := hm
  have hg := fun t => grid3_iff (2 ^ k) nx ny nz hB t
  have hbox := fun c hc => geo3_box k nx ny nz hx hy hz c hc
  have hlo : ∀ t, (geo3 (2 ^ k)).inDims bm.dims t = true → -1 ≤ bm.lookup t := by
    intro t ht
    rw [hdims] at ht
    have hg' := (hg t).2 ht
    by_cases ha : Active t
    · have := hn.active t hg' ha; omega
    · have := hn.inactive t hg' ha; omega
  have hd : (geo3 (2 ^ k)).inDims bm.dims (geo3 (2 ^ k)).dflt = false := by
    show inDims3 bm.dims {} = false
    unfold inDims3; rw [decide_eq_false_iff_not]; simp only; omega
  have hpos : ∀ t, GridTile3 (2 ^ k) (nx * (2 ^ k : Nat)) (ny * (2 ^ k : Nat)) (nz * (2 ^ k : Nat)) t →
      (0 ≤ bm.lookup t ↔ Active t) := by
    intro t ht
    by_cases ha : Active t
    · have := hn.active t ht ha; simp only [ha, iff_true]; omega
    · have := hn.inactive t ht ha; simp only [ha, iff_false]; omega
  have hdata : ∀ c, HasData3 (2 ^ k) nx ny nz Active c ↔
      inDims3 { x := nx, y := ny, z := nz } (tileOf3 (2 ^ k) c) = true ∧
        0 ≤ bm.lookup (tileOf3 (2 ^ k) c) := by
    intro c
    constructor
    · rintro ⟨t, h1, h2, h3⟩
      have := (tileOf3_iff k c t).2 h3
      rw [this]
      exact ⟨(hg t).1 h1, (hpos t h1).2 h2⟩
    · rintro ⟨h1, h2⟩
      exact ⟨_, (hg _).2 h1, (hpos _ ((hg _).2 h1)).1 h2, (tileOf3_iff k c _).1 rfl⟩
  obtain ⟨hinv, hkey⟩ := (geo3 (2 ^ k)).run_inv bm hlo hd qs _ s ((geo3 (2 ^ k)).inv_fresh bm) hrun
  have hne : (geo3 (2 ^ k)).tileOf c ≠ (geo3 (2 ^ k)).dflt ∨ s.key ≠ (geo3 (2 ^ k)).dflt := by
    rcases hok with h | ⟨q, hq, hqd⟩
    · left; intro he; exact h ((tileOf3_iff k c _).1 he)
    · right
      refine hkey (Or.inr ⟨q, hq, ?_⟩)
      obtain ⟨a, b⟩ := (hdata q.coord).1 hqd
      refine ⟨by rw [hdims]; exact a, b, ?_⟩
      rw [hbb]; exact (hbox q.coord (hqs q hq)).2 a
  have hans := (geo3 (2 ^ k)).idx_answer bm s hinv c hne
  obtain ⟨b, s', hb, hbi⟩ := (geo3 (2 ^ k)).hasLeaves_answer bm hlo s hinv c
    (by rw [hbb, hdims]; exact (hbox c hc).1) (by rw [hbb, hdims]; exact (hbox c hc).2) hne
  rw [hbb, hbox c hc] at hbi
  rw [hdims] at hans
  refine ⟨⟨b, s', hb, hbi.trans (hdata c).symm⟩, ?_, ?_⟩
  · intro t h1 h2 h3
    have ht := (tileOf3_iff k c t).2 h2
    have hti : (geo3 (2 ^ k)).tileOf c = t := ht
    obtain ⟨s', hs'⟩ := hans.2.1 (by rw [hti]; exact (hg t).1 h1) (by rw [hti]; exact (hpos t h1).2 h3)
    refine ⟨s', ?_⟩
    rw [hs', hti]
    show Outcome.ok (bm.lookup t * (((2 ^ k : Nat) : Int) * (2 ^ k : Nat) * (2 ^ k : Nat)) +
      innerOffset3 (2 ^ k) (innerOf3 (2 ^ k) c), s') = _
    unfold innerOffset3 innerOf3; rw [ht]
  · intro t h1 h2 h3
    have hti : (geo3 (2 ^ k)).tileOf c = t := (tileOf3_iff k c t).2 h2
    refine hans.2.2 (by rw [hti]; exact (hg t).1 h1) ?_
    rw [hti]; have := hn.inactive t h1 h3; omega

/-! ## C05: loop addresses, coordinates and lookups agree -/

/-- C05 (2D). (a) `loop_idx` is a bijection from (tile number, in-tile offset) onto the slots;
(b) `loop_coord` is a bijection onto the cells of active tiles; (c) looking up the coordinate of an
iteration, on any generator whatever its history, gives that iteration's slot. -/
theorem C05_bijection2 (k nx nz : Nat) (Active : Coord2 → Prop) (bm : BlockMap Coord2)
    (hx : FitsI32Axis k nx) (hz : FitsI32Axis k nz) (hm : MapFor2 (2 ^ k) nx nz Active bm) :
    let B : Nat := 2 ^ k
    let Iter : Nat × Int → Prop := fun p => p.1 < bm.activeTiles.length ∧ 0 ≤ p.2 ∧ p.2 < B * B
    (∀ n : Int, 0 ≤ n ∧ n < bm.numActive * (B * B) → ∃! p, Iter p ∧ (geo2 B).loopIdx p.1 p.2 = n) ∧
    (∀ p, Iter p → 0 ≤ (geo2 B).loopIdx p.1 p.2 ∧ (geo2 B).loopIdx p.1 p.2 < bm.numActive * (B * B)) ∧
    (∀ c, HasData2 B nx nz Active c → ∃! p, Iter p ∧ loopCoord2 B bm p.1 p.2 = .ok c) ∧
    (∀ p, Iter p → ∃ c, loopCoord2 B bm p.1 p.2 = .ok c ∧ HasData2 B nx nz Active c ∧
      ∀ qs s, (∀ q ∈ qs, IsI32Coord2 q.coord) → (geo2 B).run bm (geo2 B).fresh qs = .ok s →
        ∃ s', (geo2 B).idx bm s c = .ok ((geo2 B).loopIdx p.1 p.2, s')) := by
  intro B Iter
  have hB : 0 < B := Nat.two_pow_pos k
  have hB' : (0 : Int) < B := by exact_mod_cast hB
  have hBB : (0 : Int) < B * B := by positivity
  have hn := hm.numbering
  have hcells : (geo2 B).cells = B * B := rfl
  -- coordinate of an iteration
  have hco : ∀ p, ∀ hp : Iter p, ∃ c, loopCoord2 B bm p.1 p.2 = .ok c ∧
      InTile2 B (decodeMorton2 (bm.activeTiles[p.1]'hp.1)) c ∧
      (c.z - (decodeMorton2 (bm.activeTiles[p.1]'hp.1)).z * B) * B +
        (c.x - (decodeMorton2 (bm.activeTiles[p.1]'hp.1)).x * B) = p.2 := by
    intro p hp
    obtain ⟨h1, h2, h3⟩ := hp
    obtain ⟨⟨a, b⟩, ⟨d, e⟩, f⟩ := tileInner2 B hB p.2 h2 h3
    refine ⟨_, by unfold loopCoord2; rw [List.getElem?_eq_getElem h1], ?_, ?_⟩
    · unfold InTile2; simp only [add_mul, one_mul]; omega
    · simp only
      rw [show ∀ u v : Int, u + v - u = v by intros; ring, show ∀ u v : Int, u + v - u = v by intros; ring]
      exact f
  refine ⟨?_, ?_, ?_, ?_⟩
  · rintro n ⟨h0, h1⟩
    have e := Int.mul_ediv_add_emod n (B * B)
    have l := Int.emod_nonneg n (ne_of_gt hBB)
    have u := Int.emod_lt_of_pos n hBB
    have d0 := Int.ediv_nonneg h0 hBB.le
    have d1 : n / (B * B) < bm.numActive := Int.ediv_lt_of_lt_mul hBB h1
    refine ⟨((n / (B * B : Int)).toNat, n % (B * B : Int)), ⟨⟨?_, l, u⟩, ?_⟩, ?_⟩
    · have := hn.count; simp only; omega
    · unfold Geo.loopIdx; rw [hcells]; simp only
      rw [Int.toNat_of_nonneg d0, mul_comm]; exact e
    · rintro ⟨i, j⟩ ⟨⟨_, hj0, hj1⟩, hij⟩
      unfold Geo.loopIdx at hij; rw [hcells] at hij
      simp only at hj0 hj1 hij
      have q1 : n / (B * B : Int) = i := by
        rw [← hij, add_comm, Int.add_mul_ediv_right _ _ (ne_of_gt hBB), Int.ediv_eq_zero_of_lt hj0 hj1]; omega
      have q2 : n % (B * B : Int) = j := by
        rw [← hij, add_comm, Int.add_mul_emod_self_right, Int.emod_eq_of_lt hj0 hj1]
      rw [q1, q2]; simp
  · rintro ⟨i, j⟩ ⟨hi, hj0, hj1⟩
    unfold Geo.loopIdx; rw [hcells, ← hn.count]
    simp only at hi hj0 hj1 ⊢
    have : (i : Int) + 1 ≤ bm.activeTiles.length := by exact_mod_cast hi
    constructor
    · have := mul_nonneg (Int.natCast_nonneg i) hBB.le; omega
    · have := mul_le_mul_of_nonneg_right this hBB.le
      rw [add_mul, one_mul] at this; omega
  · rintro c ⟨t, hgt, hat, hit⟩
    -- the tile's number
    obtain ⟨a0, a1⟩ := hn.active t hgt hat
    have hlen : (bm.lookup t).toNat < bm.activeTiles.length := by have := hn.count; omega
    have hdec : decodeMorton2 bm.activeTiles[(bm.lookup t).toNat] = t := by
      obtain ⟨g1, g2, g3⟩ := hn.listed _ hlen
      refine hn.injective _ _ g1 hgt g2 hat ?_
      rw [g3]; exact Int.toNat_of_nonneg a0
    obtain ⟨b1, b2, b3, b4⟩ := hit
    rw [add_mul, one_mul] at b2 b4
    have hoff0 : 0 ≤ (c.z - t.z * B) * B + (c.x - t.x * B) := by
      have : 0 ≤ (c.z - t.z * B) * B := mul_nonneg (by omega) hB'.le
      omega
    have hoff1 : (c.z - t.z * B) * B + (c.x - t.x * B) < B * B := by
      have : (c.z - t.z * B + 1) * B ≤ B * B := mul_le_mul_of_nonneg_right (by omega) hB'.le
      rw [add_mul, one_mul] at this; omega
    refine ⟨((bm.lookup t).toNat, (c.z - t.z * B) * B + (c.x - t.x * B)), ⟨⟨hlen, hoff0, hoff1⟩, ?_⟩, ?_⟩
    · obtain ⟨c', e1, e2, e3⟩ := hco ((bm.lookup t).toNat, (c.z - t.z * B) * B + (c.x - t.x * B))
        ⟨hlen, hoff0, hoff1⟩
      rw [e1]
      simp only [hdec] at e2 e3
      obtain ⟨f1, f2, f3, f4⟩ := e2
      rw [add_mul, one_mul] at f2 f4
      have hq : c'.z - t.z * B = c.z - t.z * B := by
        have := congrArg (fun v : Int => v / (B : Int)) e3
        beta_reduce at this
        rw [add_comm, Int.add_mul_ediv_right _ _ (ne_of_gt hB'), Int.ediv_eq_zero_of_lt (by omega) (by omega),
          add_comm ((c.z - t.z * B) * B), Int.add_mul_ediv_right _ _ (ne_of_gt hB'),
          Int.ediv_eq_zero_of_lt (by omega) (by omega)] at this
        omega
      rw [hq] at e3
      congr 1
      cases c; cases c'; simp only at hq e3; congr <;> omega
    · rintro ⟨i, j⟩ ⟨hI, hc⟩
      obtain ⟨c', e1, e2, e3⟩ := hco (i, j) hI
      rw [e1] at hc; injection hc with hc; subst hc
      obtain ⟨g1, g2, g3⟩ := hn.listed i hI.1
      have htt : decodeMorton2 bm.activeTiles[i] = t := by
        rw [← (tileOf2_iff k c' _).2 e2]
        exact (tileOf2_iff k c' t).2 ⟨b1, by rw [add_mul, one_mul]; exact b2, b3, by
          rw [add_mul, one_mul]; exact b4⟩
      simp only [htt] at e3 g3
      rw [g3, ← e3]; simp
  · rintro p hp
    obtain ⟨c, e1, e2, e3⟩ := hco p hp
    obtain ⟨g1, g2, g3⟩ := hn.listed p.1 hp.1
    have hdat : HasData2 B nx nz Active c := ⟨_, g1, g2, e2⟩
    refine ⟨c, e1, hdat, ?_⟩
    intro qs s hqs hrun
    have hbx := axis_box B nx hB c.x _ e2.1 e2.2.1
    have hbz := axis_box B nz hB c.z _ e2.2.2.1 e2.2.2.2
    have hgi := (grid2_iff B nx nz hB _).1 g1
    unfold inDims2 at hgi
    rw [decide_eq_true_eq] at hgi
    simp only at hgi
    have hcx := hbx.2 ⟨hgi.1, hgi.2.1⟩
    have hcz := hbz.2 ⟨hgi.2.2.1, hgi.2.2.2⟩
    have hc32 : IsI32Coord2 c := by
      have hx' : (nx : Int) * B ≤ 2147483647 := hx
      have hz' : (nz : Int) * B ≤ 2147483647 := hz
      exact ⟨⟨by omega, by omega⟩, ⟨by omega, by omega⟩⟩
    have hst := C06_cache2_partial k nx nz Active bm hx hz hm qs hqs s hrun c hc32 (Or.inl (by
      rintro ⟨_, h2, _⟩
      simp only at h2
      omega))
    obtain ⟨s', hs'⟩ := hst.addr _ g1 e2 g2
    exact ⟨s', by rw [hs', e3, g3]; rfl⟩

/-- C05 (3D); see `C05_bijection2`. -/
theorem C05_bijection3 (k nx ny nz : Nat) (Active : Coord3 → Prop) (bm : BlockMap Coord3)
    (hx : FitsI32Axis k nx) (hy : FitsI32Axis k ny) (hz : FitsI32Axis k nz)
    (hm : MapFor3 (2 ^ k) nx ny nz Active bm) :
    let B : Nat := 2 ^ k
    let Iter : Nat × Int → Prop := fun p => p.1 < bm.activeTiles.length ∧ 0 ≤ p.2 ∧ p.2 < B * B * B
    (∀ n : Int, 0 ≤ n ∧ n < bm.numActive * (B * B * B) → ∃! p, Iter p ∧ (geo3 B).loopIdx p.1 p.2 = n) ∧
    (∀ p, Iter p → 0 ≤ (geo3 B).loopIdx p.1 p.2 ∧
      (geo3 B).loopIdx p.1 p.2 < bm.numActive * (B * B * B)) ∧
    (∀ c, HasData3 B nx ny nz Active c → ∃! p, Iter p ∧ loopCoord3 B bm p.1 p.2 = .ok c) ∧
    (∀ p, Iter p → ∃ c, loopCoord3 B bm p.1 p.2 = .ok c ∧ HasData3 B nx ny nz Active c ∧
      ∀ qs s, (∀ q ∈ qs, IsI32Coord3 q.coord) → (geo3 B).run bm (geo3 B).fresh qs = .ok s →
        ∃ s', (geo3 B).idx bm s c = .ok ((geo3 B).loopIdx p.1 p.2, s')) := by
  intro B Iter
  have hB : 0 < B := Nat.two_pow_pos k
  have hB' : (0 : Int) < B := by exact_mod_cast hB
  have hBB : (0 : Int) < B * B * B := by positivity
  have hn := hm.numbering
  have hcells : (geo3 B).cells = B * B * B := rfl
  have hco : ∀ p, ∀ hp : Iter p, ∃ c, loopCoord3 B bm p.1 p.2 = .ok c ∧
      InTile3 B (decodeMorton3 (bm.activeTiles[p.1]'hp.1)) c ∧
      ((c.z - (decodeMorton3 (bm.activeTiles[p.1]'hp.1)).z * B) * B +
        (c.y - (decodeMorton3 (bm.activeTiles[p.1]'hp.1)).y * B)) * B +
        (c.x - (decodeMorton3 (bm.activeTiles[p.1]'hp.1)).x * B) = p.2 := by
    intro p hp
    obtain ⟨h1, h2, h3⟩ := hp
    obtain ⟨⟨a, b⟩, ⟨d, e⟩, ⟨f, g⟩, h⟩ := tileInner3 B hB p.2 h2 h3
    refine ⟨_, by unfold loopCoord3; rw [List.getElem?_eq_getElem h1], ?_, ?_⟩
    · unfold InTile3; simp only [add_mul, one_mul]; omega
    · simp only
      rw [show ∀ u v : Int, u + v - u = v by intros; ring, show ∀ u v : Int, u + v - u = v by intros; ring,
        show ∀ u v : Int, u + v - u = v by intros; ring]
      exact h
  refine ⟨?_, ?_, ?_, ?_⟩
  · rintro n ⟨h0, h1⟩
    have e := Int.mul_ediv_add_emod n (B * B * B)
    have l := Int.emod_nonneg n (ne_of_gt hBB)
    have u := Int.emod_lt_of_pos n hBB
    have d0 := Int.ediv_nonneg h0 hBB.le
    have d1 : n / (B * B * B) < bm.numActive := Int.ediv_lt_of_lt_mul hBB h1
    refine ⟨((n / (B * B * B : Int)).toNat, n % (B * B * B : Int)), ⟨⟨?_, l, u⟩, ?_⟩, ?_⟩
    · have := hn.count; simp only; omega
    · unfold Geo.loopIdx; rw [hcells]; simp only
      rw [Int.toNat_of_nonneg d0, mul_comm]; exact e
    · rintro ⟨i, j⟩ ⟨⟨_, hj0, hj1⟩, hij⟩
      unfold Geo.loopIdx at hij; rw [hcells] at hij
      simp only at hj0 hj1 hij
      have q1 : n / (B * B * B : Int) = i := by
        rw [← hij, add_comm, Int.add_mul_ediv_right _ _ (ne_of_gt hBB), Int.ediv_eq_zero_of_lt hj0 hj1]; omega
      have q2 : n % (B * B * B : Int) = j := by
        rw [← hij, add_comm, Int.add_mul_emod_self_right, Int.emod_eq_of_lt hj0 hj1]
      rw [q1, q2]; simp
  · rintro ⟨i, j⟩ ⟨hi, hj0, hj1⟩
    unfold Geo.loopIdx; rw [hcells, ← hn.count]
    simp only at hi hj0 hj1 ⊢
    have : (i : Int) + 1 ≤ bm.activeTiles.length := by exact_mod_cast hi
    constructor
    · have := mul_nonneg (Int.natCast_nonneg i) hBB.le; omega
    · have := mul_le_mul_of_nonneg_right this hBB.le
      rw [add_mul, one_mul] at this; omega
  · rintro c ⟨t, hgt, hat, hit⟩
    obtain ⟨a0, a1⟩ := hn.active t hgt hat
    have hlen : (bm.lookup t).toNat < bm.activeTiles.length := by have := hn.count; omega
    have hdec : decodeMorton3 bm.activeTiles[(bm.lookup t).toNat] = t := by
      obtain ⟨g1, g2, g3⟩ := hn.listed _ hlen
      refine hn.injective _ _ g1 hgt g2 hat ?_
      rw [g3]; exact Int.toNat_of_nonneg a0
    have hit0 := hit
    obtain ⟨b1, b2, b3, b4, b5, b6⟩ := hit
    rw [add_mul, one_mul] at b2 b4 b6
    generalize hoz : c.z - t.z * B = oz at *
    generalize hoy : c.y - t.y * B = oy at *
    generalize hox : c.x - t.x * B = ox at *
    have r1 : 0 ≤ ox ∧ ox < B := by omega
    have r2 : 0 ≤ oy ∧ oy < B := by omega
    have r3 : 0 ≤ oz ∧ oz < B := by omega
    have hq0 : 0 ≤ oz * B + oy := by
      have : 0 ≤ oz * (B : Int) := mul_nonneg r3.1 hB'.le
      omega
    have hq1 : oz * B + oy + 1 ≤ B * B := by
      have : (oz + 1) * (B : Int) ≤ B * B := mul_le_mul_of_nonneg_right (by omega) hB'.le
      rw [add_mul, one_mul] at this; omega
    have hoff0 : 0 ≤ (oz * B + oy) * B + ox := by
      have : 0 ≤ (oz * B + oy) * (B : Int) := mul_nonneg hq0 hB'.le
      omega
    have hoff1 : (oz * B + oy) * B + ox < B * B * B := by
      have : (oz * B + oy + 1) * (B : Int) ≤ B * B * B := mul_le_mul_of_nonneg_right hq1 hB'.le
      rw [add_mul, one_mul] at this; omega
    refine ⟨((bm.lookup t).toNat, (oz * B + oy) * B + ox), ⟨⟨hlen, hoff0, hoff1⟩, ?_⟩, ?_⟩
    · obtain ⟨c', e1, e2, e3⟩ := hco ((bm.lookup t).toNat, (oz * B + oy) * B + ox) ⟨hlen, hoff0, hoff1⟩
      rw [e1]
      simp only [hdec] at e2 e3
      obtain ⟨f1, f2, f3, f4, f5, f6⟩ := e2
      rw [add_mul, one_mul] at f2 f4 f6
      have dv : ∀ q r : Int, 0 ≤ r ∧ r < B → (q * B + r) / (B : Int) = q := by
        intro q r hr
        rw [add_comm, Int.add_mul_ediv_right _ _ (ne_of_gt hB'), Int.ediv_eq_zero_of_lt hr.1 hr.2]; omega
      have hq : (c'.z - t.z * B) * B + (c'.y - t.y * B) = oz * B + oy := by
        have := congrArg (fun v : Int => v / (B : Int)) e3
        beta_reduce at this
        rwa [dv _ _ (by omega), dv _ _ r1] at this
      have hq2 : c'.z - t.z * B = oz := by
        have := congrArg (fun v : Int => v / (B : Int)) hq
        beta_reduce at this
        rwa [dv _ _ (by omega), dv _ _ r2] at this
      rw [hq] at e3
      rw [hq2] at hq
      congr 1
      cases c; cases c'; simp only at hq hq2 e3 hox hoy hoz; congr <;> omega
    · rintro ⟨i, j⟩ ⟨hI, hc⟩
      obtain ⟨c', e1, e2, e3⟩ := hco (i, j) hI
      rw [e1] at hc; injection hc with hc; subst hc
      obtain ⟨g1, g2, g3⟩ := hn.listed i hI.1
      have htt : decodeMorton3 bm.activeTiles[i] = t := by
        rw [← (tileOf3_iff k c' _).2 e2]
        exact (tileOf3_iff k c' t).2 hit0
      simp only [htt, hox, hoy, hoz] at e3 g3
      rw [g3, ← e3]; simp
  · rintro p hp
    obtain ⟨c, e1, e2, e3⟩ := hco p hp
    obtain ⟨g1, g2, g3⟩ := hn.listed p.1 hp.1
    have hdat : HasData3 B nx ny nz Active c := ⟨_, g1, g2, e2⟩
    refine ⟨c, e1, hdat, ?_⟩
    intro qs s hqs hrun
    have hbx := axis_box B nx hB c.x _ e2.1 e2.2.1
    have hby := axis_box B ny hB c.y _ e2.2.2.1 e2.2.2.2.1
    have hbz := axis_box B nz hB c.z _ e2.2.2.2.2.1 e2.2.2.2.2.2
    have hgi := (grid3_iff B nx ny nz hB _).1 g1
    unfold inDims3 at hgi
    rw [decide_eq_true_eq] at hgi
    simp only at hgi
    have hcx := hbx.2 ⟨hgi.1, hgi.2.1⟩
    have hcy := hby.2 ⟨hgi.2.2.1, hgi.2.2.2.1⟩
    have hcz := hbz.2 ⟨hgi.2.2.2.2.1, hgi.2.2.2.2.2⟩
    have hc32 : IsI32Coord3 c := by
      have hx' : (nx : Int) * B ≤ 2147483647 := hx
      have hy' : (ny : Int) * B ≤ 2147483647 := hy
      have hz' : (nz : Int) * B ≤ 2147483647 := hz
      exact ⟨⟨by omega, by omega⟩, ⟨by omega, by omega⟩, ⟨by omega, by omega⟩⟩
    have hst := C06_cache3_partial k nx ny nz Active bm hx hy hz hm qs hqs s hrun c hc32 (Or.inl (by
      rintro ⟨_, h2, _⟩
      simp only at h2
      omega))
    obtain ⟨s', hs'⟩ := hst.addr _ g1 e2 g2
    exact ⟨s', by rw [hs', e3, g3]; rfl⟩

/-! Non-vacuity: the constructors of C03/C04/C41 give `MapFor2`/`MapFor3`. -/
example : ∃ bm, setupDense2 (2 ^ 4) (64 * (2 ^ 4 : Nat)) (32 * (2 ^ 4 : Nat)) = .ok bm ∧
    MapFor2 (2 ^ 4) 64 32 (fun _ => True) bm := by
  obtain ⟨bm, h1, _, h3, h4, _, h6⟩ := C03_dense2 (2 ^ 4) 64 32 (by unfold GoodSize2 i32Max; decide)
  exact ⟨bm, h1, h3, h4, h6⟩
example : ∃ bm, setupDense3 (2 ^ 3) (16 * (2 ^ 3 : Nat)) (8 * (2 ^ 3 : Nat)) (32 * (2 ^ 3 : Nat)) = .ok bm ∧
    MapFor3 (2 ^ 3) 16 8 32 (fun _ => True) bm := by
  obtain ⟨bm, h1, _, h3, h4, _, h6⟩ := C03_dense3 (2 ^ 3) 16 8 32 (by unfold GoodSize3 i32Max; decide)
  exact ⟨bm, h1, h3, h4, h6⟩
example : FitsI32Axis 4 64 := by unfold FitsI32Axis i32Max; decide
/-- A mixed history on a concrete one-tile map runs to completion. -/
example : ((setupDense2 2 4 4).bind fun bm => (geo2 2).run bm (geo2 2).fresh
    [.hasLeaves ⟨9, 9⟩, .idx ⟨3, 2⟩, .hasLeaves ⟨-1, 0⟩, .idx ⟨0, 0⟩]).bind (fun s => .ok (s.key, s.base))
    = .ok (⟨0, 0⟩, 0) := by decide +kernel

end DexRT
