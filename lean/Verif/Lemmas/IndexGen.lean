import Verif.Model.IndexGen
import Verif.Lemmas.Grid
import Mathlib.Tactic.Linarith
import Mathlib.Tactic.Ring
/-! Helper lemmas for the index generators. -/
namespace DexRT

variable {C : Type} [DecidableEq C]

/-- Cache invariant. -/
def Geo.Inv (G : Geo C) (bm : BlockMap C) (s : IdxState C) : Prop :=
  (s.key = G.dflt ∧ s.base = 0) ∨
  (G.inDims bm.dims s.key = true ∧ 0 ≤ bm.lookup s.key ∧ s.base = bm.lookup s.key * G.cells)

omit [DecidableEq C] in
theorem Geo.inv_fresh (G : Geo C) (bm : BlockMap C) : G.Inv bm G.fresh := Or.inl ⟨rfl, rfl⟩

/-- Coordinate a query is about. -/
def Query.coord : Query C → C
  | .idx c => c
  | .hasLeaves c => c

theorem Geo.ask_inv (G : Geo C) (bm : BlockMap C)
    (hlo : ∀ t, G.inDims bm.dims t = true → -1 ≤ bm.lookup t)
    (s : IdxState C) (hs : G.Inv bm s) (q : Query C) (a : Answer) (s' : IdxState C)
    (h : G.ask bm s q = .ok (a, s')) :
    G.Inv bm s' ∧ (s.key ≠ G.dflt → G.inDims bm.dims G.dflt = false → s'.key ≠ G.dflt) := by
  cases q with
  | idx c =>
    unfold Geo.ask Geo.idx at h
    by_cases hk : s.key = G.tileOf c
    · simp only [hk, if_true, Outcome.ok_bind] at h
      injection h with h; injection h with _ h; subst h
      exact ⟨hs, fun h _ => h⟩
    · simp only [hk, if_false] at h
      unfold Geo.read at h
      by_cases hin : G.inDims bm.dims (G.tileOf c) = true
      · simp only [hin, if_true, Outcome.ok_bind] at h
        by_cases h0 : bm.lookup (G.tileOf c) ≥ 0
        · simp only [h0, if_true, Outcome.ok_bind] at h
          injection h with h; injection h with _ h; subst h
          refine ⟨Or.inr ⟨hin, h0, rfl⟩, fun _ hd he => ?_⟩
          simp only at he
          rw [he] at hin; rw [hin] at hd; cases hd
        · simp only [h0, if_false, Outcome.ok_bind] at h
          injection h with h; injection h with _ h; subst h
          exact ⟨hs, fun h _ => h⟩
      · simp only [hin] at h
        exact absurd h (by simp)
  | hasLeaves c =>
    unfold Geo.ask Geo.hasLeaves at h
    by_cases hk : s.key = G.tileOf c
    · simp only [hk, if_true, Outcome.ok_bind] at h
      injection h with h; injection h with _ h; subst h
      exact ⟨hs, fun h _ => h⟩
    · simp only [hk, if_false] at h
      by_cases ho : G.outside bm.bboxMax c = true
      · simp only [ho, if_true, Outcome.ok_bind] at h
        injection h with h; injection h with _ h; subst h
        exact ⟨hs, fun h _ => h⟩
      · simp only [ho] at h
        unfold Geo.read at h
        by_cases hin : G.inDims bm.dims (G.tileOf c) = true
        · simp only [hin, if_true, Outcome.ok_bind, Bool.false_eq_true, if_false] at h
          by_cases h0 : bm.lookup (G.tileOf c) ≠ -1
          · simp only [h0, ne_eq, not_false_eq_true, if_true, Outcome.ok_bind] at h
            injection h with h; injection h with _ h; subst h
            refine ⟨Or.inr ⟨hin, ?_, rfl⟩, fun _ hd he => ?_⟩
            · have := hlo _ hin; simp only; omega
            simp only at he
            rw [he] at hin; rw [hin] at hd; cases hd
          · push Not at h0
            simp only [h0, ne_eq, not_true_eq_false, if_false, Outcome.ok_bind] at h
            injection h with h; injection h with _ h; subst h
            exact ⟨hs, fun h _ => h⟩
        · simp only [hin] at h
          exact absurd h (by simp)

/-- After asking about a cell of an active in-grid tile the cache key is not the default key. -/
theorem Geo.ask_hit (G : Geo C) (bm : BlockMap C) (hd : G.inDims bm.dims G.dflt = false)
    (s : IdxState C) (q : Query C) (a : Answer) (s' : IdxState C)
    (hin : G.inDims bm.dims (G.tileOf q.coord) = true) (hact : 0 ≤ bm.lookup (G.tileOf q.coord))
    (hout : G.outside bm.bboxMax q.coord = false)
    (h : G.ask bm s q = .ok (a, s')) : s'.key ≠ G.dflt := by
  have hne : G.tileOf q.coord ≠ G.dflt := by
    intro he; rw [he] at hin; rw [hin] at hd; cases hd
  cases q with
  | idx c =>
    unfold Geo.ask Geo.idx at h
    simp only [Query.coord] at *
    by_cases hk : s.key = G.tileOf c
    · simp only [hk, if_true, Outcome.ok_bind] at h
      injection h with h; injection h with _ h; subst h
      rw [hk]; exact hne
    · simp only [hk, if_false, Geo.read, hin, if_true, Outcome.ok_bind, ge_iff_le, hact] at h
      injection h with h; injection h with _ h; subst h
      exact hne
  | hasLeaves c =>
    unfold Geo.ask Geo.hasLeaves at h
    simp only [Query.coord] at *
    by_cases hk : s.key = G.tileOf c
    · simp only [hk, if_true, Outcome.ok_bind] at h
      injection h with h; injection h with _ h; subst h
      rw [hk]; exact hne
    · have h1 : bm.lookup (G.tileOf c) ≠ -1 := by omega
      simp only [hk, if_false, hout, Bool.false_eq_true, Geo.read, hin, if_true, Outcome.ok_bind, h1,
        ne_eq, not_false_eq_true] at h
      injection h with h; injection h with _ h; subst h
      exact hne

theorem Geo.run_inv (G : Geo C) (bm : BlockMap C)
    (hlo : ∀ t, G.inDims bm.dims t = true → -1 ≤ bm.lookup t)
    (hd : G.inDims bm.dims G.dflt = false) :
    ∀ (qs : List (Query C)) (s s' : IdxState C), G.Inv bm s → G.run bm s qs = .ok s' →
      G.Inv bm s' ∧
      ((s.key ≠ G.dflt ∨ ∃ q ∈ qs, G.inDims bm.dims (G.tileOf q.coord) = true ∧
          0 ≤ bm.lookup (G.tileOf q.coord) ∧ G.outside bm.bboxMax q.coord = false) → s'.key ≠ G.dflt) := by
  intro qs
  induction qs with
  | nil =>
    intro s s' hs h
    unfold Geo.run at h
    injection h with h; subst h
    refine ⟨hs, ?_⟩
    rintro (h | ⟨q, hq, _⟩)
    · exact h
    · simp at hq
  | cons q qs ih =>
    intro s s' hs h
    unfold Geo.run at h
    cases hq : G.ask bm s q with
    | throws => rw [hq] at h; simp at h
    | ub => rw [hq] at h; simp at h
    | ok p =>
      obtain ⟨a, s1⟩ := p
      rw [hq] at h
      simp only [Outcome.ok_bind] at h
      obtain ⟨i1, i2⟩ := G.ask_inv bm hlo s hs q a s1 hq
      obtain ⟨j1, j2⟩ := ih s1 s' i1 h
      refine ⟨j1, ?_⟩
      rintro (hk | ⟨q', hq', hc⟩)
      · exact j2 (Or.inl (i2 hk hd))
      · rcases List.mem_cons.1 hq' with rfl | hq'
        · exact j2 (Or.inl (G.ask_hit bm hd s q' a s1 hc.1 hc.2.1 hc.2.2 hq))
        · exact j2 (Or.inr ⟨q', hq', hc⟩)

/-- Answers under the invariant, when the cache key is not accidentally the default key. -/
theorem Geo.idx_answer (G : Geo C) (bm : BlockMap C) (s : IdxState C) (hs : G.Inv bm s) (c : C)
    (hne : G.tileOf c ≠ G.dflt ∨ s.key ≠ G.dflt) :
    (G.inDims bm.dims (G.tileOf c) = false → G.idx bm s c = .ub) ∧
    (G.inDims bm.dims (G.tileOf c) = true → 0 ≤ bm.lookup (G.tileOf c) →
      ∃ s', G.idx bm s c = .ok (bm.lookup (G.tileOf c) * G.cells + G.off c, s')) ∧
    (G.inDims bm.dims (G.tileOf c) = true → bm.lookup (G.tileOf c) < 0 →
      ∃ s', G.idx bm s c = .ok (-1, s')) := by
  have hk : s.key = G.tileOf c → G.inDims bm.dims (G.tileOf c) = true ∧ 0 ≤ bm.lookup (G.tileOf c) ∧
      s.base = bm.lookup (G.tileOf c) * G.cells := by
    intro he
    rcases hs with ⟨h1, _⟩ | h
    · rw [h1] at he
      rcases hne with h | h
      · exact absurd he.symm h
      · exact absurd h1 h
    · rw [he] at h; exact h
  unfold Geo.idx Geo.read
  by_cases he : s.key = G.tileOf c
  · obtain ⟨h1, h2, h3⟩ := hk he
    refine ⟨fun h => (by rw [h1] at h; cases h), fun _ _ => ⟨s, ?_⟩, fun _ h => (by omega)⟩
    simp only [he, if_true, h3]
  · refine ⟨fun h => ?_, fun h h0 => ⟨{ key := G.tileOf c, base := bm.lookup (G.tileOf c) * G.cells }, ?_⟩,
      fun h h0 => ⟨s, ?_⟩⟩
    · simp [he, h]
    · simp only [he, if_false, h, if_true, Outcome.ok_bind, ge_iff_le, h0]
    · have : ¬ (bm.lookup (G.tileOf c) ≥ 0) := by omega
      simp only [he, if_false, h, if_true, Outcome.ok_bind, this]

theorem Geo.hasLeaves_answer (G : Geo C) (bm : BlockMap C)
    (hlo : ∀ t, G.inDims bm.dims t = true → -1 ≤ bm.lookup t)
    (s : IdxState C) (hs : G.Inv bm s) (c : C)
    (hbox : G.outside bm.bboxMax c = false → G.inDims bm.dims (G.tileOf c) = true)
    (hbox' : G.inDims bm.dims (G.tileOf c) = true → G.outside bm.bboxMax c = false)
    (hne : G.tileOf c ≠ G.dflt ∨ s.key ≠ G.dflt) :
    ∃ b s', G.hasLeaves bm s c = .ok (b, s') ∧
      (b = true ↔ G.outside bm.bboxMax c = false ∧ 0 ≤ bm.lookup (G.tileOf c)) := by
  have hk : s.key = G.tileOf c → G.inDims bm.dims (G.tileOf c) = true ∧ 0 ≤ bm.lookup (G.tileOf c) := by
    intro he
    rcases hs with ⟨h1, _⟩ | h
    · rw [h1] at he
      rcases hne with h | h
      · exact absurd he.symm h
      · exact absurd h1 h
    · rw [he] at h; exact ⟨h.1, h.2.1⟩
  unfold Geo.hasLeaves Geo.read
  by_cases he : s.key = G.tileOf c
  · obtain ⟨h1, h2⟩ := hk he
    exact ⟨true, s, by simp only [he, if_true], by simp only [true_iff]; exact ⟨hbox' h1, h2⟩⟩
  · by_cases ho : G.outside bm.bboxMax c = true
    · exact ⟨false, s, by simp [he, ho], by simp [ho]⟩
    · have ho' : G.outside bm.bboxMax c = false := by simpa using ho
      have hin := hbox ho'
      have hlo' := hlo _ hin
      by_cases h0 : bm.lookup (G.tileOf c) = -1
      · exact ⟨false, s, by simp [he, ho', hin, h0], by simp [ho', h0]⟩
      · exact ⟨true, { key := G.tileOf c, base := bm.lookup (G.tileOf c) * G.cells }, by simp only [he, if_false, ho', Bool.false_eq_true, hin, if_true,
          Outcome.ok_bind, ne_eq, h0, not_false_eq_true], by simp [ho']; omega⟩

theorem l2_two_pow (k : Nat) : l2 (2 ^ k) = k := Nat.log2_two_pow

theorem shr_l2 (k : Nat) (v : Int) : v >>> l2 (2 ^ k) = v / (2 ^ k : Nat) := by
  rw [l2_two_pow, Int.shiftRight_eq_div_pow]

theorem floor_iff (B : Nat) (hB : 0 < B) (v t : Int) : v / B = t ↔ t * B ≤ v ∧ v < (t + 1) * B := by
  have hB' : (0 : Int) < B := by exact_mod_cast hB
  rw [Int.ediv_eq_iff_of_pos hB', Int.add_mul, Int.one_mul]

theorem u32_out (v mx : Int) (hv : -2147483648 ≤ v ∧ v ≤ 2147483647) (hm : 0 ≤ mx ∧ mx ≤ 2147483647) :
    u32 v ≥ u32 mx ↔ v < 0 ∨ mx ≤ v := by
  unfold u32; omega

/-! ### 2D and 3D facts about the constructed maps -/

theorem tileOf2_iff (k : Nat) (c t : Coord2) : tileOf2 (2 ^ k) c = t ↔ InTile2 (2 ^ k) t c := by
  have hB : 0 < 2 ^ k := Nat.two_pow_pos k
  unfold tileOf2 InTile2
  rw [shr_l2, shr_l2]
  rw [show (({ x := c.x / (2 ^ k : Nat), z := c.z / (2 ^ k : Nat) } : Coord2) = t) ↔
    (c.x / (2 ^ k : Nat) = t.x ∧ c.z / (2 ^ k : Nat) = t.z) by cases t; simp]
  rw [floor_iff _ hB, floor_iff _ hB]; tauto

theorem tileOf3_iff (k : Nat) (c t : Coord3) : tileOf3 (2 ^ k) c = t ↔ InTile3 (2 ^ k) t c := by
  have hB : 0 < 2 ^ k := Nat.two_pow_pos k
  unfold tileOf3 InTile3
  rw [shr_l2, shr_l2, shr_l2]
  rw [show (({ x := c.x / (2 ^ k : Nat), y := c.y / (2 ^ k : Nat), z := c.z / (2 ^ k : Nat) } : Coord3) = t) ↔
    (c.x / (2 ^ k : Nat) = t.x ∧ c.y / (2 ^ k : Nat) = t.y ∧ c.z / (2 ^ k : Nat) = t.z) by cases t; simp]
  rw [floor_iff _ hB, floor_iff _ hB, floor_iff _ hB]; tauto

/-- A cell is inside the box iff its tile is in the grid (one axis). -/
theorem axis_box (B n : Nat) (hB : 0 < B) (v t : Int) (h1 : t * B ≤ v) (h2 : v < (t + 1) * B) :
    (0 ≤ v ∧ v < n * B) ↔ (0 ≤ t ∧ t < n) := by
  have hB' : (0 : Int) < B := by exact_mod_cast hB
  constructor
  · rintro ⟨a, b⟩
    constructor
    · by_contra hc
      have : t + 1 ≤ 0 := by omega
      have := mul_le_mul_of_nonneg_right this hB'.le
      omega
    · exact lt_of_mul_lt_mul_right (lt_of_le_of_lt h1 b) hB'.le
  · rintro ⟨a, b⟩
    constructor
    · have := mul_nonneg a hB'.le; omega
    · have : t + 1 ≤ n := by omega
      have := mul_le_mul_of_nonneg_right this hB'.le
      omega

theorem geo2_box (k nx nz : Nat) (hx : (nx : Int) * (2 ^ k : Nat) ≤ i32Max)
    (hz : (nz : Int) * (2 ^ k : Nat) ≤ i32Max) (c : Coord2) (hc : IsI32Coord2 c) :
    (geo2 (2 ^ k)).outside { x := nx * (2 ^ k : Nat), z := nz * (2 ^ k : Nat) } c = false ↔
      (geo2 (2 ^ k)).inDims { x := nx, z := nz } ((geo2 (2 ^ k)).tileOf c) = true := by
  have hB : 0 < 2 ^ k := Nat.two_pow_pos k
  have ht := (tileOf2_iff k c (tileOf2 (2 ^ k) c)).1 rfl
  set t := tileOf2 (2 ^ k) c with htd
  unfold i32Max at hx hz
  have a := axis_box _ nx hB c.x t.x ht.1 ht.2.1
  have b := axis_box _ nz hB c.z t.z ht.2.2.1 ht.2.2.2
  have u1 := u32_out c.x (nx * (2 ^ k : Nat)) hc.1 ⟨by positivity, hx⟩
  have u2 := u32_out c.z (nz * (2 ^ k : Nat)) hc.2 ⟨by positivity, hz⟩
  show decide (u32 c.x ≥ u32 (nx * (2 ^ k : Nat)) ∨ u32 c.z ≥ u32 (nz * (2 ^ k : Nat))) = false ↔
    inDims2 { x := nx, z := nz } t = true
  unfold inDims2
  rw [decide_eq_false_iff_not, decide_eq_true_eq, u1, u2]
  simp only
  generalize (nx : Int) * (2 ^ k : Nat) = X at *
  generalize (nz : Int) * (2 ^ k : Nat) = Z at *
  omega

theorem geo3_box (k nx ny nz : Nat) (hx : (nx : Int) * (2 ^ k : Nat) ≤ i32Max)
    (hy : (ny : Int) * (2 ^ k : Nat) ≤ i32Max)
    (hz : (nz : Int) * (2 ^ k : Nat) ≤ i32Max) (c : Coord3) (hc : IsI32Coord3 c) :
    (geo3 (2 ^ k)).outside { x := nx * (2 ^ k : Nat), y := ny * (2 ^ k : Nat), z := nz * (2 ^ k : Nat) } c
        = false ↔
      (geo3 (2 ^ k)).inDims { x := nx, y := ny, z := nz } ((geo3 (2 ^ k)).tileOf c) = true := by
  have hB : 0 < 2 ^ k := Nat.two_pow_pos k
  have ht := (tileOf3_iff k c (tileOf3 (2 ^ k) c)).1 rfl
  set t := tileOf3 (2 ^ k) c with htd
  unfold i32Max at hx hy hz
  have a := axis_box _ nx hB c.x t.x ht.1 ht.2.1
  have b := axis_box _ ny hB c.y t.y ht.2.2.1 ht.2.2.2.1
  have d := axis_box _ nz hB c.z t.z ht.2.2.2.2.1 ht.2.2.2.2.2
  have u1 := u32_out c.x (nx * (2 ^ k : Nat)) hc.1 ⟨by positivity, hx⟩
  have u2 := u32_out c.y (ny * (2 ^ k : Nat)) hc.2.1 ⟨by positivity, hy⟩
  have u3 := u32_out c.z (nz * (2 ^ k : Nat)) hc.2.2 ⟨by positivity, hz⟩
  show decide (u32 c.x ≥ u32 (nx * (2 ^ k : Nat)) ∨ u32 c.y ≥ u32 (ny * (2 ^ k : Nat)) ∨
      u32 c.z ≥ u32 (nz * (2 ^ k : Nat))) = false ↔
    inDims3 { x := nx, y := ny, z := nz } t = true
  unfold inDims3
  rw [decide_eq_false_iff_not, decide_eq_true_eq, u1, u2, u3]
  simp only
  generalize (nx : Int) * (2 ^ k : Nat) = X at *
  generalize (ny : Int) * (2 ^ k : Nat) = Y at *
  generalize (nz : Int) * (2 ^ k : Nat) = Z at *
  omega

/-- In-tile offsets, 2D. -/
theorem tileInner2 (B : Nat) (hB : 0 < B) (k : Int) (h0 : 0 ≤ k) (h1 : k < B * B) :
    let o := tileInnerOffset2 B k
    (0 ≤ o.x ∧ o.x < B) ∧ (0 ≤ o.z ∧ o.z < B) ∧ o.z * B + o.x = k := by
  have hB' : (0 : Int) < B := by exact_mod_cast hB
  simp only [tileInnerOffset2, Int.tdiv_eq_ediv_of_nonneg h0]
  have e := Int.mul_ediv_add_emod k B
  have l := Int.emod_nonneg k (ne_of_gt hB')
  have u := Int.emod_lt_of_pos k hB'
  have d0 := Int.ediv_nonneg h0 hB'.le
  have d1 : k / B < B := Int.ediv_lt_of_lt_mul hB' h1
  refine ⟨⟨by omega, by omega⟩, ⟨d0, d1⟩, ?_⟩
  ring

theorem tileInner3 (B : Nat) (hB : 0 < B) (k : Int) (h0 : 0 ≤ k) (h1 : k < B * B * B) :
    let o := tileInnerOffset3 B k
    (0 ≤ o.x ∧ o.x < B) ∧ (0 ≤ o.y ∧ o.y < B) ∧ (0 ≤ o.z ∧ o.z < B) ∧ (o.z * B + o.y) * B + o.x = k := by
  have hB' : (0 : Int) < B := by exact_mod_cast hB
  have hBB : (0 : Int) < B * B := by positivity
  have e := Int.mul_ediv_add_emod k (B * B)
  have l := Int.emod_nonneg k (ne_of_gt hBB)
  have u := Int.emod_lt_of_pos k hBB
  have d0 := Int.ediv_nonneg h0 hBB.le
  have d1 : k / (B * B) < B := Int.ediv_lt_of_lt_mul hBB (by rw [← mul_assoc]; exact h1)
  have hr : k - k / (B * B) * (B * B) = k % (B * B) := by rw [mul_comm]; omega
  simp only [tileInnerOffset3, Int.tdiv_eq_ediv_of_nonneg h0, hr]
  rw [Int.tdiv_eq_ediv_of_nonneg l]
  generalize hz : k / (B * B : Int) = z at *
  generalize hm : k % (B * B : Int) = r at *
  have e2 := Int.mul_ediv_add_emod r B
  have l2 := Int.emod_nonneg r (ne_of_gt hB')
  have u2 := Int.emod_lt_of_pos r hB'
  have d2 := Int.ediv_nonneg l hB'.le
  have d3 : r / B < B := Int.ediv_lt_of_lt_mul hB' u
  have hx : k - (z * (B * B) + r / B * B) = r % B := by
    rw [mul_comm z, mul_comm (r / B)]; omega
  rw [hx]
  refine ⟨⟨l2, u2⟩, ⟨d2, d3⟩, ⟨d0, d1⟩, ?_⟩
  rw [← e]; conv_rhs => rw [← e2]
  ring

end DexRT
