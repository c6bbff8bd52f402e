import Verif.Lemmas.MultiLevel
import Verif.Props.BlockMap
import Mathlib.Tactic.IntervalCases
/-!
C07, C08, C09: mip levels of the block map.
-/
namespace DexRT

/-! ## C09: packed entries -/

/-- C09 (2D): with an even number of tiles each way `init` succeeds; the flat index is a bijection from
tiles onto `[0, nx*nz)`; and after packing an array, reading tile `c` returns the array's value for `c`
(reduced to the entry's `E` bits). -/
theorem C09_packed2 (E a b : Nat) (hE : 0 < E) (hE8 : E ≤ 8)
    (hcap : (2 * a : Int) * (2 * b) ≤ i32Max) :
    ∃ lk, MLLookup.init2 E { x := 2 * a, z := 2 * b } = .ok lk ∧
      (∀ c : Coord2, 0 ≤ c.x → c.x < 2 * a → 0 ≤ c.z → c.z < 2 * b →
        0 ≤ lk.flat2 c ∧ lk.flat2 c < 2 * a * (2 * b)) ∧
      (∀ n : Int, 0 ≤ n → n < 2 * a * (2 * b) →
        ∃! c : Coord2, (0 ≤ c.x ∧ c.x < 2 * a ∧ 0 ≤ c.z ∧ c.z < 2 * b) ∧ lk.flat2 c = n) ∧
      (∀ vals : List Int, vals.length = 2 * a * (2 * b) → ∀ c : Coord2, 0 ≤ c.x → c.x < 2 * a →
        0 ≤ c.z → c.z < 2 * b → ∀ v, vals[(lk.flat2 c).toNat]? = some v →
        (lk.pack E vals).get E (lk.flat2 c) = .ok (v % 2 ^ E).toNat) := by
  have hP : 0 < perWord E := Nat.div_pos (by omega) hE
  have hn0 : (0 : Int) ≤ 2 * a * (2 * b) := by positivity
  obtain ⟨lk, hdim, hwords, hinit⟩ : ∃ lk, lk.dims = { x := (a : Int), z := (b : Int) } ∧
      (lk.words.length : Int) = ((2 * a : Int) * (2 * b) + perWord E - 1).tdiv (perWord E) ∧
      MLLookup.init2 E { x := 2 * a, z := 2 * b } = .ok lk := by
    refine ⟨{ dims := { x := a, z := b }, words := List.replicate (((2 * a : Int) * (2 * b) + perWord E - 1).tdiv (perWord E)).toNat 0 }, rfl, ?_, ?_⟩
    · simp only [List.length_replicate]
      rw [Int.toNat_of_nonneg (Int.tdiv_nonneg (by omega) (by omega))]
    unfold MLLookup.init2
    have e1 : ((2 : Int) * a).tmod 2 = 0 := by rw [Int.tmod_eq_emod_of_nonneg (by omega)]; omega
    have e2 : ((2 : Int) * b).tmod 2 = 0 := by rw [Int.tmod_eq_emod_of_nonneg (by omega)]; omega
    have e3 : ((2 : Int) * a).tdiv 2 = a := by rw [Int.tdiv_eq_ediv_of_nonneg (by omega)]; omega
    have e4 : ((2 : Int) * b).tdiv 2 = b := by rw [Int.tdiv_eq_ediv_of_nonneg (by omega)]; omega
    simp only [e1, e2, e3, e4, zero_ne_one, or_self, if_false, mulI32, fits_of _ hn0 hcap, if_true,
      Outcome.ok_bind]
  refine ⟨lk, hinit, ?_⟩
  ·
    have hfl : ∀ c : Coord2, lk.flat2 c = ((c.z / 2) * a + c.x / 2) * 4 + (c.z % 2) * 2 + c.x % 2 := by
      intro c
      unfold MLLookup.flat2
      rw [Int.shiftRight_eq_div_pow, Int.shiftRight_eq_div_pow, hdim]; rfl
    have hrange : ∀ c : Coord2, 0 ≤ c.x → c.x < 2 * a → 0 ≤ c.z → c.z < 2 * b →
        0 ≤ lk.flat2 c ∧ lk.flat2 c < 2 * a * (2 * b) := by
      intro c h1 h2 h3 h4
      rw [hfl]
      have q0 : 0 ≤ c.z / 2 * (a : Int) := mul_nonneg (by omega) (by omega)
      have q1 : (c.z / 2 + 1) * (a : Int) ≤ b * a := mul_le_mul_of_nonneg_right (by omega) (by omega)
      rw [add_mul, one_mul] at q1
      have q2 : (2 : Int) * a * (2 * b) = (b * a) * 4 := by ring
      rw [q2]
      generalize c.z / 2 * (a : Int) = Q at *
      generalize (b : Int) * a = R at *
      omega
    refine ⟨hrange, ?_, ?_⟩
    · intro n h0 h1
      have q2 : (2 : Int) * a * (2 * b) = (a * b) * 4 := by ring
      rw [q2] at h1
      have ha : (0 : Int) < a := by
        rcases Nat.eq_zero_or_pos a with h | h
        · subst h; simp at h1; omega
        · exact_mod_cast h
      set m := n / 4 with hm
      have hm0 : 0 ≤ m := by omega
      have hm1 : m < b * a := by rw [mul_comm]; omega
      have e := Int.mul_ediv_add_emod m a
      have l := Int.emod_nonneg m (ne_of_gt ha)
      have u := Int.emod_lt_of_pos m ha
      have d0 := Int.ediv_nonneg hm0 ha.le
      have d1 : m / a < b := Int.ediv_lt_of_lt_mul ha hm1
      have hz2 : (2 * (m / a) + n % 4 / 2) / 2 = m / a := by omega
      have hx2 : (2 * (m % a) + n % 2) / 2 = m % a := by omega
      refine ⟨{ x := 2 * (m % a) + n % 2, z := 2 * (m / a) + n % 4 / 2 }, ⟨by simp only; omega, ?_⟩, ?_⟩
      · rw [hfl]; simp only [hz2, hx2]
        rw [mul_comm (m / a) (a : Int), e]; omega
      · rintro ⟨x, z⟩ ⟨⟨h3, h4, h5, h6⟩, h7⟩
        rw [hfl] at h7; simp only at h3 h4 h5 h6 h7
        have hm' : m = z / 2 * a + x / 2 := by omega
        have g1 : m / a = z / 2 := by
          rw [hm', add_comm, Int.add_mul_ediv_right _ _ (ne_of_gt ha),
            Int.ediv_eq_zero_of_lt (by omega) (by omega)]; omega
        have g2 : m % a = x / 2 := by
          rw [hm', add_comm, Int.add_mul_emod_self_right, Int.emod_eq_of_lt (by omega) (by omega)]
        rw [g1, g2]
        congr 1 <;> omega
    · intro vals hv c h1 h2 h3 h4 v hvv
      obtain ⟨r0, r1⟩ := hrange c h1 h2 h3 h4
      have hi : (lk.flat2 c).toNat < vals.length := by
        rw [hv]; zify; rw [Int.toNat_of_nonneg r0]; exact r1
      have := pack_get E hE hE8 lk vals (by
        rw [hwords, hv]; push_cast; rfl) (lk.flat2 c).toNat hi
      rw [Int.toNat_of_nonneg r0] at this
      rw [this]
      rw [List.getElem?_eq_getElem hi] at hvv
      injection hvv with hvv; rw [hvv]

/-- C09: an odd number of tiles either way is rejected in 2D (hyper-blocking). -/
theorem C09_reject_odd (E nx nz : Nat) (h : nx % 2 = 1 ∨ nz % 2 = 1) :
    MLLookup.init2 E { x := nx, z := nz } = .throws := by
  unfold MLLookup.init2
  rw [if_pos]
  simp only
  rw [Int.tmod_eq_emod_of_nonneg (by omega), Int.tmod_eq_emod_of_nonneg (by omega)]
  omega

/-- C09 (3D): as in 2D, for every tile grid. -/
theorem C09_packed3 (E nx ny nz : Nat) (hE : 0 < E) (hE8 : E ≤ 8)
    (hp : (nx : Int) * ny ≤ i32Max) (hcap : (nx : Int) * ny * nz ≤ i32Max) :
    ∃ lk, MLLookup.init3 E { x := nx, y := ny, z := nz } = .ok lk ∧
      (∀ c : Coord3, 0 ≤ c.x → c.x < nx → 0 ≤ c.y → c.y < ny → 0 ≤ c.z → c.z < nz →
        0 ≤ lk.flat3 c ∧ lk.flat3 c < nx * ny * nz) ∧
      (∀ n : Int, 0 ≤ n → n < nx * ny * nz → ∃! c : Coord3,
        (0 ≤ c.x ∧ c.x < nx ∧ 0 ≤ c.y ∧ c.y < ny ∧ 0 ≤ c.z ∧ c.z < nz) ∧ lk.flat3 c = n) ∧
      (∀ vals : List Int, vals.length = nx * ny * nz → ∀ c : Coord3, 0 ≤ c.x → c.x < nx →
        0 ≤ c.y → c.y < ny → 0 ≤ c.z → c.z < nz → ∀ v, vals[(lk.flat3 c).toNat]? = some v →
        (lk.pack E vals).get E (lk.flat3 c) = .ok (v % 2 ^ E).toNat) := by
  have hP : 0 < perWord E := Nat.div_pos (by omega) hE
  have hn0 : (0 : Int) ≤ nx * ny * nz := by positivity
  obtain ⟨lk, hdim, hwords, hinit⟩ : ∃ lk, lk.dims = { x := (nx : Int), y := (ny : Int), z := (nz : Int) } ∧
      (lk.words.length : Int) = ((nx : Int) * ny * nz + perWord E - 1).tdiv (perWord E) ∧
      MLLookup.init3 E { x := nx, y := ny, z := nz } = .ok lk := by
    refine ⟨{ dims := { x := nx, y := ny, z := nz }, words := List.replicate (((nx : Int) * ny * nz + perWord E - 1).tdiv (perWord E)).toNat 0 }, rfl, ?_, ?_⟩
    · simp only [List.length_replicate]
      rw [Int.toNat_of_nonneg (Int.tdiv_nonneg (by omega) (by omega))]
    unfold MLLookup.init3
    simp only [mulI32, fits_of _ hn0 hcap, fits_of _ (by positivity) hp, if_true, Outcome.ok_bind]
  refine ⟨lk, hinit, ?_⟩
  ·
    have hfl : ∀ c : Coord3, lk.flat3 c = (c.z * ny + c.y) * nx + c.x := by
      intro c
      unfold MLLookup.flat3
      rw [hdim]
      ring
    have hrange : ∀ c : Coord3, 0 ≤ c.x → c.x < nx → 0 ≤ c.y → c.y < ny → 0 ≤ c.z → c.z < nz →
        0 ≤ lk.flat3 c ∧ lk.flat3 c < nx * ny * nz := by
      intro c h1 h2 h3 h4 h5 h6
      rw [hfl]
      have q0 : 0 ≤ c.z * (ny : Int) := mul_nonneg h5 (by omega)
      have q1 : (c.z + 1) * (ny : Int) ≤ nz * ny := mul_le_mul_of_nonneg_right (by omega) (by omega)
      rw [add_mul, one_mul] at q1
      have q2 : 0 ≤ (c.z * ny + c.y) * (nx : Int) := mul_nonneg (by omega) (by omega)
      have q3 : (c.z * ny + c.y + 1) * (nx : Int) ≤ nz * ny * nx :=
        mul_le_mul_of_nonneg_right (by omega) (by omega)
      rw [add_mul, one_mul] at q3
      have q4 : (nx : Int) * ny * nz = nz * ny * nx := by ring
      rw [q4]; omega
    refine ⟨hrange, ?_, ?_⟩
    · intro n h0 h1
      have hx : (0 : Int) < nx := by
        rcases Nat.eq_zero_or_pos nx with h | h
        · subst h; simp at h1; omega
        · exact_mod_cast h
      have hy : (0 : Int) < ny := by
        rcases Nat.eq_zero_or_pos ny with h | h
        · subst h; simp at h1; omega
        · exact_mod_cast h
      have e := Int.mul_ediv_add_emod n nx
      have l := Int.emod_nonneg n (ne_of_gt hx)
      have u := Int.emod_lt_of_pos n hx
      have d0 := Int.ediv_nonneg h0 hx.le
      have d1 : n / nx < nz * ny := Int.ediv_lt_of_lt_mul hx (by
        rw [show (nz : Int) * ny * nx = nx * ny * nz by ring]; exact h1)
      generalize hm : n / (nx : Int) = m at *
      have e2 := Int.mul_ediv_add_emod m ny
      have l2 := Int.emod_nonneg m (ne_of_gt hy)
      have u2 := Int.emod_lt_of_pos m hy
      have d2 := Int.ediv_nonneg d0 hy.le
      have d3 : m / ny < nz := Int.ediv_lt_of_lt_mul hy d1
      refine ⟨{ x := n % nx, y := m % ny, z := m / ny }, ⟨⟨l, u, l2, u2, d2, d3⟩, ?_⟩, ?_⟩
      · rw [hfl]; simp only
        rw [mul_comm (m / ny) (ny : Int), e2, mul_comm]; exact e
      · rintro ⟨x, y, z⟩ ⟨⟨h3, h4, h5, h6, h7, h8⟩, h9⟩
        rw [hfl] at h9; simp only at h3 h4 h5 h6 h7 h8 h9
        have g1 : n / nx = z * ny + y := by
          rw [← h9, add_comm, Int.add_mul_ediv_right _ _ (ne_of_gt hx), Int.ediv_eq_zero_of_lt h3 h4]; omega
        have g2 : n % nx = x := by
          rw [← h9, add_comm, Int.add_mul_emod_self_right, Int.emod_eq_of_lt h3 h4]
        rw [hm] at g1
        have g3 : m / ny = z := by
          rw [g1, add_comm, Int.add_mul_ediv_right _ _ (ne_of_gt hy), Int.ediv_eq_zero_of_lt h5 h6]; omega
        have g4 : m % ny = y := by
          rw [g1, add_comm, Int.add_mul_emod_self_right, Int.emod_eq_of_lt h5 h6]
        rw [g2, g3, g4]
    · intro vals hv c h1 h2 h3 h4 h5 h6 v hvv
      obtain ⟨r0, r1⟩ := hrange c h1 h2 h3 h4 h5 h6
      have hi : (lk.flat3 c).toNat < vals.length := by
        rw [hv]; zify; rw [Int.toNat_of_nonneg r0]; exact r1
      have := pack_get E hE hE8 lk vals (by
        rw [hwords, hv]; push_cast; rfl) (lk.flat3 c).toNat hi
      rw [Int.toNat_of_nonneg r0] at this
      rw [this]
      rw [List.getElem?_eq_getElem hi] at hvv
      injection hvv with hvv; rw [hvv]

/-- Non-vacuity: 3-bit entries (21 per word), 512 x 256 tiles; a packed 4x2 grid reads back. -/
example : ((2 * 256 : Nat) : Int) * ((2 * 128 : Nat) : Int) ≤ i32Max := by unfold i32Max; decide
example : ((MLLookup.init2 3 { x := 4, z := 2 }).bind fun lk =>
    (lk.pack 3 [0, 1, 2, 3, 4, 5, 6, 7]).get 3 (lk.flat2 { x := 3, z := 0 })) = .ok 5 := by decide +kernel

/-! ## C08: mip storage -/

/-- C08: for every block size `2^k`, dimension, number of active tiles and accepted mip limit, the map
(level, tile, offset) -> address is a bijection onto `[0, buffer_len())`. -/
theorem C08_storage (E k D : Nat) (hD : 0 < D) (numActive : Int) (hna : 0 ≤ numActive) (maxMip : Nat)
    (hmip : maxMip + 1 ≤ 2 ^ E - 1) :
    ∃ off, mipOffsets E (2 ^ k) D numActive maxMip = .ok off ∧
      let Cell : Nat × Int × Int → Prop := fun p => p.1 ≤ maxMip ∧ (0 ≤ p.2.1 ∧ p.2.1 < numActive) ∧
        (0 ≤ p.2.2 ∧ p.2.2 < (((2 ^ k) ^ D / (2 ^ p.1) ^ D : Nat) : Int))
      (∀ p, Cell p → 0 ≤ mipLoopIdx (2 ^ k) D off p.1 p.2.1 p.2.2 ∧
        mipLoopIdx (2 ^ k) D off p.1 p.2.1 p.2.2 < mipBufferLen (2 ^ k) D numActive off maxMip) ∧
      (∀ n : Int, 0 ≤ n → n < mipBufferLen (2 ^ k) D numActive off maxMip →
        ∃! p, Cell p ∧ mipLoopIdx (2 ^ k) D off p.1 p.2.1 p.2.2 = n) := by
  refine ⟨fillOffsets (2 ^ k) D numActive (maxMip + 1) 0 0 (fun _ => 0), ?_, ?_⟩
  · unfold mipOffsets; rw [if_neg (by omega)]
  intro Cell
  set off := fillOffsets (2 ^ k) D numActive (maxMip + 1) 0 0 (fun _ => 0) with hoff
  have hofs : ∀ j, j ≤ maxMip → off j = levelSum (2 ^ k) D numActive j := by
    intro j hj
    have := fillOffsets_spec (2 ^ k) D numActive (maxMip + 1) 0 (fun _ => 0) j
    rw [if_pos (by omega)] at this; exact this
  have hlen : mipBufferLen (2 ^ k) D numActive off maxMip = levelSum (2 ^ k) D numActive (maxMip + 1) := by
    unfold mipBufferLen; rw [hofs _ (le_refl _)]; rfl
  have hidx : ∀ p : Nat × Int × Int, p.1 ≤ maxMip → mipLoopIdx (2 ^ k) D off p.1 p.2.1 p.2.2 =
      levelSum (2 ^ k) D numActive p.1 + (p.2.1 * (((2 ^ k) ^ D / (2 ^ p.1) ^ D : Nat) : Int) + p.2.2) := by
    rintro ⟨m, t, b⟩ hm
    unfold mipLoopIdx mipBase
    simp only at hm ⊢
    rw [hofs m hm, ← cells_level k D m hD]; ring
  -- a cell's address lies in its level's range
  have hin : ∀ p, Cell p → levelSum (2 ^ k) D numActive p.1 ≤ mipLoopIdx (2 ^ k) D off p.1 p.2.1 p.2.2 ∧
      mipLoopIdx (2 ^ k) D off p.1 p.2.1 p.2.2 < levelSum (2 ^ k) D numActive (p.1 + 1) := by
    rintro ⟨m, t, b⟩ ⟨h1, ⟨h2, h3⟩, h4, h5⟩
    rw [hidx _ h1]
    simp only at *
    show _ ∧ _ < levelSum (2 ^ k) D numActive m + numActive * (((2 ^ k) ^ D / (2 ^ m) ^ D : Nat) : Int)
    generalize (((2 ^ k) ^ D / (2 ^ m) ^ D : Nat) : Int) = w at *
    have q0 : 0 ≤ t * w := mul_nonneg h2 (by omega)
    have q1 : (t + 1) * w ≤ numActive * w := mul_le_mul_of_nonneg_right (by omega) (by omega)
    rw [add_mul, one_mul] at q1
    constructor <;> omega
  refine ⟨?_, ?_⟩
  · intro p hp
    obtain ⟨a, b⟩ := hin p hp
    have l0 := levelSum_mono (2 ^ k) D numActive hna 0 p.1 (by omega)
    have l1 := levelSum_mono (2 ^ k) D numActive hna (p.1 + 1) (maxMip + 1) (by have := hp.1; omega)
    have : levelSum (2 ^ k) D numActive 0 = 0 := rfl
    rw [hlen]; omega
  · intro n h0 h1
    rw [hlen] at h1
    -- find the level
    have hlev : ∀ M, n < levelSum (2 ^ k) D numActive M →
        ∃ m, m < M ∧ levelSum (2 ^ k) D numActive m ≤ n ∧ n < levelSum (2 ^ k) D numActive (m + 1) := by
      intro M
      induction M with
      | zero => intro h; exact absurd h (not_lt.2 h0)
      | succ M ih =>
        intro h
        by_cases hc : n < levelSum (2 ^ k) D numActive M
        · obtain ⟨m, a, b, c⟩ := ih hc; exact ⟨m, by omega, b, c⟩
        · exact ⟨M, by omega, not_lt.1 hc, h⟩
    obtain ⟨m, hm, hlo, hhi⟩ := hlev _ h1
    have hhi' : n < levelSum (2 ^ k) D numActive m + numActive * (((2 ^ k) ^ D / (2 ^ m) ^ D : Nat) : Int) := hhi
    have huniq : ∀ p, Cell p → mipLoopIdx (2 ^ k) D off p.1 p.2.1 p.2.2 = n → p.1 = m := by
      intro p hp he
      obtain ⟨a, b⟩ := hin p hp
      rw [he] at a b
      rcases Nat.lt_trichotomy p.1 m with h | h | h
      · have := levelSum_mono (2 ^ k) D numActive hna (p.1 + 1) m (by omega); omega
      · exact h
      · have := levelSum_mono (2 ^ k) D numActive hna (m + 1) p.1 (by omega); omega
    generalize hw : (((2 ^ k) ^ D / (2 ^ m) ^ D : Nat) : Int) = w at *
    have hwpos : 0 < w := by
      rcases lt_or_ge 0 w with h | h
      · exact h
      · have : numActive * w ≤ 0 := mul_nonpos_of_nonneg_of_nonpos hna h; omega
    set r := n - levelSum (2 ^ k) D numActive m with hr
    have hr0 : 0 ≤ r := by omega
    have hr1 : r < numActive * w := by omega
    have e := Int.mul_ediv_add_emod r w
    have l := Int.emod_nonneg r (ne_of_gt hwpos)
    have u := Int.emod_lt_of_pos r hwpos
    have d0 := Int.ediv_nonneg hr0 hwpos.le
    have d1 : r / w < numActive := Int.ediv_lt_of_lt_mul hwpos hr1
    refine ⟨(m, r / w, r % w), ⟨⟨by simp only; omega, ⟨d0, d1⟩, l, by simp only; rw [hw]; exact u⟩, ?_⟩, ?_⟩
    · rw [hidx _ (by simp only; omega)]; simp only; rw [hw, mul_comm (r / w) w, e]; omega
    · rintro ⟨m', t, b⟩ ⟨hp, he⟩
      have hmm : m' = m := huniq _ hp he
      subst hmm
      rw [hidx _ hp.1] at he
      obtain ⟨_, ⟨h2, h3⟩, h4, h5⟩ := hp
      simp only at h2 h3 h4 h5 he
      rw [hw] at h5 he
      have hre : r = t * w + b := by omega
      have g1 : r / w = t := by
        rw [hre, add_comm, Int.add_mul_ediv_right _ _ (ne_of_gt hwpos), Int.ediv_eq_zero_of_lt h4 h5]; omega
      have g2 : r % w = b := by
        rw [hre, add_comm, Int.add_mul_emod_self_right, Int.emod_eq_of_lt h4 h5]
      rw [g1, g2]

/-- C08: asking for more levels than an entry can name is rejected. -/
theorem C08_reject (E B D : Nat) (numActive : Int) (maxMip : Nat) (h : 2 ^ E - 1 < maxMip + 1) :
    mipOffsets E B D numActive maxMip = .throws := by
  unfold mipOffsets; rw [if_pos h]

/-- Non-vacuity: default 3-bit entries allow mip limits up to 6. -/
example : (4 : Nat) + 1 ≤ 2 ^ 3 - 1 := by decide

/-! ## C07: the multi-level tile cache -/

/-- The level table of a multi-resolution map in 2D: `lvl t` is the mip level stored for tile `t`, -1
for an empty tile; only active tiles have a level, and levels are within the `mip_offsets` array. -/
structure LevelsFor {C : Type} (Grid Active : C → Prop) (m : MRMap C) (lvl : C → Int) : Prop where
  stored : ∀ t, Grid t → m.get t = .ok (lvl t + 1).toNat
  range : ∀ t, Grid t → -1 ≤ lvl t ∧ lvl t < m.maxStore
  active : ∀ t, Grid t → 0 ≤ lvl t → Active t

private theorem ok2 (k nx nz : Nat) (Active : Coord2 → Prop) (m : MRMap Coord2) (lvl : Coord2 → Int)
    (hm : MapFor2 (2 ^ k) nx nz Active m.bm)
    (hl : LevelsFor (GridTile2 (2 ^ k) (nx * (2 ^ k : Nat)) (nz * (2 ^ k : Nat))) Active m lvl) :
    (mgeo2 (2 ^ k)).Ok m lvl := by
  have hB : 0 < 2 ^ k := Nat.two_pow_pos k
  constructor
  · rw [hm.dims]; show inDims2 ⟨nx, nz⟩ {} = false
    unfold inDims2; rw [decide_eq_false_iff_not]; simp only; omega
  · intro t ht
    rw [hm.dims] at ht
    have hg := (grid2_iff (2 ^ k) nx nz hB t).2 ht
    refine ⟨hl.stored t hg, (hl.range t hg).1, (hl.range t hg).2, ?_⟩
    intro hne
    have := (hl.range t hg).1
    exact (hm.numbering.active t hg (hl.active t hg (by omega))).1

private theorem ok3 (k nx ny nz : Nat) (Active : Coord3 → Prop) (m : MRMap Coord3) (lvl : Coord3 → Int)
    (hm : MapFor3 (2 ^ k) nx ny nz Active m.bm)
    (hl : LevelsFor (GridTile3 (2 ^ k) (nx * (2 ^ k : Nat)) (ny * (2 ^ k : Nat)) (nz * (2 ^ k : Nat)))
      Active m lvl) :
    (mgeo3 (2 ^ k)).Ok m lvl := by
  have hB : 0 < 2 ^ k := Nat.two_pow_pos k
  constructor
  · rw [hm.dims]; show inDims3 ⟨nx, ny, nz⟩ {} = false
    unfold inDims3; rw [decide_eq_false_iff_not]; simp only; omega
  · intro t ht
    rw [hm.dims] at ht
    have hg := (grid3_iff (2 ^ k) nx ny nz hB t).2 ht
    refine ⟨hl.stored t hg, (hl.range t hg).1, (hl.range t hg).2, ?_⟩
    intro hne
    have := (hl.range t hg).1
    exact (hm.numbering.active t hg (hl.active t hg (by omega))).1

/-- C07 (2D), addresses: after any history of calls, `idx(mip, c)` for a cell of an active tile `t` is
the stateless address: level offset + tile number times cells per tile + row-major in-tile position of the
`2^mip`-sized voxel containing the cell. No condition on earlier calls. -/
theorem C07_idx2 (k nx nz : Nat) (Active : Coord2 → Prop) (m : MRMap Coord2) (lvl : Coord2 → Int)
    (hx : (nx : Int) * (2 ^ k : Nat) ≤ i32Max) (hz : (nz : Int) * (2 ^ k : Nat) ≤ i32Max)
    (hm : MapFor2 (2 ^ k) nx nz Active m.bm)
    (hl : LevelsFor (GridTile2 (2 ^ k) (nx * (2 ^ k : Nat)) (nz * (2 ^ k : Nat))) Active m lvl)
    (qs : List (MQuery Coord2)) (hqs : ∀ q ∈ qs, IsI32Coord2 q.coord) (s : MIdxState Coord2)
    (hrun : (mgeo2 (2 ^ k)).run m (mgeo2 (2 ^ k)).fresh qs = .ok s)
    (c t : Coord2) (ht : GridTile2 (2 ^ k) (nx * (2 ^ k : Nat)) (nz * (2 ^ k : Nat)) t)
    (hct : InTile2 (2 ^ k) t c) (mip : Nat) (hmip : mip < m.maxStore) :
    (Active t → ∃ s', (mgeo2 (2 ^ k)).idx m s mip c = .ok
      (m.off mip + m.bm.lookup t * ((2 ^ k / 2 ^ mip : Nat) : Int) ^ 2 +
        ((c.z - t.z * (2 ^ k : Nat)) / (2 ^ mip : Nat) * ((2 ^ k / 2 ^ mip : Nat) : Int) +
          (c.x - t.x * (2 ^ k : Nat)) / (2 ^ mip : Nat)), s')) ∧
    (¬ Active t → ∃ s', (mgeo2 (2 ^ k)).idx m s mip c = .ok (-1, s')) := by
  have hB : 0 < 2 ^ k := Nat.two_pow_pos k
  have hok := ok2 k nx nz Active m lvl hm hl
  have hinv := (mgeo2 (2 ^ k)).run_inv m lvl hok qs _ s (by
    intro q hq; rw [hm.bbox, hm.dims]; exact geo2_box k nx nz hx hz _ (hqs q hq))
    ((mgeo2 (2 ^ k)).inv_fresh m) hrun
  have hti : (mgeo2 (2 ^ k)).tileOf c = t := (tileOf2_iff k c t).2 hct
  have hdim : (mgeo2 (2 ^ k)).inDims m.bm.dims t = true := by
    rw [hm.dims]; exact (grid2_iff (2 ^ k) nx nz hB t).1 ht
  obtain ⟨_, a2, _, a4⟩ := (mgeo2 (2 ^ k)).idx_cases m s hinv mip c
  rw [hti] at a2 a4
  refine ⟨fun ha => ?_, fun ha => ?_⟩
  · obtain ⟨s', h1, _⟩ := a2 hdim (hm.numbering.active t ht ha).1 hmip
    refine ⟨s', ?_⟩
    rw [h1]
    show Outcome.ok (mipBase (2 ^ k) 2 m.off mip (m.bm.lookup t) + mipInner2 (2 ^ k) mip (innerOf2 (2 ^ k) c), s') = _
    have hti' : tileOf2 (2 ^ k) c = t := hti
    unfold mipBase mipInner2 innerOf2
    rw [hti', Nat.shiftRight_eq_div_pow, Int.shiftRight_eq_div_pow, Int.shiftRight_eq_div_pow]
    rw [Nat.cast_pow]
  · refine ⟨s, a4 hdim ?_⟩
    rw [hm.numbering.inactive t ht ha]; decide

/-- C07 (3D), addresses; see `C07_idx2`. -/
theorem C07_idx3 (k nx ny nz : Nat) (Active : Coord3 → Prop) (m : MRMap Coord3) (lvl : Coord3 → Int)
    (hx : (nx : Int) * (2 ^ k : Nat) ≤ i32Max) (hy : (ny : Int) * (2 ^ k : Nat) ≤ i32Max)
    (hz : (nz : Int) * (2 ^ k : Nat) ≤ i32Max)
    (hm : MapFor3 (2 ^ k) nx ny nz Active m.bm)
    (hl : LevelsFor (GridTile3 (2 ^ k) (nx * (2 ^ k : Nat)) (ny * (2 ^ k : Nat)) (nz * (2 ^ k : Nat)))
      Active m lvl)
    (qs : List (MQuery Coord3)) (hqs : ∀ q ∈ qs, IsI32Coord3 q.coord) (s : MIdxState Coord3)
    (hrun : (mgeo3 (2 ^ k)).run m (mgeo3 (2 ^ k)).fresh qs = .ok s)
    (c t : Coord3)
    (ht : GridTile3 (2 ^ k) (nx * (2 ^ k : Nat)) (ny * (2 ^ k : Nat)) (nz * (2 ^ k : Nat)) t)
    (hct : InTile3 (2 ^ k) t c) (mip : Nat) (hmip : mip < m.maxStore) :
    (Active t → ∃ s', (mgeo3 (2 ^ k)).idx m s mip c = .ok
      (m.off mip + m.bm.lookup t * ((2 ^ k / 2 ^ mip : Nat) : Int) ^ 3 +
        (((c.z - t.z * (2 ^ k : Nat)) / (2 ^ mip : Nat) * ((2 ^ k / 2 ^ mip : Nat) : Int) +
          (c.y - t.y * (2 ^ k : Nat)) / (2 ^ mip : Nat)) * ((2 ^ k / 2 ^ mip : Nat) : Int) +
          (c.x - t.x * (2 ^ k : Nat)) / (2 ^ mip : Nat)), s')) ∧
    (¬ Active t → ∃ s', (mgeo3 (2 ^ k)).idx m s mip c = .ok (-1, s')) := by
  have hB : 0 < 2 ^ k := Nat.two_pow_pos k
  have hok := ok3 k nx ny nz Active m lvl hm hl
  have hinv := (mgeo3 (2 ^ k)).run_inv m lvl hok qs _ s (by
    intro q hq; rw [hm.bbox, hm.dims]; exact geo3_box k nx ny nz hx hy hz _ (hqs q hq))
    ((mgeo3 (2 ^ k)).inv_fresh m) hrun
  have hti : (mgeo3 (2 ^ k)).tileOf c = t := (tileOf3_iff k c t).2 hct
  have hdim : (mgeo3 (2 ^ k)).inDims m.bm.dims t = true := by
    rw [hm.dims]; exact (grid3_iff (2 ^ k) nx ny nz hB t).1 ht
  obtain ⟨_, a2, _, a4⟩ := (mgeo3 (2 ^ k)).idx_cases m s hinv mip c
  rw [hti] at a2 a4
  refine ⟨fun ha => ?_, fun ha => ?_⟩
  · obtain ⟨s', h1, _⟩ := a2 hdim (hm.numbering.active t ht ha).1 hmip
    refine ⟨s', ?_⟩
    rw [h1]
    show Outcome.ok (mipBase (2 ^ k) 3 m.off mip (m.bm.lookup t) + mipInner3 (2 ^ k) mip (innerOf3 (2 ^ k) c), s') = _
    have hti' : tileOf3 (2 ^ k) c = t := hti
    unfold mipBase mipInner3 innerOf3
    rw [hti', Nat.shiftRight_eq_div_pow, Int.shiftRight_eq_div_pow, Int.shiftRight_eq_div_pow,
      Int.shiftRight_eq_div_pow]
    rw [Nat.cast_pow]
  · refine ⟨s, a4 hdim ?_⟩
    rw [hm.numbering.inactive t ht ha]; decide

/-- C08 (2D), agreement: the cell coordinate `loop_coord(mip, tile, block)` of an iteration lies in that
tile, and looking it up with `idx(mip, .)`, after any history, gives `loop_idx(mip, tile, block)`. -/
theorem C08_loop_agree2 (k nx nz : Nat) (Active : Coord2 → Prop) (m : MRMap Coord2) (lvl : Coord2 → Int)
    (hx : (nx : Int) * (2 ^ k : Nat) ≤ i32Max) (hz : (nz : Int) * (2 ^ k : Nat) ≤ i32Max)
    (hm : MapFor2 (2 ^ k) nx nz Active m.bm)
    (hl : LevelsFor (GridTile2 (2 ^ k) (nx * (2 ^ k : Nat)) (nz * (2 ^ k : Nat))) Active m lvl)
    (qs : List (MQuery Coord2)) (hqs : ∀ q ∈ qs, IsI32Coord2 q.coord) (s : MIdxState Coord2)
    (hrun : (mgeo2 (2 ^ k)).run m (mgeo2 (2 ^ k)).fresh qs = .ok s)
    (mip : Nat) (hmk : mip ≤ k) (hmip : mip < m.maxStore) (i : Nat) (hi : i < m.bm.activeTiles.length)
    (b : Int) (hb0 : 0 ≤ b) (hb1 : b < (((2 ^ k) ^ 2 / (2 ^ mip) ^ 2 : Nat) : Int)) :
    ∃ c s', mipLoopCoord2 (2 ^ k) m.bm mip i b = .ok c ∧
      InTile2 (2 ^ k) (decodeMorton2 m.bm.activeTiles[i]) c ∧
      (mgeo2 (2 ^ k)).idx m s mip c = .ok (mipLoopIdx (2 ^ k) 2 m.off mip i b, s') := by
  obtain ⟨g1, g2, g3⟩ := hm.numbering.listed i hi
  set t := decodeMorton2 m.bm.activeTiles[i] with ht
  have hw : ((2 ^ k) >>> mip : Nat) = 2 ^ (k - mip) := by
    rw [Nat.shiftRight_eq_div_pow, Nat.pow_div hmk (by omega)]
  have hwB : ((2 ^ (k - mip) : Nat) : Int) * (2 ^ mip : Nat) = (2 ^ k : Nat) := by
    rw [← Nat.cast_mul, ← pow_add, Nat.sub_add_cancel hmk]
  rw [cells_level k 2 mip (by omega), hw, pow_two, Nat.cast_mul] at hb1
  have hpw : 0 < 2 ^ (k - mip) := Nat.two_pow_pos _
  obtain ⟨⟨a1, a2⟩, ⟨a3, a4⟩, a5⟩ := tileInner2 (2 ^ (k - mip)) hpw b hb0 hb1
  have hp : (0 : Int) < (2 ^ mip : Nat) := by exact_mod_cast Nat.two_pow_pos mip
  simp only [tileInnerOffset2] at a1 a2 a3 a4 a5
  set oz := b.tdiv ((2 ^ (k - mip) : Nat) : Int) with hoz
  set ox := b - ((2 ^ (k - mip) : Nat) : Int) * oz with hox
  have hpc : (2 : Int) ^ mip = ((2 ^ mip : Nat) : Int) := by push_cast; rfl
  have hcoord : mipLoopCoord2 (2 ^ k) m.bm mip i b =
      .ok { x := t.x * (2 ^ k : Nat) + ox * (2 ^ mip : Nat), z := t.z * (2 ^ k : Nat) + oz * (2 ^ mip : Nat) } := by
    unfold mipLoopCoord2
    rw [List.getElem?_eq_getElem hi]
    simp only [mipTileInner2, hw, hpc, ← hoz, ← hox, ← ht]
  have rng : ∀ v : Int, 0 ≤ v → v < ((2 ^ (k - mip) : Nat) : Int) →
      0 ≤ v * (2 ^ mip : Nat) ∧ v * (2 ^ mip : Nat) < (2 ^ k : Nat) := by
    intro v h1 h2
    refine ⟨mul_nonneg h1 hp.le, ?_⟩
    rw [← hwB]; exact mul_lt_mul_of_pos_right h2 hp
  have rx := rng ox a1 a2
  have rz := rng oz a3 a4
  have hin : InTile2 (2 ^ k) t
      { x := t.x * (2 ^ k : Nat) + ox * (2 ^ mip : Nat), z := t.z * (2 ^ k : Nat) + oz * (2 ^ mip : Nat) } := by
    unfold InTile2; simp only [add_mul, one_mul]; omega
  obtain ⟨s', hs'⟩ := (C07_idx2 k nx nz Active m lvl hx hz hm hl qs hqs s hrun _ t g1 hin mip hmip).1 g2
  refine ⟨_, s', hcoord, hin, ?_⟩
  rw [hs']
  congr 2
  simp only
  rw [show ∀ u v : Int, u + v - u = v by intros; ring, show ∀ u v : Int, u + v - u = v by intros; ring,
    Int.mul_ediv_cancel _ (ne_of_gt hp), Int.mul_ediv_cancel _ (ne_of_gt hp)]
  unfold mipLoopIdx mipBase
  rw [g3, ← Nat.shiftRight_eq_div_pow, hw, a5]; push_cast; rfl

/-- C08 (3D), agreement; see `C08_loop_agree2`. -/
theorem C08_loop_agree3 (k nx ny nz : Nat) (Active : Coord3 → Prop) (m : MRMap Coord3) (lvl : Coord3 → Int)
    (hx : (nx : Int) * (2 ^ k : Nat) ≤ i32Max) (hy : (ny : Int) * (2 ^ k : Nat) ≤ i32Max)
    (hz : (nz : Int) * (2 ^ k : Nat) ≤ i32Max)
    (hm : MapFor3 (2 ^ k) nx ny nz Active m.bm)
    (hl : LevelsFor (GridTile3 (2 ^ k) (nx * (2 ^ k : Nat)) (ny * (2 ^ k : Nat)) (nz * (2 ^ k : Nat)))
      Active m lvl)
    (qs : List (MQuery Coord3)) (hqs : ∀ q ∈ qs, IsI32Coord3 q.coord) (s : MIdxState Coord3)
    (hrun : (mgeo3 (2 ^ k)).run m (mgeo3 (2 ^ k)).fresh qs = .ok s)
    (mip : Nat) (hmk : mip ≤ k) (hmip : mip < m.maxStore) (i : Nat) (hi : i < m.bm.activeTiles.length)
    (b : Int) (hb0 : 0 ≤ b) (hb1 : b < (((2 ^ k) ^ 3 / (2 ^ mip) ^ 3 : Nat) : Int)) :
    ∃ c s', mipLoopCoord3 (2 ^ k) m.bm mip i b = .ok c ∧
      InTile3 (2 ^ k) (decodeMorton3 m.bm.activeTiles[i]) c ∧
      (mgeo3 (2 ^ k)).idx m s mip c = .ok (mipLoopIdx (2 ^ k) 3 m.off mip i b, s') := by
  obtain ⟨g1, g2, g3⟩ := hm.numbering.listed i hi
  set t := decodeMorton3 m.bm.activeTiles[i] with ht
  have hw : ((2 ^ k) >>> mip : Nat) = 2 ^ (k - mip) := by
    rw [Nat.shiftRight_eq_div_pow, Nat.pow_div hmk (by omega)]
  have hwB : ((2 ^ (k - mip) : Nat) : Int) * (2 ^ mip : Nat) = (2 ^ k : Nat) := by
    rw [← Nat.cast_mul, ← pow_add, Nat.sub_add_cancel hmk]
  rw [cells_level k 3 mip (by omega), hw, show (2 ^ (k - mip)) ^ 3 = 2 ^ (k - mip) * 2 ^ (k - mip) * 2 ^ (k - mip)
    by ring, Nat.cast_mul, Nat.cast_mul] at hb1
  have hpw : 0 < 2 ^ (k - mip) := Nat.two_pow_pos _
  obtain ⟨⟨a1, a2⟩, ⟨a3, a4⟩, ⟨a6, a7⟩, a5⟩ := tileInner3 (2 ^ (k - mip)) hpw b hb0 hb1
  have hp : (0 : Int) < (2 ^ mip : Nat) := by exact_mod_cast Nat.two_pow_pos mip
  simp only [tileInnerOffset3] at a1 a2 a3 a4 a5 a6 a7
  set oz := b.tdiv (((2 ^ (k - mip) : Nat) : Int) * (2 ^ (k - mip) : Nat)) with hoz
  set oy := (b - oz * (((2 ^ (k - mip) : Nat) : Int) * (2 ^ (k - mip) : Nat))).tdiv ((2 ^ (k - mip) : Nat) : Int)
    with hoy
  set ox := b - (oz * (((2 ^ (k - mip) : Nat) : Int) * (2 ^ (k - mip) : Nat)) + oy * ((2 ^ (k - mip) : Nat) : Int))
    with hox
  have hpc : (2 : Int) ^ mip = ((2 ^ mip : Nat) : Int) := by push_cast; rfl
  have hcoord : mipLoopCoord3 (2 ^ k) m.bm mip i b =
      .ok { x := t.x * (2 ^ k : Nat) + ox * (2 ^ mip : Nat), y := t.y * (2 ^ k : Nat) + oy * (2 ^ mip : Nat), z := t.z * (2 ^ k : Nat) + oz * (2 ^ mip : Nat) } := by
    unfold mipLoopCoord3
    rw [List.getElem?_eq_getElem hi]
    simp only [mipTileInner3, hw, hpc, ← hoz, ← hoy, ← hox, ← ht]
  have rng : ∀ v : Int, 0 ≤ v → v < ((2 ^ (k - mip) : Nat) : Int) →
      0 ≤ v * (2 ^ mip : Nat) ∧ v * (2 ^ mip : Nat) < (2 ^ k : Nat) := by
    intro v h1 h2
    refine ⟨mul_nonneg h1 hp.le, ?_⟩
    rw [← hwB]; exact mul_lt_mul_of_pos_right h2 hp
  have rx := rng ox a1 a2
  have ry := rng oy a3 a4
  have rz := rng oz a6 a7
  have hin : InTile3 (2 ^ k) t
      { x := t.x * (2 ^ k : Nat) + ox * (2 ^ mip : Nat), y := t.y * (2 ^ k : Nat) + oy * (2 ^ mip : Nat), z := t.z * (2 ^ k : Nat) + oz * (2 ^ mip : Nat) } := by
    unfold InTile3; simp only [add_mul, one_mul]; omega
  obtain ⟨s', hs'⟩ := (C07_idx3 k nx ny nz Active m lvl hx hy hz hm hl qs hqs s hrun _ t g1 hin mip hmip).1 g2
  refine ⟨_, s', hcoord, hin, ?_⟩
  rw [hs']
  congr 2
  simp only
  rw [show ∀ u v : Int, u + v - u = v by intros; ring, show ∀ u v : Int, u + v - u = v by intros; ring,
    show ∀ u v : Int, u + v - u = v by intros; ring,
    Int.mul_ediv_cancel _ (ne_of_gt hp), Int.mul_ediv_cancel _ (ne_of_gt hp), Int.mul_ediv_cancel _ (ne_of_gt hp)]
  unfold mipLoopIdx mipBase
  rw [g3, ← Nat.shiftRight_eq_div_pow, hw, a5]; push_cast; rfl

/-- Level of a cell: that of its tile, -1 outside the grid. -/
def CellLevel2 (B nx nz : Nat) (lvl : Coord2 → Int) (c : Coord2) (v : Int) : Prop :=
  (∃ t, GridTile2 B (nx * B) (nz * B) t ∧ InTile2 B t c ∧ v = lvl t) ∨
  ((∀ t, GridTile2 B (nx * B) (nz * B) t → ¬ InTile2 B t c) ∧ v = -1)

/-- Level of a cell: that of its tile, -1 outside the grid. -/
def CellLevel3 (B nx ny nz : Nat) (lvl : Coord3 → Int) (c : Coord3) (v : Int) : Prop :=
  (∃ t, GridTile3 B (nx * B) (ny * B) (nz * B) t ∧ InTile3 B t c ∧ v = lvl t) ∨
  ((∀ t, GridTile3 B (nx * B) (ny * B) (nz * B) t → ¬ InTile3 B t c) ∧ v = -1)

/-- C07 (2D), levels: if every earlier `idx` call used the level of its tile clamped to `M` (as the ray
marcher does; take `M` large for the unclamped case), then `get_sample_level(c)` clamped to `M` is the
clamped level of the cell's tile, -1 for empty tiles and outside the grid. -/
theorem C07_level2 (k nx nz : Nat) (Active : Coord2 → Prop) (m : MRMap Coord2) (lvl : Coord2 → Int)
    (hx : (nx : Int) * (2 ^ k : Nat) ≤ i32Max) (hz : (nz : Int) * (2 ^ k : Nat) ≤ i32Max)
    (hm : MapFor2 (2 ^ k) nx nz Active m.bm)
    (hl : LevelsFor (GridTile2 (2 ^ k) (nx * (2 ^ k : Nat)) (nz * (2 ^ k : Nat))) Active m lvl)
    (M : Int) (hM : 0 ≤ M) (qs : List (MQuery Coord2)) (hqs : ∀ q ∈ qs, IsI32Coord2 q.coord)
    (hdisc : ∀ mip c t, MQuery.idx mip c ∈ qs →
      GridTile2 (2 ^ k) (nx * (2 ^ k : Nat)) (nz * (2 ^ k : Nat)) t → InTile2 (2 ^ k) t c →
      (mip : Int) = min (lvl t) M)
    (s : MIdxState Coord2) (hrun : (mgeo2 (2 ^ k)).run m (mgeo2 (2 ^ k)).fresh qs = .ok s)
    (c : Coord2) (hc : IsI32Coord2 c) :
    ∃ v w s', (mgeo2 (2 ^ k)).sampleLevel m s c = .ok (v, s') ∧ CellLevel2 (2 ^ k) nx nz lvl c w ∧
      min v M = min w M := by
  have hB : 0 < 2 ^ k := Nat.two_pow_pos k
  have hok := ok2 k nx nz Active m lvl hm hl
  have hg := fun t => grid2_iff (2 ^ k) nx nz hB t
  have hbox : ∀ c, IsI32Coord2 c → ((mgeo2 (2 ^ k)).outside m.bm.bboxMax c = false ↔
      (mgeo2 (2 ^ k)).inDims m.bm.dims ((mgeo2 (2 ^ k)).tileOf c) = true) := by
    intro c hc; rw [hm.bbox, hm.dims]; exact geo2_box k nx nz hx hz _ hc
  obtain ⟨hinv, hlev⟩ := (mgeo2 (2 ^ k)).run_level m lvl hok M hM qs _ s (fun q hq => hbox _ (hqs q hq))
    (by
      intro mip c hq hin
      rw [hm.dims] at hin
      exact hdisc mip c _ hq ((hg _).2 hin) ((tileOf2_iff k c _).1 rfl))
    ((mgeo2 (2 ^ k)).inv_fresh m) (Or.inl rfl) hrun
  have hout : (mgeo2 (2 ^ k)).inDims m.bm.dims ((mgeo2 (2 ^ k)).tileOf c) = false →
      CellLevel2 (2 ^ k) nx nz lvl c (-1) := by
    intro h
    refine Or.inr ⟨fun t ht hct => ?_, rfl⟩
    have e : (mgeo2 (2 ^ k)).tileOf c = t := (tileOf2_iff k c t).2 hct
    have h1 : (mgeo2 (2 ^ k)).inDims m.bm.dims t = true := by rw [hm.dims]; exact (hg t).1 ht
    rw [e, h1] at h; cases h
  have hinn : (mgeo2 (2 ^ k)).inDims m.bm.dims ((mgeo2 (2 ^ k)).tileOf c) = true →
      CellLevel2 (2 ^ k) nx nz lvl c (lvl ((mgeo2 (2 ^ k)).tileOf c)) := by
    intro h
    rw [hm.dims] at h
    exact Or.inl ⟨_, (hg _).2 h, (tileOf2_iff k c _).1 rfl, rfl⟩
  obtain ⟨v, s', e1, _, e3⟩ := (mgeo2 (2 ^ k)).level_cases m lvl hok s hinv c (hbox c hc)
  rcases e3 with ⟨_, ⟨h1, h2⟩ | ⟨h1, h2⟩⟩ | ⟨_, _, h3, h4⟩
  · rcases hlev with hk | hk
    · rw [h1] at hk
      have hf : (mgeo2 (2 ^ k)).inDims m.bm.dims ((mgeo2 (2 ^ k)).tileOf c) = false := by
        rw [hk]; exact hok.dflt
      refine ⟨v, -1, s', e1, hout hf, ?_⟩
      rcases hinv with ⟨h5, _⟩ | ⟨h5, _⟩
      · rw [h2, h5]
      · rw [h1, hf] at h5; cases h5
    · rw [h1] at hk
      rcases hinv with ⟨h5, h6⟩ | ⟨h5, _⟩
      · have hf : (mgeo2 (2 ^ k)).inDims m.bm.dims ((mgeo2 (2 ^ k)).tileOf c) = false := by
          rw [← h1, h6]; exact hok.dflt
        exact ⟨v, -1, s', e1, hout hf, by rw [h2, h5]⟩
      · rw [h1] at h5
        exact ⟨v, _, s', e1, hinn h5, by rw [h2]; exact hk⟩
  · rcases h2 with h2 | h2
    · exact ⟨v, -1, s', e1, hout h2, by rw [h1]⟩
    · cases hin : (mgeo2 (2 ^ k)).inDims m.bm.dims ((mgeo2 (2 ^ k)).tileOf c) with
      | false => exact ⟨v, -1, s', e1, hout hin, by rw [h1]⟩
      | true => exact ⟨v, _, s', e1, hinn hin, by rw [h1, h2]⟩
  · exact ⟨v, _, s', e1, hinn h4, by rw [h3]⟩

/-- C07 (3D), levels; see `C07_level2`. -/
theorem C07_level3 (k nx ny nz : Nat) (Active : Coord3 → Prop) (m : MRMap Coord3) (lvl : Coord3 → Int)
    (hx : (nx : Int) * (2 ^ k : Nat) ≤ i32Max) (hy : (ny : Int) * (2 ^ k : Nat) ≤ i32Max)
    (hz : (nz : Int) * (2 ^ k : Nat) ≤ i32Max)
    (hm : MapFor3 (2 ^ k) nx ny nz Active m.bm)
    (hl : LevelsFor (GridTile3 (2 ^ k) (nx * (2 ^ k : Nat)) (ny * (2 ^ k : Nat)) (nz * (2 ^ k : Nat)))
      Active m lvl)
    (M : Int) (hM : 0 ≤ M) (qs : List (MQuery Coord3)) (hqs : ∀ q ∈ qs, IsI32Coord3 q.coord)
    (hdisc : ∀ mip c t, MQuery.idx mip c ∈ qs →
      GridTile3 (2 ^ k) (nx * (2 ^ k : Nat)) (ny * (2 ^ k : Nat)) (nz * (2 ^ k : Nat)) t →
      InTile3 (2 ^ k) t c → (mip : Int) = min (lvl t) M)
    (s : MIdxState Coord3) (hrun : (mgeo3 (2 ^ k)).run m (mgeo3 (2 ^ k)).fresh qs = .ok s)
    (c : Coord3) (hc : IsI32Coord3 c) :
    ∃ v w s', (mgeo3 (2 ^ k)).sampleLevel m s c = .ok (v, s') ∧ CellLevel3 (2 ^ k) nx ny nz lvl c w ∧
      min v M = min w M := by
  have hB : 0 < 2 ^ k := Nat.two_pow_pos k
  have hok := ok3 k nx ny nz Active m lvl hm hl
  have hg := fun t => grid3_iff (2 ^ k) nx ny nz hB t
  have hbox : ∀ c, IsI32Coord3 c → ((mgeo3 (2 ^ k)).outside m.bm.bboxMax c = false ↔
      (mgeo3 (2 ^ k)).inDims m.bm.dims ((mgeo3 (2 ^ k)).tileOf c) = true) := by
    intro c hc; rw [hm.bbox, hm.dims]; exact geo3_box k nx ny nz hx hy hz _ hc
  obtain ⟨hinv, hlev⟩ := (mgeo3 (2 ^ k)).run_level m lvl hok M hM qs _ s (fun q hq => hbox _ (hqs q hq))
    (by
      intro mip c hq hin
      rw [hm.dims] at hin
      exact hdisc mip c _ hq ((hg _).2 hin) ((tileOf3_iff k c _).1 rfl))
    ((mgeo3 (2 ^ k)).inv_fresh m) (Or.inl rfl) hrun
  have hout : (mgeo3 (2 ^ k)).inDims m.bm.dims ((mgeo3 (2 ^ k)).tileOf c) = false →
      CellLevel3 (2 ^ k) nx ny nz lvl c (-1) := by
    intro h
    refine Or.inr ⟨fun t ht hct => ?_, rfl⟩
    have e : (mgeo3 (2 ^ k)).tileOf c = t := (tileOf3_iff k c t).2 hct
    have h1 : (mgeo3 (2 ^ k)).inDims m.bm.dims t = true := by rw [hm.dims]; exact (hg t).1 ht
    rw [e, h1] at h; cases h
  have hinn : (mgeo3 (2 ^ k)).inDims m.bm.dims ((mgeo3 (2 ^ k)).tileOf c) = true →
      CellLevel3 (2 ^ k) nx ny nz lvl c (lvl ((mgeo3 (2 ^ k)).tileOf c)) := by
    intro h
    rw [hm.dims] at h
    exact Or.inl ⟨_, (hg _).2 h, (tileOf3_iff k c _).1 rfl, rfl⟩
  obtain ⟨v, s', e1, _, e3⟩ := (mgeo3 (2 ^ k)).level_cases m lvl hok s hinv c (hbox c hc)
  rcases e3 with ⟨_, ⟨h1, h2⟩ | ⟨h1, h2⟩⟩ | ⟨_, _, h3, h4⟩
  · rcases hlev with hk | hk
    · rw [h1] at hk
      have hf : (mgeo3 (2 ^ k)).inDims m.bm.dims ((mgeo3 (2 ^ k)).tileOf c) = false := by
        rw [hk]; exact hok.dflt
      refine ⟨v, -1, s', e1, hout hf, ?_⟩
      rcases hinv with ⟨h5, _⟩ | ⟨h5, _⟩
      · rw [h2, h5]
      · rw [h1, hf] at h5; cases h5
    · rw [h1] at hk
      rcases hinv with ⟨h5, h6⟩ | ⟨h5, _⟩
      · have hf : (mgeo3 (2 ^ k)).inDims m.bm.dims ((mgeo3 (2 ^ k)).tileOf c) = false := by
          rw [← h1, h6]; exact hok.dflt
        exact ⟨v, -1, s', e1, hout hf, by rw [h2, h5]⟩
      · rw [h1] at h5
        exact ⟨v, _, s', e1, hinn h5, by rw [h2]; exact hk⟩
  · rcases h2 with h2 | h2
    · exact ⟨v, -1, s', e1, hout h2, by rw [h1]⟩
    · cases hin : (mgeo3 (2 ^ k)).inDims m.bm.dims ((mgeo3 (2 ^ k)).tileOf c) with
      | false => exact ⟨v, -1, s', e1, hout hin, by rw [h1]⟩
      | true => exact ⟨v, _, s', e1, hinn hin, by rw [h1, h2]⟩
  · exact ⟨v, _, s', e1, hinn h4, by rw [h3]⟩

/-- A concrete 2x2-tile map (side 2) with levels 1 on tile (0,0) and 0 on tile (1,0), used below. -/
def exampleMRMap : MRMap Coord2 where
  bm := { dims := ⟨2, 2⟩, numActive := 2, bboxMax := ⟨4, 4⟩,
          lookup := fun c => if c = ⟨0, 0⟩ then 0 else if c = ⟨1, 0⟩ then 1 else -1,
          mortonOrder := [0#32, 1#32, 2#32, 3#32], activeTiles := [0#32, 1#32] }
  off := fun i => if i = 1 then 8 else 0
  maxStore := 7
  get := fun c => .ok (if c = ⟨0, 0⟩ then 2 else if c = ⟨1, 0⟩ then 1 else 0)

/-- The discipline in `C07_level2` is needed: after `idx(0, c)` in a tile whose level is 1, the
generator reports level 0 for that tile. -/
theorem C07_level_needs_discipline :
    (((mgeo2 2).run exampleMRMap (mgeo2 2).fresh [.idx 0 ⟨0, 0⟩]).bind fun s =>
      (mgeo2 2).sampleLevel exampleMRMap s ⟨0, 0⟩).bind (fun p => .ok p.1) = .ok 0 ∧
    ((mgeo2 2).sampleLevel exampleMRMap (mgeo2 2).fresh ⟨0, 0⟩).bind (fun p => .ok p.1) = .ok 1 := by
  decide +kernel

/-- Non-vacuity of C07: the example map satisfies the hypotheses, and a mixed disciplined history runs. -/
example : LevelsFor (GridTile2 (2 ^ 1) (2 * (2 ^ 1 : Nat)) (2 * (2 ^ 1 : Nat)))
    (fun c => c = ⟨0, 0⟩ ∨ c = ⟨1, 0⟩) exampleMRMap
    (fun c => if c = ⟨0, 0⟩ then 1 else if c = ⟨1, 0⟩ then 0 else -1) := by
  refine ⟨fun t _ => ?_, fun t _ => ?_, fun t _ h => ?_⟩
  · by_cases h1 : t = ⟨0, 0⟩
    · simp [exampleMRMap, h1]
    · by_cases h2 : t = ⟨1, 0⟩
      · simp [exampleMRMap, h2]
      · simp [exampleMRMap, h1, h2]
  · show _ ∧ _ < (7 : Int)
    split
    · omega
    · split <;> omega
  · by_cases h1 : t = ⟨0, 0⟩
    · exact Or.inl h1
    · by_cases h2 : t = ⟨1, 0⟩
      · exact Or.inr h2
      · simp [h1, h2] at h
example : ((mgeo2 2).run exampleMRMap (mgeo2 2).fresh
    [.level ⟨-1, -1⟩, .level ⟨1, 1⟩, .idx 1 ⟨1, 0⟩, .level ⟨3, 0⟩, .idx 0 ⟨3, 1⟩, .level ⟨0, 3⟩]).bind
    (fun s => .ok (s.mip, s.key, s.base)) = .ok (0, ⟨1, 0⟩, 4) := by decide +kernel

end DexRT
