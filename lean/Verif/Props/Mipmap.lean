import Verif.Lemmas.Mipmap
import Verif.Lemmas.MipLevel
import Mathlib.Algebra.Order.Field.Basic
import Mathlib.Algebra.Order.BigOperators.Group.Finset
import Mathlib.Algebra.CharZero.Defs
import Mathlib.Algebra.BigOperators.Field
import Mathlib.Tactic.FieldSimp
import Mathlib.Tactic.Positivity
import Mathlib.Tactic.NormNum
/-!
C34 and C35: mip averaging and the choice of a tile's level.
-/
namespace DexRT

/-! ## C34 -/

section
variable {F : Type} [Field F] [CharZero F]

/-- C34 (2D: emissivity, opacity, velocities and line data). For every map, field, number of levels and
order of the kernels' iterations (repeats allowed: the velocity kernel runs once per wavelength), the
chain never leaves its arrays, and afterwards looking a data cell up at level `l` gives the mean of the
field over the aligned `2^l` by `2^l` block containing it; level 0 still holds the field. -/
theorem C34_mean2_partial {E k nx nz : Nat} {Active : Coord2 → Prop} {mr : MRMap Coord2} {maxMip : Nat}
    (h : MipMap2 E k nx nz Active mr maxMip) (sched : Nat → List (Nat × Int))
    (hs : ∀ l < maxMip, ∀ p, p ∈ sched l ↔ p ∈ mipIters (2 ^ k) 2 (l + 1) mr.bm) (m0 : Int → F)
    (field : Coord2 → F) (h0 : StoredAt2 (2 ^ k) nx nz Active mr 0 m0 field) :
    ∃ m, mipChain2 (2 ^ k) mr (mipBufferLen (2 ^ k) 2 mr.bm.numActive mr.off maxMip) mipScale2 sched maxMip m0
        = .ok m ∧
      ∀ l ≤ maxMip, StoredAt2 (2 ^ k) nx nz Active mr l m (blockMean2 field l) := by
  obtain ⟨m, e, _, hval⟩ := h.chain mipScale2 sched m0 maxMip (le_refl _) hs
  refine ⟨m, e, fun l hl => ?_⟩
  have := lift2 h m0 m mipScale2 maxMip (le_refl _) field h0 hval l hl
  intro c hc
  obtain ⟨a, s, e1, e2⟩ := this c hc
  refine ⟨a, s, e1, ?_⟩
  rw [e2]
  unfold blockMean2 mipScale2
  rw [← mul_pow, show (2 : F) * 2 = 4 by norm_num, one_div, inv_pow, div_eq_mul_inv, mul_comm]

/-- C34 (3D: velocities and line data), as `C34_mean2_partial`. -/
theorem C34_mean3_vel {E k nx ny nz : Nat} {Active : Coord3 → Prop} {mr : MRMap Coord3} {maxMip : Nat}
    (h : MipMap3 E k nx ny nz Active mr maxMip) (sched : Nat → List (Nat × Int))
    (hs : ∀ l < maxMip, ∀ p, p ∈ sched l ↔ p ∈ mipIters (2 ^ k) 3 (l + 1) mr.bm) (m0 : Int → F)
    (field : Coord3 → F) (h0 : StoredAt3 (2 ^ k) nx ny nz Active mr 0 m0 field) :
    ∃ m, mipChain3 (2 ^ k) mr (mipBufferLen (2 ^ k) 3 mr.bm.numActive mr.off maxMip) mipScale3Vel sched maxMip m0
        = .ok m ∧
      ∀ l ≤ maxMip, StoredAt3 (2 ^ k) nx ny nz Active mr l m (blockMean3 field l) := by
  obtain ⟨m, e, _, hval⟩ := h.chain mipScale3Vel sched m0 maxMip (le_refl _) hs
  refine ⟨m, e, fun l hl => ?_⟩
  have := lift3 h m0 m mipScale3Vel maxMip (le_refl _) field h0 hval l hl
  intro c hc
  obtain ⟨a, s, e1, e2⟩ := this c hc
  refine ⟨a, s, e1, ?_⟩
  rw [e2]
  unfold blockMean3 mipScale3Vel
  rw [← mul_pow, ← mul_pow, show (2 : F) * 2 * 2 = 8 by norm_num, one_div, inv_pow, div_eq_mul_inv, mul_comm]

/-- C34 is false of the 3D emissivity and opacity: after the chain a data cell looked up at level `l`
gives `2 ^ l` times the mean over its block (the sum of 8 sub-cells is multiplied by 0.25). -/
theorem C34_emis3_refuted {E k nx ny nz : Nat} {Active : Coord3 → Prop} {mr : MRMap Coord3} {maxMip : Nat}
    (h : MipMap3 E k nx ny nz Active mr maxMip) (sched : Nat → List (Nat × Int))
    (hs : ∀ l < maxMip, ∀ p, p ∈ sched l ↔ p ∈ mipIters (2 ^ k) 3 (l + 1) mr.bm) (m0 : Int → F)
    (field : Coord3 → F) (h0 : StoredAt3 (2 ^ k) nx ny nz Active mr 0 m0 field) :
    ∃ m, mipChain3 (2 ^ k) mr (mipBufferLen (2 ^ k) 3 mr.bm.numActive mr.off maxMip) mipScale3Emis sched maxMip m0
        = .ok m ∧
      ∀ l ≤ maxMip, StoredAt3 (2 ^ k) nx ny nz Active mr l m (fun c => 2 ^ l * blockMean3 field l c) := by
  obtain ⟨m, e, _, hval⟩ := h.chain mipScale3Emis sched m0 maxMip (le_refl _) hs
  refine ⟨m, e, fun l hl => ?_⟩
  have := lift3 h m0 m mipScale3Emis maxMip (le_refl _) field h0 hval l hl
  intro c hc
  obtain ⟨a, s, e1, e2⟩ := this c hc
  refine ⟨a, s, e1, ?_⟩
  rw [e2]
  unfold blockMean3 mipScale3Emis
  have h2 : (2 : F) ^ l ≠ 0 := pow_ne_zero _ two_ne_zero
  rw [one_div, inv_pow, show (4 : F) = 2 * 2 by norm_num, mul_pow]
  field_simp

/-- C34: block means keep the total over every tile (2D). -/
theorem C34_total2 (k l : Nat) (hl : l ≤ k) (field : Coord2 → F) (t : Coord2) :
    tileTotal2 (2 ^ k) (blockMean2 field l) t = tileTotal2 (2 ^ k) field t := by
  have h2 : (2 : F) ^ l ≠ 0 := pow_ne_zero _ two_ne_zero
  have := total2 k l hl field t
  have e : tileTotal2 (2 ^ k) (blockMean2 field l) t = tileTotal2 (2 ^ k) (blockSum2 field l) t / (2 ^ l * 2 ^ l) := by
    unfold tileTotal2 blockMean2
    rw [Finset.sum_div]
    exact Finset.sum_congr rfl fun a _ => (Finset.sum_div _ _ _).symm
  rw [e, this]; field_simp

/-- C34: block means keep the total over every tile (3D). -/
theorem C34_total3 (k l : Nat) (hl : l ≤ k) (field : Coord3 → F) (t : Coord3) :
    tileTotal3 (2 ^ k) (blockMean3 field l) t = tileTotal3 (2 ^ k) field t := by
  have h2 : (2 : F) ^ l ≠ 0 := pow_ne_zero _ two_ne_zero
  have := total3 k l hl field t
  have e : tileTotal3 (2 ^ k) (blockMean3 field l) t =
      tileTotal3 (2 ^ k) (blockSum3 field l) t / (2 ^ l * 2 ^ l * 2 ^ l) := by
    unfold tileTotal3 blockMean3
    rw [Finset.sum_div]
    refine Finset.sum_congr rfl fun a _ => ?_
    rw [Finset.sum_div]
    exact Finset.sum_congr rfl fun b _ => (Finset.sum_div _ _ _).symm
  rw [e, this]; field_simp

/-- C34: the mean of a constant field is that constant (2D and 3D), so `C34_mean2_partial` and `C34_mean3_vel`
reproduce it at every level. -/
theorem C34_const (v : F) (l : Nat) :
    (∀ c, blockMean2 (fun _ => v) l c = v) ∧ (∀ c, blockMean3 (fun _ => v) l c = v) := by
  have h2 : (2 : F) ^ l ≠ 0 := pow_ne_zero _ two_ne_zero
  constructor
  · intro c
    unfold blockMean2 blockSum2
    simp only [Finset.sum_const, Finset.card_range, nsmul_eq_mul, Nat.cast_pow, Nat.cast_ofNat]
    field_simp
  · intro c
    unfold blockMean3 blockSum3
    simp only [Finset.sum_const, Finset.card_range, nsmul_eq_mul, Nat.cast_pow, Nat.cast_ofNat]
    field_simp

/-- The 3D emissivity of a uniform medium is doubled at every level: a constant `v` becomes `2 ^ l * v`,
so level `l ≥ 1` never shows a non-zero constant. -/
theorem C34_emis3_const_refuted {E k nx ny nz : Nat} {Active : Coord3 → Prop} {mr : MRMap Coord3} {maxMip : Nat}
    (h : MipMap3 E k nx ny nz Active mr maxMip) (sched : Nat → List (Nat × Int))
    (hs : ∀ l < maxMip, ∀ p, p ∈ sched l ↔ p ∈ mipIters (2 ^ k) 3 (l + 1) mr.bm) (m0 : Int → F) (v : F)
    (hv : v ≠ 0) (h0 : StoredAt3 (2 ^ k) nx ny nz Active mr 0 m0 (fun _ => v)) :
    ∃ m, mipChain3 (2 ^ k) mr (mipBufferLen (2 ^ k) 3 mr.bm.numActive mr.off maxMip) mipScale3Emis sched maxMip m0
        = .ok m ∧
      ∀ l ≤ maxMip, 1 ≤ l → ∀ c, HasData3 (2 ^ k) nx ny nz Active c →
        ∃ a s, (mgeo3 (2 ^ k)).idx mr (mgeo3 (2 ^ k)).fresh l c = .ok (a, s) ∧ m a = 2 ^ l * v ∧ m a ≠ v := by
  obtain ⟨m, e, hm⟩ := C34_emis3_refuted h sched hs m0 (fun _ => v) h0
  refine ⟨m, e, fun l hl hl1 c hc => ?_⟩
  obtain ⟨a, s, e1, e2⟩ := hm l hl c hc
  simp only at e2
  rw [(C34_const v l).2] at e2
  refine ⟨a, s, e1, e2, ?_⟩
  rw [e2]
  intro hcon
  have h1 : (2 : F) ^ l = 1 := by
    have : (2 : F) ^ l * v = 1 * v := by rw [hcon, one_mul]
    exact mul_right_cancel₀ hv this
  have h3 : ((2 ^ l : Nat) : F) = ((1 : Nat) : F) := by push_cast; exact h1
  have h4 := Nat.cast_injective h3
  have : 1 < 2 ^ l := Nat.one_lt_two_pow (by omega)
  omega

end

/-- C34: a mean lies between any bounds on the cells of the block (so opacities stay non-negative). -/
theorem C34_bounds {F : Type} [Field F] [LinearOrder F] [IsStrictOrderedRing F] (lo hi : F) (l : Nat) :
    (∀ (field : Coord2 → F) c, (∀ a < 2 ^ l, ∀ b < 2 ^ l,
        lo ≤ field { x := c.x - c.x % (2 ^ l : Nat) + (b : Nat), z := c.z - c.z % (2 ^ l : Nat) + (a : Nat) } ∧
        field { x := c.x - c.x % (2 ^ l : Nat) + (b : Nat), z := c.z - c.z % (2 ^ l : Nat) + (a : Nat) } ≤ hi) →
      lo ≤ blockMean2 field l c ∧ blockMean2 field l c ≤ hi) ∧
    (∀ (field : Coord3 → F) c, (∀ a < 2 ^ l, ∀ b < 2 ^ l, ∀ d < 2 ^ l,
        lo ≤ field { x := c.x - c.x % (2 ^ l : Nat) + (d : Nat), y := c.y - c.y % (2 ^ l : Nat) + (b : Nat),
                     z := c.z - c.z % (2 ^ l : Nat) + (a : Nat) } ∧
        field { x := c.x - c.x % (2 ^ l : Nat) + (d : Nat), y := c.y - c.y % (2 ^ l : Nat) + (b : Nat),
                z := c.z - c.z % (2 ^ l : Nat) + (a : Nat) } ≤ hi) →
      lo ≤ blockMean3 field l c ∧ blockMean3 field l c ≤ hi) := by
  have h2 : (0 : F) < 2 ^ l := by positivity
  constructor
  · intro field c h
    have h0 := (C34_const (F := F) lo l).1 c
    have h1 := (C34_const (F := F) hi l).1 c
    constructor
    · rw [← h0]
      refine div_le_div_of_nonneg_right ?_ (by positivity)
      exact Finset.sum_le_sum fun a ha => Finset.sum_le_sum fun b hb =>
        (h a (Finset.mem_range.1 ha) b (Finset.mem_range.1 hb)).1
    · rw [← h1]
      refine div_le_div_of_nonneg_right ?_ (by positivity)
      exact Finset.sum_le_sum fun a ha => Finset.sum_le_sum fun b hb =>
        (h a (Finset.mem_range.1 ha) b (Finset.mem_range.1 hb)).2
  · intro field c h
    have h0 := (C34_const (F := F) lo l).2 c
    have h1 := (C34_const (F := F) hi l).2 c
    constructor
    · rw [← h0]
      refine div_le_div_of_nonneg_right ?_ (by positivity)
      exact Finset.sum_le_sum fun a ha => Finset.sum_le_sum fun b hb => Finset.sum_le_sum fun d hd =>
        (h a (Finset.mem_range.1 ha) b (Finset.mem_range.1 hb) d (Finset.mem_range.1 hd)).1
    · rw [← h1]
      refine div_le_div_of_nonneg_right ?_ (by positivity)
      exact Finset.sum_le_sum fun a ha => Finset.sum_le_sum fun b hb => Finset.sum_le_sum fun d hd =>
        (h a (Finset.mem_range.1 ha) b (Finset.mem_range.1 hb) d (Finset.mem_range.1 hd)).2

/-- Example map for non-vacuity: one active 2x2x2 tile, one mip level. -/
def exampleMip3 : MRMap Coord3 where
  bm := { dims := ⟨1, 1, 1⟩, numActive := 1, bboxMax := ⟨2, 2, 2⟩,
          lookup := fun c => if c = ⟨0, 0, 0⟩ then 0 else -1,
          mortonOrder := [0#32], activeTiles := [0#32] }
  off := fun i => if i = 1 then 8 else 0
  maxStore := 7
  get := fun _ => .ok 1

theorem exampleMip3_ok : MipMap3 3 1 1 1 1 (fun _ => True) exampleMip3 1 := by
  have hd : decodeMorton3 0#32 = ⟨0, 0, 0⟩ := by decide +kernel
  have hz : ∀ c : Coord3, GridTile3 2 2 2 2 c → c = ⟨0, 0, 0⟩ := by
    rintro ⟨x, y, z⟩ ⟨h1, h2, h3, h4, h5, h6⟩
    simp only at h1 h2 h3 h4 h5 h6
    congr 1 <;> omega
  refine ⟨⟨rfl, rfl, ⟨rfl, ?_, ?_, ?_, ?_⟩⟩, by decide, by decide, by decide, ?_, by decide, by decide⟩
  · intro c hc _
    rw [hz c (by simpa using hc)]; decide
  · intro c hc h; exact absurd trivial h
  · intro c c' hc hc' _ _ _
    rw [hz c (by simpa using hc), hz c' (by simpa using hc')]
  · intro i hi
    have : i = 0 := by
      have : i < 1 := hi
      omega
    subst this
    show GridTile3 _ _ _ _ (decodeMorton3 0#32) ∧ _ ∧ exampleMip3.bm.lookup (decodeMorton3 0#32) = _
    rw [hd]
    exact ⟨by unfold GridTile3; decide, trivial, rfl⟩
  · show mipOffsets 3 2 3 1 1 = _
    unfold mipOffsets
    rw [if_neg (by decide)]
    congr 1
    funext j
    rcases j with _ | _ | j
    · rfl
    · rfl
    · simp [fillOffsets, exampleMip3]

/-- Non-vacuity of C34 in 3D and a witness of the factor: eight cells with emissivity 1 give 2. -/
example : ((mipChain3 2 exampleMip3 9 (mipScale3Emis : ℚ) (fun _ => [(0, 0)]) 1 (fun _ => 1)).bind
    fun m => .ok (m 8)) = .ok 2 := by decide +kernel
example : ((mipChain3 2 exampleMip3 9 (mipScale3Vel : ℚ) (fun _ => [(0, 0)]) 1 (fun a => a)).bind
    fun m => .ok (m 8)) = .ok (7 / 2) := by decide +kernel
example : ∀ l < 1, ∀ p, p ∈ (fun _ => [((0 : Nat), (0 : Int))]) l ↔ p ∈ mipIters (2 ^ 1) 3 (l + 1) exampleMip3.bm := by
  intro l hl p
  have : l = 0 := by omega
  subst this
  have e : mipIters (2 ^ 1) 3 (0 + 1) exampleMip3.bm = [(0, 0)] := by decide +kernel
  rw [e]

/-! ## C35 -/

/-- C35: for every block size, wave count, test outcomes and order of iterations, with no more levels
than the block can be halved and than an entry can hold: an inactive tile gets entry 0; an active tile
gets an entry `e` with `1 ≤ e ≤ maxMip + 1`, which fits the packed entry; every test of every level below
`e` passed; and if `e` is not the top, some test of level `e` failed (so the level is the largest
justified one). -/
theorem C35_entry_partial (E k D waves maxMip : Nat) (hD : 0 < D) (hw : 0 < waves) (hk : maxMip ≤ k)
    (hE : maxMip + 1 ≤ 2 ^ E - 1) (passed : Nat → Nat × Nat → Bool) (sched : Nat → List (Nat × Nat))
    (hs : ∀ l, 1 ≤ l → l ≤ maxMip → (sched l).Perm (tileIters (2 ^ k) D waves l)) :
    tileEntry (2 ^ k) D waves false passed sched maxMip = .ok 0 ∧
    ∃ e, tileEntry (2 ^ k) D waves true passed sched maxMip = .ok e ∧ 1 ≤ e ∧ e ≤ maxMip + 1 ∧
      ((e : Int) % 2 ^ E).toNat = e ∧
      (∀ l, 1 ≤ l → l < e → ∀ b w, b < (2 ^ k) ^ D / (2 ^ l) ^ D → w < waves → passed l (b, w) = true) ∧
      (e ≤ maxMip → ∃ b w, b < (2 ^ k) ^ D / (2 ^ e) ^ D ∧ w < waves ∧ passed e (b, w) = false) := by
  refine ⟨rfl, ?_⟩
  have hcnt : ∀ l, 1 ≤ l → l ≤ maxMip → countPassed (passed l) (sched l) =
      (tileIters (2 ^ k) D waves l).countP (passed l) := by
    intro l h1 h2
    rw [countPassed_eq]; exact (hs l h1 h2).countP_eq _
  have hpos : ∀ l, l ≤ maxMip → 0 < mipExpected (2 ^ k) D waves l := by
    intro l hl
    unfold mipExpected
    refine Nat.mul_pos (Nat.pow_pos ?_) hw
    rw [Nat.shiftRight_eq_div_pow]
    exact Nat.div_pos (Nat.pow_le_pow_right (by omega) (by omega)) (Nat.two_pow_pos l)
  obtain ⟨e, he, h1, h2, h3, h4⟩ := levelLoop_spec (mipExpected (2 ^ k) D waves)
    (fun l => countPassed (passed l) (sched l)) maxMip (by
      intro l a b
      refine ⟨hpos l b, ?_⟩
      rw [hcnt l a b, ← tileIters_length k D waves l hD]
      exact List.countP_le_length)
  refine ⟨e, by unfold tileEntry; simpa using he, h1, h2, ?_, ?_, ?_⟩
  · have hp : (e : Int) < 2 ^ E := by
      have : e < 2 ^ E := by omega
      exact_mod_cast this
    rw [Int.emod_eq_of_lt (by omega) hp]; omega
  · intro l a b bb w hb hw'
    have := h3 l a b
    rw [hcnt l a (by omega), ← tileIters_length k D waves l hD, List.countP_eq_length] at this
    exact this (bb, w) ((mem_tileIters _ _ _ _ _).2 ⟨hb, hw'⟩)
  · intro hem
    have := h4 hem
    rw [hcnt e h1 hem, ← tileIters_length k D waves e hD] at this
    by_contra hcon
    push Not at hcon
    have : (tileIters (2 ^ k) D waves e).countP (passed e) = (tileIters (2 ^ k) D waves e).length := by
      rw [List.countP_eq_length]
      rintro ⟨b, w⟩ hp
      obtain ⟨g1, g2⟩ := (mem_tileIters _ _ _ _ _).1 hp
      have := hcon b w g1 g2
      simpa using this
    omega

/-- C35 needs `maxMip ≤ k`, which nothing checks: with the 3D block size 8 and 3-bit entries, 4 mip
levels are accepted, and a tile that passes every test then divides by zero (`8 >> 4 == 0`). -/
theorem C35_too_deep_refuted :
    (∃ off, mipOffsets 3 8 3 1 4 = .ok off) ∧
    ∀ sched : Nat → List (Nat × Nat), (∀ l, 1 ≤ l → l ≤ 4 → (sched l).Perm (tileIters 8 3 1 l)) →
      tileEntry 8 3 1 true (fun _ _ => true) sched 4 = .ub := by
  refine ⟨⟨_, rfl⟩, fun sched hs => ?_⟩
  have hc : ∀ l, 1 ≤ l → l ≤ 4 → countPassed (fun _ => true) (sched l) = mipExpected 8 3 1 l := by
    intro l a b
    rw [countPassed_eq, (hs l a b).countP_eq, show mipExpected 8 3 1 l = mipExpected (2 ^ 3) 3 1 l from rfl,
      ← tileIters_length 3 3 1 l (by omega)]
    simp
  have e1 := hc 1 (by omega) (by omega)
  have e2 := hc 2 (by omega) (by omega)
  have e3 := hc 3 (by omega) (by omega)
  unfold tileEntry
  simp only [if_true, levelLoop, Outcome.ok_bind, e1, e2, e3]
  rw [show mipExpected 8 3 1 (3 + 1) = 0 by decide, show mipExpected 8 3 1 (0 + 1) = 64 by decide,
    show mipExpected 8 3 1 (1 + 1) = 8 by decide, show mipExpected 8 3 1 (2 + 1) = 1 by decide]
  rfl

/-- C35: a uniform block always passes the test when the moments are normalised by the number of
sub-cells (2D, and the 3D line test): refining it is never forced. -/
theorem C35_uniform_passes (tol : MipTol) (hc : 0 ≤ tol.chiVar) (he : 0 ≤ tol.etaVar) (n : Nat) (hn : 0 < n)
    (eps ds chi eta : ℝ) :
    mipTest tol (1 / n) eps ds (List.replicate n (chi, eta)) = true := by
  have hn' : (n : ℝ) ≠ 0 := by exact_mod_cast hn.ne'
  have disp : ∀ x : ℝ, dispersion x (x ^ 2) = some 0 := by
    intro x
    unfold dispersion
    by_cases hx : x ^ 2 = 0
    · rw [if_pos hx]
    · have hx' : x ≠ 0 := fun h => hx (by rw [h]; ring)
      rw [if_neg hx, if_neg hx', pow_two, mul_div_assoc, div_self hx', mul_one, sub_self, abs_zero]
  unfold mipTest
  simp only [List.map_replicate, List.sum_replicate, nsmul_eq_mul]
  have e : ∀ x : ℝ, 1 / (n : ℝ) * (n * x) = x := by intro x; field_simp
  simp only [e, disp]
  split
  · rw [decide_eq_true_eq, not_or]; exact ⟨not_lt.2 hc, not_lt.2 he⟩
  · rfl

/-- The same is false of the 3D base-array test, which uses 0.25 for 8 sub-cells: a uniform optically
thick block passes only if `|log(chi ds)|` (and `|log(eta ds)|`) is within the tolerance. -/
theorem C35_uniform3_refuted (tol : MipTol) (eps ds chi eta : ℝ) (hthick : chi * ds > tol.opacThreshold)
    (hlog : Real.log ((chi + eps) * ds) ≠ 0) (hbig : tol.chiVar < |Real.log ((chi + eps) * ds)|) :
    mipTest tol (1 / 4) eps ds (List.replicate 8 (chi, eta)) = false := by
  unfold mipTest
  simp only [List.map_replicate, List.sum_replicate, nsmul_eq_mul]
  have hany : (List.replicate 8 (chi, eta)).any (fun q => decide (q.1 * ds > tol.opacThreshold)) = true := by
    rw [List.any_eq_true]
    exact ⟨(chi, eta), by simp, by simpa using hthick⟩
  rw [if_pos hany]
  generalize Real.log ((chi + eps) * ds) = x at *
  have hd : dispersion (1 / 4 * (((8 : Nat) : ℝ) * x)) (1 / 4 * (((8 : Nat) : ℝ) * x ^ 2)) = some |x| := by
    unfold dispersion
    have h1 : (1 / 4 * (((8 : Nat) : ℝ) * x ^ 2)) ≠ 0 := by
      push_cast
      have := pow_ne_zero 2 hlog
      intro h; apply this; linarith
    have h2 : (1 / 4 * (((8 : Nat) : ℝ) * x)) ≠ 0 := by
      push_cast; intro h; apply hlog; linarith
    rw [if_neg h1, if_neg h2]
    congr 1
    have : 1 / 4 * (((8 : Nat) : ℝ) * x ^ 2) / (1 / 4 * (((8 : Nat) : ℝ) * x)) - 1 / 4 * (((8 : Nat) : ℝ) * x) = -x := by
      push_cast; field_simp; ring
    rw [this, abs_neg]
  rw [hd]
  cases dispersion (1 / 4 * (((8 : Nat) : ℝ) * Real.log ((eta + eps) * ds)))
    (1 / 4 * (((8 : Nat) : ℝ) * Real.log ((eta + eps) * ds) ^ 2)) with
  | none => rfl
  | some d =>
    simp only [decide_eq_false_iff_not, not_not]
    exact Or.inl hbig

/-- Non-vacuity of C35: default 2D sizes; a tile that passes level 1 and fails once at level 2. -/
example : (4 : Nat) ≤ 4 ∧ 4 + 1 ≤ 2 ^ 3 - 1 := by decide
example : tileEntry 4 2 2 true (fun l p => decide (l = 1 ∨ p ≠ (0, 1))) (tileIters 4 2 2) 2 = .ok 2 := by
  decide +kernel
example : tileEntry 4 2 2 true (fun _ _ => true) (tileIters 4 2 2) 2 = .ok 3 := by decide +kernel

end DexRT
