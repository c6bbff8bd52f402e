import Verif.Lemmas.Loops
import Mathlib.Data.List.Perm.Basic
/-!
# C10, C11: flattened parallel loops visit every iteration exactly once
-/
namespace DexRT

/-- Specification: `t` is a tuple of loop indices of the rectangular iteration space `bounds`. -/
def InLoop (bounds t : List Int) : Prop :=
  List.Forall₂ (fun b k => 0 ≤ k ∧ k < b) bounds t

/-- Specification: bounds accepted by the loop constructor (positive `i32`s). -/
def LoopBounds (bounds : List Int) : Prop :=
  bounds ≠ [] ∧ ∀ b ∈ bounds, 0 < b ∧ b ≤ 2147483647

private theorem inLoop_iff : ∀ (bs t : List Int), InLoop bs t ↔ Box bs t
  | [], [] => by simp [InLoop, Box]
  | b :: bs, k :: ks => by
    have := inLoop_iff bs ks
    simp only [InLoop, Box, List.forall₂_cons] at this ⊢
    rw [this]; tauto
  | [], _ :: _ => by simp [InLoop, Box]
  | _ :: _, [] => by simp [InLoop, Box]

private theorem unpack_ok {bounds : List Int} (hb : LoopBounds bounds)
    (hprod : bounds.length ≥ 3 → prodZ bounds.tail ≤ i32Max)
    (h2 : ∀ b0 b1, bounds = [b0, b1] → b1 * (b0 - 1) ≤ i32Max)
    {i : Int} (h0 : 0 ≤ i) (h1 : i < numIter bounds) :
    ∃ t, unpack bounds i = .ok t ∧ Box bounds t ∧ radixVal bounds t = i := by
  rw [numIter_eq] at h1
  obtain ⟨hne, hpos⟩ := hb
  match bounds, hne with
  | [b], _ =>
    have := hpos b (by simp)
    simp only [prodZ, mul_one] at h1
    refine ⟨[i], ?_, by simp [Box]; omega, by simp [radixVal, prodZ]⟩
    simp only [unpack]; rw [toI32_id h0 (by simp [i32Max]; omega)]
  | [b0, b1], _ =>
    have hb0 := hpos b0 (by simp)
    have hb1 := hpos b1 (by simp)
    have h2 := h2 b0 b1 rfl
    simp only [prodZ, mul_one] at h1
    have hk0 : 0 ≤ i / b1 := Int.ediv_nonneg h0 (by omega)
    have hk1 : i / b1 < b0 := Int.ediv_lt_of_lt_mul hb1.1 h1
    have hem := Int.mul_ediv_add_emod i b1
    have hm0 := Int.emod_nonneg i (b := b1) (by omega)
    have hm1 := Int.emod_lt_of_pos i hb1.1
    have hle : b1 * (i / b1) ≤ i32Max := by
      refine le_trans ?_ h2
      exact Int.mul_le_mul_of_nonneg_left (by omega) (by omega)
    have hge : 0 ≤ b1 * (i / b1) := Int.mul_nonneg (by omega) hk0
    refine ⟨[i / b1, i - b1 * (i / b1)], ?_, ?_, ?_⟩
    · simp only [unpack]
      rw [Int.tdiv_eq_ediv_of_nonneg h0, toI32_id hk0 (by simp [i32Max]; omega)]
      have hf : fitsI32 (b1 * (i / b1)) = true := by
        rw [fitsI32_iff]; simp only [i32Max] at hle; omega
      simp only [mulI32, hf, if_true, Outcome.ok_bind]
      rw [toI32_id (v := i - b1 * (i / b1)) (by omega) (by simp [i32Max]; omega)]
    · simp [Box]; omega
    · simp [radixVal, prodZ]; rw [mul_comm]; omega
  | b0 :: b1 :: b2 :: bs, _ =>
    have hp := hprod (by simp)
    have hb0 := hpos b0 (by simp)
    obtain ⟨t, ht, hbx, hv⟩ := unpackGo_ok (b1 :: b2 :: bs) b0 i 0
      (fun b hb => by have := hpos b (by simp only [List.mem_cons] at hb ⊢; tauto); simpa [i32Max] using this)
      (by simp [i32Max]; omega) hp (by omega) (by simpa using h1)
    exact ⟨t, by simpa [unpack] using ht, hbx, by simpa using hv⟩

/-- **C10** For bounds accepted by the constructor, whose trailing product (three or more loops) or whose
`bounds[1] * (bounds[0]-1)` (two loops) fits in 32 bits: every flat index in `[0, num_iter)` unpacks,
without overflow, to a tuple of the iteration space, and every tuple of the iteration space is hit by
exactly one flat index. -/
theorem C10_flat_loop (bounds : List Int) (hb : LoopBounds bounds)
    (hprod : bounds.length ≥ 3 → bounds.tail.prod ≤ 2147483647)
    (h2 : ∀ b0 b1, bounds = [b0, b1] → b1 * (b0 - 1) ≤ 2147483647) :
    (∀ i, 0 ≤ i → i < numIter bounds → ∃ t, unpack bounds i = .ok t ∧ InLoop bounds t) ∧
    (∀ t, InLoop bounds t → ∃ i, (0 ≤ i ∧ i < numIter bounds ∧ unpack bounds i = .ok t) ∧
      ∀ j, 0 ≤ j → j < numIter bounds → unpack bounds j = .ok t → j = i) := by
  have hpz : ∀ l : List Int, l.prod = prodZ l := by
    intro l; induction l with
    | nil => simp [prodZ]
    | cons b bs ih => simp [prodZ, ih]
  have hprod' : bounds.length ≥ 3 → prodZ bounds.tail ≤ i32Max := by
    intro h; rw [← hpz]; exact hprod h
  constructor
  · intro i h0 h1
    obtain ⟨t, ht, hbx, _⟩ := unpack_ok hb hprod' h2 h0 h1
    exact ⟨t, ht, (inLoop_iff _ _).2 hbx⟩
  · intro t ht
    have hbx := (inLoop_iff _ _).1 ht
    obtain ⟨r0, r1⟩ := radixVal_range hbx
    rw [← numIter_eq] at r1
    obtain ⟨t', ht', hbx', hv'⟩ := unpack_ok hb hprod' h2 r0 r1
    have := radixVal_inj hbx' hbx hv'
    subst this
    refine ⟨radixVal bounds t', ⟨r0, r1, ht'⟩, ?_⟩
    intro j h0 h1 hj
    obtain ⟨t2, ht2, _, hv2⟩ := unpack_ok hb hprod' h2 h0 h1
    rw [hj] at ht2
    cases ht2
    exact hv2.symm

/-- **C10** The number of flat iterations is the product of the bounds. -/
theorem C10_num_iter (bounds : List Int) : numIter bounds = bounds.prod := by
  rw [numIter_eq]
  induction bounds with
  | nil => simp [prodZ]
  | cons b bs ih => simp [prodZ, ih]

/-- **C10** The condition for two loops is sharp: although `num_iter` is 64-bit, as soon as
`bounds[1] * (bounds[0]-1)` exceeds 32 bits some iteration of the loop overflows (undefined behaviour). -/
theorem C10_two_loops_overflow (b0 b1 : Int) (hb : LoopBounds [b0, b1])
    (h : 2147483647 < b1 * (b0 - 1)) :
    ∃ i, 0 ≤ i ∧ i < numIter [b0, b1] ∧ unpack [b0, b1] i = .ub := by
  have hb0 := hb.2 b0 (by simp)
  have hb1 := hb.2 b1 (by simp)
  refine ⟨b1 * (b0 - 1), by omega, ?_, ?_⟩
  · simp only [numIter, List.foldl, one_mul]
    have : b1 * (b0 - 1) = b0 * b1 - b1 := by ring
    omega
  · simp only [unpack]
    rw [Int.tdiv_eq_ediv_of_nonneg (by omega), Int.mul_ediv_cancel_left _ (by omega),
      toI32_id (by omega) (by simp [i32Max]; omega)]
    have hf : fitsI32 (b1 * (b0 - 1)) = false := by
      rw [Bool.eq_false_iff]; intro h; rw [fitsI32_iff] at h; omega
    simp [mulI32, hf]

/-- **C10** The condition for three or more loops is sharp: when the product of all bounds but the first
exceeds 32 bits every iteration overflows. -/
theorem C10_many_loops_overflow (bounds : List Int) (hb : LoopBounds bounds) (hlen : bounds.length ≥ 3)
    (h : 2147483647 < bounds.tail.prod) (i : Int) : unpack bounds i = .ub := by
  have hpz : ∀ l : List Int, l.prod = prodZ l := by
    intro l; induction l with
    | nil => simp [prodZ]
    | cons b bs ih => simp [prodZ, ih]
  match bounds, hlen with
  | b0 :: b1 :: b2 :: bs, _ =>
    have hub : prodI32 (b1 :: b2 :: bs) = .ub := by
      apply prodI32_over
      · intro x hx; exact (hb.2 x (by simp only [List.mem_cons] at hx ⊢; tauto)).1
      · simp only [i32Max]; exact (hb.2 b1 (by simp)).2
      · rw [← hpz]; exact h
    simp [unpack, unpackGo, hub]

/-- Non-vacuity: a 4D loop meets the hypotheses of `C10_flat_loop`, and one of its tuples is reached. -/
example : LoopBounds [1000000, 4, 5, 6] ∧
    ([1000000, 4, 5, 6] : List Int).tail.prod ≤ 2147483647 ∧
    unpack [1000000, 4, 5, 6] 119999999 = .ok [999999, 3, 4, 5] := by
  refine ⟨⟨by simp, by simp⟩, by decide, by decide +kernel⟩

example : LoopBounds [65536, 65536] ∧ (2147483647 : Int) < 65536 * (65536 - 1) :=
  ⟨⟨by simp, by simp⟩, by decide⟩

/-- **C11** The team split executes each of the `n` flat indices exactly once and nothing else, for every
loop (`n` a multiple of its leading bound). -/
theorem C11_team_split (b0 n : Nat) (hd : b0 ∣ n) :
    (teamIndices b0 n).Perm (List.range n) := by
  have hc := balance_cover hd
  have hrw : teamIndices b0 n = (List.range (balanceWork b0 n).1).flatMap fun r =>
      (List.range (balanceWork b0 n).2).filterMap fun j =>
        if decide (r * (balanceWork b0 n).2 + j < n) = true
          then some (r * (balanceWork b0 n).2 + j) else none := by
    simp only [teamIndices]
    congr 1; funext r; congr 1; funext j
    by_cases h : r * (balanceWork b0 n).2 + j < n
    · rw [if_neg (by omega), if_pos (by simpa using h)]
    · rw [if_pos (by omega), if_neg (by simpa using h)]
  rw [hrw, List.perm_ext_iff_of_nodup (flatMap_filter_nodup _ _ (fun x => decide (x < n))) List.nodup_range]
  intro x
  rw [mem_flatMap_filter (p := fun x => decide (x < n)), List.mem_range]
  simp only [decide_eq_true_eq]
  constructor
  · rintro ⟨_, h⟩; exact h
  · intro h; exact ⟨by omega, h⟩

/-- **C11** The split never launches 8192 or more teams and gives each team at least 128 items. -/
theorem C11_team_shape (b0 n : Nat) (h0 : 0 < b0) (hn : 0 < n) (hd : b0 ∣ n) :
    (balanceWork b0 n).1 < 8192 ∧ 128 ≤ (balanceWork b0 n).2 := by
  simp only [balanceWork]
  have ht : 0 < n / b0 := Nat.div_pos (Nat.le_of_dvd hn hd) h0
  exact ⟨lt_of_le_of_lt (fillBlocks_le _ _) (capBlocks_lt _ _),
    fillBlocks_work _ _ (capBlocks_pos _ _ (growBlocks_pos _ _ ht))⟩

/-- **C11** The GPU launch executes each of the `n` flat indices exactly once, for loops of up to 2^32
iterations. -/
theorem C11_gpu_launch (n : Nat) (hn : n ≤ 4294967296) : (cudaIndices n).Perm (List.range n) := by
  have hg : ((n + 128 - 1) / 128) % 4294967296 = (n + 127) / 128 := by omega
  have hrw : cudaIndices n = (List.range ((n + 127) / 128)).flatMap fun b =>
      (List.range 128).filterMap fun t =>
        if decide (b * 128 + t < n) = true then some (b * 128 + t) else none := by
    simp only [cudaIndices, hg]
    apply List.flatMap_congr
    intro b hb
    apply List.filterMap_congr
    intro t ht
    rw [List.mem_range] at hb ht
    have : (b * 128 + t) % 4294967296 = b * 128 + t := by omega
    rw [this]; simp
  rw [hrw, List.perm_ext_iff_of_nodup (flatMap_filter_nodup _ _ (fun x => decide (x < n))) List.nodup_range]
  intro x
  rw [mem_flatMap_filter (p := fun x => decide (x < n)), List.mem_range]
  simp only [decide_eq_true_eq]
  omega

/-- **C11** The bound 2^32 is sharp: in a longer loop the iteration 2^32 is never executed, because the
global thread index is computed in 32 bits. -/
theorem C11_gpu_launch_long (n : Nat) (hn : 4294967296 < n) :
    4294967296 ∈ List.range n ∧ 4294967296 ∉ cudaIndices n := by
  refine ⟨by rw [List.mem_range]; exact hn, ?_⟩
  simp only [cudaIndices, List.mem_flatMap, List.mem_filterMap, not_exists, not_and]
  intro b _ t _ h
  split at h
  · simp only [Option.some.injEq] at h; omega
  · simp at h

/-- Non-vacuity: a 256x300x7 loop. -/
example : 256 ∣ 256 * 300 * 7 ∧ balanceWork 256 (256 * 300 * 7) = (256, 2100) := by
  refine ⟨⟨2100, by norm_num⟩, by decide +kernel⟩
example : balanceWork 3 30 = (1, 160) := by decide +kernel

end DexRT
