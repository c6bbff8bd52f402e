import Verif.Model.Morton
import Mathlib.Tactic.IntervalCases
/-! Helper lemmas for the Morton-code theorems: every output bit is a fixed input bit. -/
namespace DexRT

theorem part1By1_bit (x : BitVec 32) (i : Nat) (hi : i < 32) :
    (part1By1 x).getLsbD i = (decide (i % 2 = 0) && x.getLsbD (i / 2)) := by
  unfold part1By1
  interval_cases i <;> simp

theorem part1By2_bit (x : BitVec 32) (i : Nat) (hi : i < 32) :
    (part1By2 x).getLsbD i = (decide (i % 3 = 0 ∧ i < 30) && x.getLsbD (i / 3)) := by
  unfold part1By2
  interval_cases i <;> simp

theorem compact1By1_bit (x : BitVec 32) (i : Nat) (hi : i < 32) :
    (compact1By1 x).getLsbD i = (decide (i < 16) && x.getLsbD (2 * i)) := by
  unfold compact1By1
  interval_cases i <;> simp

theorem compact1By2_bit (x : BitVec 32) (i : Nat) (hi : i < 32) :
    (compact1By2 x).getLsbD i = (decide (i < 10) && x.getLsbD (3 * i)) := by
  unfold compact1By2
  interval_cases i <;> simp

theorem encodeMorton2_bit (c : Coord2) (i : Nat) (hi : i < 32) :
    (encodeMorton2 c).getLsbD i =
      if i % 2 = 0 then (toU32 c.x).getLsbD (i / 2) else (toU32 c.z).getLsbD (i / 2) := by
  unfold encodeMorton2
  have h : (part1By1 (toU32 c.z) <<< 1) &&& part1By1 (toU32 c.x) = 0#32 := by
    apply BitVec.eq_of_getLsbD_eq
    intro j hj
    rw [BitVec.getLsbD_and, BitVec.getLsbD_shiftLeft, part1By1_bit _ _ hj]
    rcases Nat.eq_zero_or_pos j with h0 | h0
    · subst h0; simp
    · rw [part1By1_bit _ (j-1) (by omega)]
      rcases Nat.mod_two_eq_zero_or_one j with h2 | h2
      · have : (j-1) % 2 ≠ 0 := by omega
        simp [this]
      · simp [h2]
  rw [BitVec.add_eq_or_of_and_eq_zero _ _ h, BitVec.getLsbD_or, BitVec.getLsbD_shiftLeft,
    part1By1_bit _ _ hi]
  rcases Nat.eq_zero_or_pos i with h0 | h0
  · subst h0; simp
  · rw [part1By1_bit _ (i-1) (by omega)]
    split
    · rename_i h2
      have : (i-1) % 2 ≠ 0 := by omega
      simp [this, h2]
    · rename_i h2
      have h3 : (i-1) % 2 = 0 := by omega
      have h4 : (i-1)/2 = i/2 := by omega
      have : ¬ (i = 0) := by omega
      simp [h2, h3, h4, hi, this]

theorem encodeMorton3_bit (c : Coord3) (i : Nat) (hi : i < 32) :
    (encodeMorton3 c).getLsbD i =
      (decide (i < 30) &&
        if i % 3 = 0 then (toU32 c.x).getLsbD (i / 3)
        else if i % 3 = 1 then (toU32 c.y).getLsbD (i / 3)
        else (toU32 c.z).getLsbD (i / 3)) := by
  have hsh : ∀ (v : BitVec 32) (s j : Nat), s < 3 → j < 32 →
      (part1By2 v <<< s).getLsbD j = (decide (s ≤ j ∧ (j - s) % 3 = 0 ∧ j - s < 30) && v.getLsbD ((j-s)/3)) := by
    intro v s j hs hj
    rw [BitVec.getLsbD_shiftLeft]
    by_cases h : j < s
    · have : ¬ (s ≤ j) := by omega
      simp [h, this]
    · rw [part1By2_bit _ _ (by omega)]
      have h' : s ≤ j := by omega
      simp [h, h', hj]
  have h0 := fun (v : BitVec 32) (j : Nat) (hj : j < 32) => hsh v 0 j (by omega) hj
  simp only [BitVec.shiftLeft_zero, Nat.sub_zero] at h0
  unfold encodeMorton3
  have h1 : (part1By2 (toU32 c.z) <<< 2) &&& (part1By2 (toU32 c.y) <<< 1) = 0#32 := by
    apply BitVec.eq_of_getLsbD_eq
    intro j hj
    rw [BitVec.getLsbD_and, hsh _ 2 _ (by omega) hj, hsh _ 1 _ (by omega) hj]
    by_cases ha : (2 ≤ j ∧ (j - 2) % 3 = 0 ∧ j - 2 < 30)
    · have hb : ¬ (1 ≤ j ∧ (j - 1) % 3 = 0 ∧ j - 1 < 30) := by omega
      simp only [hb, decide_false, Bool.false_and, Bool.and_false]; simp
    · simp only [ha, decide_false, Bool.false_and]; simp
  have h2 : ((part1By2 (toU32 c.z) <<< 2) ||| (part1By2 (toU32 c.y) <<< 1)) &&& part1By2 (toU32 c.x) = 0#32 := by
    apply BitVec.eq_of_getLsbD_eq
    intro j hj
    rw [BitVec.getLsbD_and, BitVec.getLsbD_or, hsh _ 2 _ (by omega) hj, hsh _ 1 _ (by omega) hj, h0 _ _ hj]
    by_cases ha : (0 ≤ j ∧ j % 3 = 0 ∧ j < 30)
    · have hb : ¬ (1 ≤ j ∧ (j - 1) % 3 = 0 ∧ j - 1 < 30) := by omega
      have hc : ¬ (2 ≤ j ∧ (j - 2) % 3 = 0 ∧ j - 2 < 30) := by omega
      simp only [hb, hc, decide_false, Bool.false_and, Bool.or_self]; simp
    · simp only [ha, decide_false, Bool.false_and, Bool.and_false]; simp
  rw [BitVec.add_eq_or_of_and_eq_zero _ _ h1, BitVec.add_eq_or_of_and_eq_zero _ _ h2,
    BitVec.getLsbD_or, BitVec.getLsbD_or, hsh _ 2 _ (by omega) hi, hsh _ 1 _ (by omega) hi, h0 _ _ hi]
  have hlt : ∀ (v : BitVec 32) k, 32 ≤ k → v.getLsbD k = false := fun v k hk =>
    BitVec.getLsbD_of_ge v k hk
  interval_cases i <;> simp

theorem compact_encode2_x (c : Coord2) : compact1By1 (encodeMorton2 c) = toU32 c.x &&& 0xffff#32 := by
  apply BitVec.eq_of_getLsbD_eq
  intro j hj
  rw [compact1By1_bit _ _ hj]
  by_cases h : j < 16
  · rw [encodeMorton2_bit _ _ (by omega)]
    have h1 : 2 * j % 2 = 0 := by omega
    have h2 : 2 * j / 2 = j := by omega
    have : (0xffff#32).getLsbD j = true := by interval_cases j <;> rfl
    simp only [h, h1, h2, if_true, decide_true, Bool.true_and, BitVec.getLsbD_and, this, Bool.and_true]
  · have : (0xffff#32).getLsbD j = false := by
      have : 16 ≤ j := by omega
      interval_cases j <;> rfl
    simp only [h, decide_false, Bool.false_and, BitVec.getLsbD_and, this, Bool.and_false]

theorem compact_encode2_z (c : Coord2) : compact1By1 (encodeMorton2 c >>> 1) = toU32 c.z &&& 0xffff#32 := by
  apply BitVec.eq_of_getLsbD_eq
  intro j hj
  rw [compact1By1_bit _ _ hj, BitVec.getLsbD_ushiftRight]
  by_cases h : j < 16
  · rw [encodeMorton2_bit _ _ (by omega)]
    have h1 : ¬ (1 + 2 * j) % 2 = 0 := by omega
    have h2 : (1 + 2 * j) / 2 = j := by omega
    have : (0xffff#32).getLsbD j = true := by interval_cases j <;> rfl
    simp only [h, h1, h2, if_false, decide_true, Bool.true_and, BitVec.getLsbD_and, this, Bool.and_true]
  · have : (0xffff#32).getLsbD j = false := by
      have : 16 ≤ j := by omega
      interval_cases j <;> rfl
    simp only [h, decide_false, Bool.false_and, BitVec.getLsbD_and, this, Bool.and_false]

theorem compact_encode3 (c : Coord3) (s : Nat) (hs : s < 3) :
    compact1By2 (encodeMorton3 c >>> s) =
      (if s = 0 then toU32 c.x else if s = 1 then toU32 c.y else toU32 c.z) &&& 0x3ff#32 := by
  apply BitVec.eq_of_getLsbD_eq
  intro j hj
  rw [compact1By2_bit _ _ hj, BitVec.getLsbD_ushiftRight]
  by_cases h : j < 10
  · rw [encodeMorton3_bit _ _ (by omega)]
    have h1 : (s + 3 * j) % 3 = s := by omega
    have h2 : (s + 3 * j) / 3 = j := by omega
    have h3 : s + 3 * j < 30 := by omega
    have : (0x3ff#32).getLsbD j = true := by interval_cases j <;> rfl
    rw [h1, h2, BitVec.getLsbD_and, this, Bool.and_true]
    simp only [h, h3, decide_true, Bool.true_and]
    split
    · rfl
    · split <;> rfl
  · have : (0x3ff#32).getLsbD j = false := by
      have : 10 ≤ j := by omega
      interval_cases j <;> rfl
    simp only [h, decide_false, Bool.false_and, BitVec.getLsbD_and, this, Bool.and_false]

theorem toU32_mask_toInt (k : Nat) (hk : k < 31) (v : Int) (h0 : 0 ≤ v) (h1 : v < 2 ^ k) :
    (toU32 v &&& BitVec.ofNat 32 (2 ^ k - 1)).toInt = v := by
  obtain ⟨n, rfl⟩ := Int.eq_ofNat_of_zero_le h0
  have hn : n < 2 ^ k := by exact_mod_cast h1
  have h2k : 2 ^ k ≤ 2 ^ 30 := Nat.pow_le_pow_right (by omega) (by omega)
  have e : (toU32 (n : Int) &&& BitVec.ofNat 32 (2 ^ k - 1)) = BitVec.ofNat 32 n := by
    apply BitVec.eq_of_toNat_eq
    unfold toU32
    rw [BitVec.toNat_and]
    simp only [BitVec.toNat_ofNat, BitVec.ofInt_natCast]
    rw [Nat.mod_eq_of_lt (a := n) (by omega), Nat.mod_eq_of_lt (a := 2^k - 1) (by omega),
      Nat.and_two_pow_sub_one_eq_mod, Nat.mod_eq_of_lt hn]
  rw [e, BitVec.toInt_eq_toNat_of_lt (by rw [BitVec.toNat_ofNat]; omega), BitVec.toNat_ofNat]
  rw [Nat.mod_eq_of_lt (by omega)]

theorem decode_encode2 (c : Coord2) (hx0 : 0 ≤ c.x) (hx1 : c.x < 2 ^ 16) (hz0 : 0 ≤ c.z)
    (hz1 : c.z < 2 ^ 16) : decodeMorton2 (encodeMorton2 c) = c := by
  unfold decodeMorton2
  rw [compact_encode2_x, compact_encode2_z]
  have hx : (toU32 c.x &&& 0xffff#32).toInt = c.x := toU32_mask_toInt 16 (by omega) c.x hx0 hx1
  have hz : (toU32 c.z &&& 0xffff#32).toInt = c.z := toU32_mask_toInt 16 (by omega) c.z hz0 hz1
  rw [hx, hz]

theorem decode_encode3 (c : Coord3) (hx0 : 0 ≤ c.x) (hx1 : c.x < 2 ^ 10) (hy0 : 0 ≤ c.y)
    (hy1 : c.y < 2 ^ 10) (hz0 : 0 ≤ c.z) (hz1 : c.z < 2 ^ 10) :
    decodeMorton3 (encodeMorton3 c) = c := by
  have ex := compact_encode3 c 0 (by omega)
  have ey := compact_encode3 c 1 (by omega)
  have ez := compact_encode3 c 2 (by omega)
  simp at ex ey ez
  unfold decodeMorton3
  rw [ex, ey, ez]
  have hx : (toU32 c.x &&& 0x3ff#32).toInt = c.x := toU32_mask_toInt 10 (by omega) c.x hx0 hx1
  have hy : (toU32 c.y &&& 0x3ff#32).toInt = c.y := toU32_mask_toInt 10 (by omega) c.y hy0 hy1
  have hz : (toU32 c.z &&& 0x3ff#32).toInt = c.z := toU32_mask_toInt 10 (by omega) c.z hz0 hz1
  rw [hx, hy, hz]

theorem toU32_toInt (v : BitVec 32) : toU32 v.toInt = v := by
  unfold toU32; exact BitVec.ofInt_toInt

theorem encode_decode2 (m : BitVec 32) : encodeMorton2 (decodeMorton2 m) = m := by
  apply BitVec.eq_of_getLsbD_eq
  intro j hj
  rw [encodeMorton2_bit _ _ hj]
  unfold decodeMorton2
  simp only [toU32_toInt]
  rw [compact1By1_bit _ _ (by omega), compact1By1_bit _ _ (by omega), BitVec.getLsbD_ushiftRight]
  have h : j / 2 < 16 := by omega
  split
  · have : 2 * (j/2) = j := by omega
    simp [this, h]
  · have : 1 + 2 * (j/2) = j := by omega
    simp [this, h]

theorem encode_decode3 (m : BitVec 32) (hm : m.toNat < 2 ^ 30) : encodeMorton3 (decodeMorton3 m) = m := by
  apply BitVec.eq_of_getLsbD_eq
  intro j hj
  rw [encodeMorton3_bit _ _ hj]
  unfold decodeMorton3
  simp only [toU32_toInt]
  rw [compact1By2_bit _ _ (by omega), compact1By2_bit _ _ (by omega), compact1By2_bit _ _ (by omega),
    BitVec.getLsbD_ushiftRight, BitVec.getLsbD_ushiftRight]
  by_cases h30 : j < 30
  · have h : j / 3 < 10 := by omega
    simp only [h30, h, decide_true, Bool.true_and]
    split
    · congr 1; omega
    · split
      · congr 1; omega
      · congr 1; omega
  · simp only [h30, decide_false, Bool.false_and]
    symm
    rw [BitVec.getLsbD, Nat.testBit_lt_two_pow]
    exact lt_of_lt_of_le hm (Nat.pow_le_pow_right (by omega) (by omega))

theorem compact1By1_toNat_lt (m : BitVec 32) : (compact1By1 m).toNat < 2 ^ 16 := by
  unfold compact1By1
  simp only [BitVec.toNat_and]
  exact lt_of_le_of_lt Nat.and_le_right (by decide)

theorem compact1By2_toNat_lt (m : BitVec 32) : (compact1By2 m).toNat < 2 ^ 10 := by
  unfold compact1By2
  simp only [BitVec.toNat_and]
  exact lt_of_le_of_lt Nat.and_le_right (by decide)

theorem compact1By1_toInt_range (m : BitVec 32) :
    0 ≤ (compact1By1 m).toInt ∧ (compact1By1 m).toInt < 2 ^ 16 := by
  have h := compact1By1_toNat_lt m
  rw [BitVec.toInt_eq_toNat_of_lt (by omega)]
  constructor
  · exact Int.natCast_nonneg _
  · exact_mod_cast h

theorem compact1By2_toInt_range (m : BitVec 32) :
    0 ≤ (compact1By2 m).toInt ∧ (compact1By2 m).toInt < 2 ^ 10 := by
  have h := compact1By2_toNat_lt m
  rw [BitVec.toInt_eq_toNat_of_lt (by omega)]
  constructor
  · exact Int.natCast_nonneg _
  · exact_mod_cast h

end DexRT
