import Verif.Lemmas.Morton
/-!
C01, C02: tile codes are lossless inside the limit, and collide outside it.
-/
namespace DexRT

/-- Specification: the 2D tiles a 32-bit code can name (both components in [0, 65535]). -/
def InMorton2 (c : Coord2) : Prop := 0 ≤ c.x ∧ c.x ≤ 65535 ∧ 0 ≤ c.z ∧ c.z ≤ 65535

/-- Specification: the 3D tiles a code can name (all components in [0, 1023]). -/
def InMorton3 (c : Coord3) : Prop :=
  0 ≤ c.x ∧ c.x ≤ 1023 ∧ 0 ≤ c.y ∧ c.y ≤ 1023 ∧ 0 ≤ c.z ∧ c.z ≤ 1023

/-- C01: decoding an encoded in-range tile gives the tile back. -/
theorem C01_decode_encode (c : Coord2) (h : InMorton2 c) : decodeMorton2 (encodeMorton2 c) = c := by
  obtain ⟨h1, h2, h3, h4⟩ := h
  exact decode_encode2 c h1 (by omega) h3 (by omega)

/-- C01: every 32-bit code names an in-range tile and re-encodes to itself. -/
theorem C01_encode_decode (m : BitVec 32) :
    InMorton2 (decodeMorton2 m) ∧ encodeMorton2 (decodeMorton2 m) = m := by
  have hx := compact1By1_toInt_range m
  have hz := compact1By1_toInt_range (m >>> 1)
  refine ⟨⟨hx.1, ?_, hz.1, ?_⟩, encode_decode2 m⟩
  · have := hx.2; show (compact1By1 m).toInt ≤ 65535; omega
  · have := hz.2; show (compact1By1 (m >>> 1)).toInt ≤ 65535; omega

/-- C01: distinct in-range tiles have distinct codes. -/
theorem C01_injective (a b : Coord2) (ha : InMorton2 a) (hb : InMorton2 b)
    (h : encodeMorton2 a = encodeMorton2 b) : a = b := by
  rw [← C01_decode_encode a ha, ← C01_decode_encode b hb, h]

/-- C01: outside the limit codes collide: the tile 65536 columns further has the same code. -/
theorem C01_alias (c : Coord2) : encodeMorton2 { c with x := c.x + 65536 } = encodeMorton2 c := by
  apply BitVec.eq_of_getLsbD_eq
  intro j hj
  rw [encodeMorton2_bit _ _ hj, encodeMorton2_bit _ _ hj]
  split
  · unfold toU32
    have h : j / 2 < 16 := by omega
    rw [BitVec.ofInt_add, ← BitVec.ofInt_toInt (x := BitVec.ofInt 32 c.x)]
    generalize BitVec.ofInt 32 c.x = v
    rw [BitVec.ofInt_toInt]
    show (v + 65536#32).getLsbD (j/2) = _
    have e : (v + 65536#32) % 65536#32 = v % 65536#32 := by
      apply BitVec.eq_of_toNat_eq
      simp only [BitVec.toNat_umod, BitVec.toNat_add, BitVec.toNat_ofNat,
        show 65536 % 2 ^ 32 = 65536 by decide]
      omega
    have key : ∀ w : BitVec 32, w.getLsbD (j/2) = (w % 65536#32).getLsbD (j/2) := by
      intro w
      simp only [BitVec.getLsbD, BitVec.toNat_umod, BitVec.toNat_ofNat]
      rw [show 65536 % 2^32 = 2^16 by decide, Nat.testBit_mod_two_pow]
      simp [h]
    rw [key, key v, e]
  · rfl

/-- C01: the code interleaves the bits, column bits in even and row bits in odd positions. -/
theorem C01_interleave (x z : Nat) (hx : x < 2 ^ 16) (hz : z < 2 ^ 16) (i : Nat) (hi : i < 16) :
    (encodeMorton2 ⟨x, z⟩).toNat.testBit (2 * i) = x.testBit i ∧
    (encodeMorton2 ⟨x, z⟩).toNat.testBit (2 * i + 1) = z.testBit i := by
  have h1 := encodeMorton2_bit ⟨x, z⟩ (2 * i) (by omega)
  have h2 := encodeMorton2_bit ⟨x, z⟩ (2 * i + 1) (by omega)
  rw [if_pos (by omega), show 2 * i / 2 = i by omega] at h1
  rw [if_neg (by omega), show (2 * i + 1) / 2 = i by omega] at h2
  have key : ∀ n : Nat, n < 2 ^ 16 → (toU32 (n : Int)).getLsbD i = n.testBit i := by
    intro n hn
    unfold toU32
    rw [BitVec.ofInt_natCast, BitVec.getLsbD, BitVec.toNat_ofNat, Nat.mod_eq_of_lt (by omega)]
  exact ⟨h1.trans (key x hx), h2.trans (key z hz)⟩

/-- C02: decoding an encoded in-range tile gives the tile back. -/
theorem C02_decode_encode (c : Coord3) (h : InMorton3 c) : decodeMorton3 (encodeMorton3 c) = c := by
  obtain ⟨h1, h2, h3, h4, h5, h6⟩ := h
  exact decode_encode3 c h1 (by omega) h3 (by omega) h5 (by omega)

/-- C02: every code names an in-range tile; codes below 2^30 re-encode to themselves. -/
theorem C02_encode_decode (m : BitVec 32) :
    InMorton3 (decodeMorton3 m) ∧ (m.toNat < 2 ^ 30 → encodeMorton3 (decodeMorton3 m) = m) := by
  have hx := compact1By2_toInt_range m
  have hy := compact1By2_toInt_range (m >>> 1)
  have hz := compact1By2_toInt_range (m >>> 2)
  refine ⟨⟨hx.1, ?_, hy.1, ?_, hz.1, ?_⟩, encode_decode3 m⟩
  · have := hx.2; show (compact1By2 m).toInt ≤ 1023; omega
  · have := hy.2; show (compact1By2 (m >>> 1)).toInt ≤ 1023; omega
  · have := hz.2; show (compact1By2 (m >>> 2)).toInt ≤ 1023; omega

/-- C02: distinct in-range tiles have distinct codes. -/
theorem C02_injective (a b : Coord3) (ha : InMorton3 a) (hb : InMorton3 b)
    (h : encodeMorton3 a = encodeMorton3 b) : a = b := by
  rw [← C02_decode_encode a ha, ← C02_decode_encode b hb, h]

/-- C02: outside the limit codes collide (witness: tiles 1024 columns apart). -/
theorem C02_alias : ∃ a b : Coord3, a ≠ b ∧ encodeMorton3 a = encodeMorton3 b :=
  ⟨⟨5, 6, 7⟩, ⟨1029, 6, 7⟩, by decide, by decide⟩

example : InMorton2 ⟨65535, 12345⟩ := by unfold InMorton2; decide
example : encodeMorton2 ⟨3, 5⟩ = 39#32 := by decide
example : InMorton3 ⟨1023, 512, 7⟩ := by unfold InMorton3; decide
example : encodeMorton3 ⟨3, 5, 1⟩ = 143#32 := by decide

end DexRT
