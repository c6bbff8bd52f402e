import Verif.Model.Rc
import Verif.Lemmas.Loops
/-! Helper lemmas for the radiance-cascade geometry. -/
namespace DexRT

theorem mix_lt {a A b B : Nat} (ha : a < A) (hb : b < B) : a + A * b < A * B := by
  calc a + A * b < A + A * b := by omega
    _ = A * (b + 1) := by ring
    _ ≤ A * B := Nat.mul_le_mul_left _ hb

theorem mix_mod {a A b : Nat} (ha : a < A) : (a + A * b) % A = a := by
  rw [Nat.add_mul_mod_self_left, Nat.mod_eq_of_lt ha]

theorem mix_div {a A b : Nat} (ha : a < A) : (a + A * b) / A = b := by
  rw [Nat.add_mul_div_left _ _ (by omega), Nat.div_eq_of_lt ha]; omega

theorem mix_inj {a A b a' b' : Nat} (ha : a < A) (ha' : a' < A) (h : a + A * b = a' + A * b') :
    a = a' ∧ b = b' := by
  have h1 := congrArg (· % A) h
  have h2 := congrArg (· / A) h
  simp only [mix_mod ha, mix_mod ha', mix_div ha, mix_div ha'] at h1 h2
  exact ⟨h1, h2⟩

/-- Nested form of the 2D address. -/
theorem storageLinearIndex_nest (s : Casc2) (p : ProbeIdx2) : storageLinearIndex s p =
    p.incl + s.incl * (p.wave + s.wave * (p.dir + s.dirs * (p.u + s.np0 * p.v))) := by
  simp only [storageLinearIndex]; ring

/-- In-range texel index. -/
def InStore2 (s : Casc2) (p : ProbeIdx2) : Prop :=
  p.u < s.np0 ∧ p.v < s.np1 ∧ p.dir < s.dirs ∧ p.incl < s.incl ∧ p.wave < s.wave

theorem storageLinearIndex_lt {s : Casc2} {p : ProbeIdx2} (h : InStore2 s p) :
    storageLinearIndex s p < cascadeEntries s := by
  obtain ⟨h1, h2, h3, h4, h5⟩ := h
  rw [storageLinearIndex_nest]
  refine lt_of_lt_of_eq (mix_lt h4 (mix_lt h5 (mix_lt h3 (mix_lt h1 h2)))) ?_
  simp only [cascadeEntries]; ring

theorem storageLinearIndex_inj {s : Casc2} {p q : ProbeIdx2} (hp : InStore2 s p) (hq : InStore2 s q)
    (h : storageLinearIndex s p = storageLinearIndex s q) : p = q := by
  obtain ⟨h1, h2, h3, h4, h5⟩ := hp
  obtain ⟨g1, g2, g3, g4, g5⟩ := hq
  rw [storageLinearIndex_nest, storageLinearIndex_nest] at h
  obtain ⟨e1, h⟩ := mix_inj h4 g4 h
  obtain ⟨e2, h⟩ := mix_inj h5 g5 h
  obtain ⟨e3, h⟩ := mix_inj h3 g3 h
  obtain ⟨e4, e5⟩ := mix_inj h1 g1 h
  cases p; cases q; simp_all

theorem storageLinearIndex_surj {s : Casc2} {a : Nat} (h : a < cascadeEntries s) :
    ∃ p, InStore2 s p ∧ storageLinearIndex s p = a := by
  simp only [cascadeEntries] at h
  have hI : 0 < s.incl := by rcases Nat.eq_zero_or_pos s.incl with h0 | h0; simp [h0] at h; exact h0
  have hW : 0 < s.wave := by rcases Nat.eq_zero_or_pos s.wave with h0 | h0; simp [h0] at h; exact h0
  have hD : 0 < s.dirs := by rcases Nat.eq_zero_or_pos s.dirs with h0 | h0; simp [h0] at h; exact h0
  have hU : 0 < s.np0 := by rcases Nat.eq_zero_or_pos s.np0 with h0 | h0; simp [h0] at h; exact h0
  refine ⟨⟨a / s.incl / s.wave / s.dirs % s.np0, a / s.incl / s.wave / s.dirs / s.np0,
    a / s.incl / s.wave % s.dirs, a % s.incl, a / s.incl % s.wave⟩,
    ⟨Nat.mod_lt _ hU, ?_, Nat.mod_lt _ hD, Nat.mod_lt _ hI, Nat.mod_lt _ hW⟩, ?_⟩
  · show a / s.incl / s.wave / s.dirs / s.np0 < s.np1
    rw [Nat.div_div_eq_div_mul, Nat.div_div_eq_div_mul, Nat.div_div_eq_div_mul,
      Nat.div_lt_iff_lt_mul (by positivity)]
    calc a < _ := h
      _ = _ := by ring
  · rw [storageLinearIndex_nest]
    simp only [Nat.mod_add_div]

theorem probeLinearIndex_eq (c : RcCfg) (s : Casc2) (p : ProbeIdx2) : probeLinearIndex c s p =
    storageLinearIndex s { p with dir := match c.mode with
      | .preaverage => p.dir / 2 ^ c.cbf
      | .dirByDir => p.dir % s.dirs
      | .all => p.dir } := rfl

theorem exponent_succ (c : RcCfg) (n : Nat) : numFlatRaysExponent c (n + 1) =
    numFlatRaysExponent c n + (if c.vary then (if n + 1 < c.switch then c.cbf else c.ubf) else c.cbf) := by
  unfold numFlatRaysExponent
  by_cases hv : c.vary = true
  · have hs : 0 < c.switch := by simpa [RcCfg.vary] using hv
    simp only [hv, if_true]
    by_cases h1 : n + 1 < c.switch
    · rw [if_pos h1, if_pos (by omega), if_pos h1]; ring
    · rw [if_neg h1, if_neg h1]
      by_cases h2 : n < c.switch
      · rw [if_pos h2]
        have e : c.switch - 1 = n := by omega
        rw [e]
        have e2 : n + 1 - n = 1 := by omega
        rw [e2]; ring
      · rw [if_neg h2]
        have e : n + 1 - (c.switch - 1) = n - (c.switch - 1) + 1 := by omega
        rw [e]; ring
  · simp only [hv]
    simp; ring

/-! 3D -/

theorem probeLinearIndex3_nest (c : RcCfg3) (s : Casc3) (p : ProbeIdx3) : probeLinearIndex3 c s p =
    (if c.dirByDir then p.az - p.az / s.az * s.az else p.az) + s.az *
      ((if c.dirByDir then p.polar - p.polar / s.polar * s.polar else p.polar) + s.polar *
        (p.u + s.np0 * (p.v + s.np1 * p.w))) := by
  simp only [probeLinearIndex3]; ring

theorem sub_div_mul (a b : Nat) : a - a / b * b = a % b := by
  have := Nat.mod_add_div a b
  rw [mul_comm b] at this
  omega

theorem azFactor_succ (b : Branch3) (n : Nat) : azFactor b (n + 1) = azFactor b n * (upperTexels3 b).1 := by
  cases b <;> simp only [azFactor, upperTexels3, ← pow_add, pow_succ] <;> ring_nf

theorem polarFactor_succ (b : Branch3) (n : Nat) :
    polarFactor b (n + 1) = polarFactor b n * (upperTexels3 b).2 := by
  cases b <;> simp only [polarFactor, upperTexels3, ← pow_add, pow_succ] <;> ring_nf

theorem seg_unique {D d t t' : Nat} (h1 : t * D ≤ d) (h2 : d < t * D + D) (h3 : t' * D ≤ d)
    (h4 : d < t' * D + D) : t = t' := by
  rcases Nat.lt_trichotomy t t' with h | h | h
  · have : (t + 1) * D ≤ t' * D := Nat.mul_le_mul_right _ h
    have e : (t + 1) * D = t * D + D := by ring
    omega
  · exact h
  · have : (t' + 1) * D ≤ t * D := Nat.mul_le_mul_right _ h
    have e : (t' + 1) * D = t' * D + D := by ring
    omega

theorem seg_mod {D d t : Nat} (h1 : t * D ≤ d) (h2 : d < t * D + D) : d % D = d - t * D := by
  obtain ⟨k, hk⟩ := Nat.exists_eq_add_of_le h1
  subst hk
  rw [Nat.add_comm, Nat.add_mul_mod_self_right, Nat.mod_eq_of_lt (by omega)]; omega

theorem seg_div {D d : Nat} (hD : 0 < D) : d / D * D ≤ d ∧ d < d / D * D + D := by
  have := Nat.div_add_mod d D
  have h2 := Nat.mod_lt d hD
  rw [mul_comm] at this
  omega

end DexRT
