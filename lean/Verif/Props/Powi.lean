import Verif.Lemmas.Rc
/-!
# C43: the integer power used for 3D branching and scale factors
-/
namespace DexRT

private theorem powiGo_ok : ∀ (e : Nat) (r x : Int), 1 ≤ x → 1 ≤ r → r * x ^ e ≤ 2147483647 →
    x ^ (2 * e) ≤ 2147483647 → powiGo r x e = .ok (r * x ^ e) := by
  intro e
  induction e using Nat.strong_induction_on with
  | _ e ih =>
    intro r x hx hr h1 h2
    unfold powiGo
    split
    · rename_i h; subst h; simp
    · rename_i h
      have hxx : x * x ≤ x ^ (2 * e) := by
        have : x * x = x ^ 2 := by ring
        rw [this]; exact pow_le_pow_right₀ hx (by omega)
      have hxp : ∀ k, 1 ≤ x ^ k := fun k => one_le_pow₀ hx
      have hfx : mulI32 x x = .ok (x * x) := by
        have : fitsI32 (x * x) = true := by
          rw [fitsI32_iff]; constructor <;> nlinarith
        simp [mulI32, this]
      have hsq : (x * x) ^ (e / 2) = x ^ (2 * (e / 2)) := by rw [← pow_two, ← pow_mul]
      have hle : (x * x) ^ (2 * (e / 2)) ≤ 2147483647 := by
        rw [← pow_two, ← pow_mul]
        exact le_trans (pow_le_pow_right₀ hx (by omega)) h2
      rcases Nat.mod_two_eq_zero_or_one e with hm | hm
      · simp only [hm, hfx]
        have he : 2 * (e / 2) = e := by omega
        simp only [show (0 = 1) = False by simp, if_false, Outcome.ok_bind]
        rw [ih (e / 2) (by omega) r (x * x) (by nlinarith) hr (by rw [hsq, he]; exact h1) hle, hsq, he]
      · have he : 2 * (e / 2) + 1 = e := by omega
        have hrx : r * x ≤ r * x ^ e := by
          have : x ^ 1 ≤ x ^ e := pow_le_pow_right₀ hx (by omega)
          rw [pow_one] at this
          exact mul_le_mul_of_nonneg_left this (by omega)
        have hfr : mulI32 r x = .ok (r * x) := by
          have : fitsI32 (r * x) = true := by
            rw [fitsI32_iff]; constructor <;> nlinarith
          simp [mulI32, this]
        have hpow : r * x * x ^ (2 * (e / 2)) = r * x ^ e := by
          calc r * x * x ^ (2 * (e / 2)) = r * x ^ (2 * (e / 2) + 1) := by rw [pow_succ]; ring
            _ = r * x ^ e := by rw [he]
        simp only [hm, hfx, hfr, if_true, Outcome.ok_bind]
        rw [ih (e / 2) (by omega) (r * x) (x * x) (by nlinarith) (by nlinarith)
          (by rw [hsq, hpow]; exact h1) hle, hsq, hpow]

/-- **C43** (partial: see `C43_refuted`) `powi(x, e)` returns exactly `x^e`, without overflow, for every
positive base whose power `2e` fits in 32 bits. -/
theorem C43_powi_partial (x : Int) (e : Nat) (hx : 1 ≤ x) (h : x ^ (2 * e) ≤ 2147483647) :
    powi x e = .ok (x ^ e) := by
  have h1 : x ^ e ≤ x ^ (2 * e) := pow_le_pow_right₀ hx (by omega)
  have := powiGo_ok e 1 x hx (by omega) (by omega) h
  simpa [powi] using this

/-- **C43** is false as stated: the power may fit in 32 bits while the computation overflows (the last,
unused squaring): `3^16`, the scale of cascade 16 with factor 3. -/
theorem C43_refuted : (3 : Int) ^ 16 ≤ 2147483647 ∧ powi 3 16 = .ub := by decide +kernel

/-- Non-vacuity: factor 3 and cascade 9. -/
example : (3 : Int) ^ (2 * 9) ≤ 2147483647 ∧ powi 3 9 = .ok 19683 := by decide +kernel

end DexRT
