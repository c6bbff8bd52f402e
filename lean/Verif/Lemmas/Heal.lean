import Verif.Lemmas.Dirs
/-! Lemmas on the HEALPix directions. -/
namespace DexRT.Dir
open Finset

/-- Even bits of `n`. -/
def ev (n : ℕ) : ℕ := (compact1By1 (BitVec.ofNat 32 n)).toNat

theorem ev_bit (n i : ℕ) (hn : n < 2 ^ 32) : (ev n).testBit i = (decide (i < 16) && n.testBit (2 * i)) :=
  compact_testBit n i hn

theorem ev_zero : ev 0 = 0 := by decide

theorem ev_step (n r : ℕ) (hr : r < 4) (hn : 4 * n + r < 2 ^ 32) : ev (4 * n + r) = 2 * ev n + r % 2 := by
  apply Nat.eq_of_testBit_eq
  intro i
  rw [ev_bit _ _ hn]
  cases i with
  | zero =>
    simp only [Nat.mul_zero, Nat.testBit_zero]
    have : (4 * n + r) % 2 = (2 * ev n + r % 2) % 2 := by omega
    rw [this]; simp
  | succ i =>
    have e : 2 * (i + 1) = 2 * i + 1 + 1 := by ring
    rw [e, Nat.testBit_succ, Nat.testBit_succ, Nat.testBit_succ]
    have e1 : (4 * n + r) / 2 / 2 = n := by omega
    have e2 : (2 * ev n + r % 2) / 2 = ev n := by omega
    rw [e1, e2, ev_bit _ _ (by omega)]
    by_cases h : i + 1 < 16
    · simp [h, show i < 16 by omega]
    · by_cases h' : i < 16
      · have hi : i = 15 := by omega
        subst hi
        have : n.testBit (2 * 15) = false := Nat.testBit_lt_two_pow (by norm_num at hn ⊢; omega)
        simp [this]
      · simp [h, h']

/-- Odd bits of `n`. -/
def od (n : ℕ) : ℕ := ev (n / 2)

theorem ev_double (n s : ℕ) (hs : s < 2) (hn : 2 * n + s < 2 ^ 31) : ev (2 * n + s) = 2 * ev (n / 2) + s := by
  have e : 2 * n + s = 4 * (n / 2) + (2 * (n % 2) + s) := by omega
  rw [e, ev_step _ _ (by omega) (by omega)]
  omega

theorem od_step (n r : ℕ) (hr : r < 4) (hn : 4 * n + r < 2 ^ 32) : od (4 * n + r) = 2 * od n + r / 2 := by
  unfold od
  have e : (4 * n + r) / 2 = 2 * n + r / 2 := by omega
  rw [e, ev_double _ _ (by omega) (by omega)]

theorem ev_pow (o n r : ℕ) (hr : r < 4 ^ o) (hn : n * 4 ^ o + r < 2 ^ 32) : ev (n * 4 ^ o + r) = 2 ^ o * ev n + ev r := by
  induction o generalizing r with
  | zero => simp at hr; subst hr; simp [ev_zero]
  | succ o ih =>
    have em : n * 4 ^ (o + 1) = 4 * (n * 4 ^ o) := by ring
    have e : n * 4 ^ (o + 1) + r = 4 * (n * 4 ^ o + r / 4) + r % 4 := by omega
    have hr4 : r / 4 < 4 ^ o := by rw [pow_succ] at hr; omega
    have er : r = 4 * (r / 4) + r % 4 := by omega
    have h1 := ev_step (n * 4 ^ o + r / 4) (r % 4) (by omega) (by omega)
    have h2 := ev_step (r / 4) (r % 4) (by omega) (by omega)
    rw [e, h1, ih _ hr4 (by omega)]
    rw [← er] at h2
    rw [h2, pow_succ]; ring

theorem od_pow (o n r : ℕ) (hr : r < 4 ^ o) (hn : n * 4 ^ o + r < 2 ^ 32) : od (n * 4 ^ o + r) = 2 ^ o * od n + od r := by
  induction o generalizing r with
  | zero => simp at hr; subst hr; simp [od, ev_zero]
  | succ o ih =>
    have em : n * 4 ^ (o + 1) = 4 * (n * 4 ^ o) := by ring
    have e : n * 4 ^ (o + 1) + r = 4 * (n * 4 ^ o + r / 4) + r % 4 := by omega
    have hr4 : r / 4 < 4 ^ o := by rw [pow_succ] at hr; omega
    have er : r = 4 * (r / 4) + r % 4 := by omega
    have h1 := od_step (n * 4 ^ o + r / 4) (r % 4) (by omega) (by omega)
    have h2 := od_step (r / 4) (r % 4) (by omega) (by omega)
    rw [e, h1, ih _ hr4 (by omega)]
    rw [← er] at h2
    rw [h2, pow_succ]; ring

theorem ev_lt (k n : ℕ) (hk : k ≤ 16) (hn : n < 4 ^ k) : ev n < 2 ^ k := by
  induction k generalizing n with
  | zero => simp at hn; subst hn; simp [ev_zero]
  | succ k ih =>
    have h4 : (4 : ℕ) ^ (k + 1) ≤ 4 ^ 16 := Nat.pow_le_pow_right (by norm_num) hk
    have h := ev_step (n / 4) (n % 4) (by omega) (by norm_num at h4 ⊢; omega)
    have e : 4 * (n / 4) + n % 4 = n := by omega
    rw [e] at h
    have := ih (n / 4) (by omega) (by rw [pow_succ] at hn; omega)
    rw [h, pow_succ]; omega

theorem od_lt (k n : ℕ) (hk : k ≤ 16) (hn : n < 4 ^ k) : od n < 2 ^ k := by
  induction k generalizing n with
  | zero => simp at hn; subst hn; simp [od, ev_zero]
  | succ k ih =>
    have h4 : (4 : ℕ) ^ (k + 1) ≤ 4 ^ 16 := Nat.pow_le_pow_right (by norm_num) hk
    have h := od_step (n / 4) (n % 4) (by omega) (by norm_num at h4 ⊢; omega)
    have e : 4 * (n / 4) + n % 4 = n := by omega
    rw [e] at h
    have := ih (n / 4) (by omega) (by rw [pow_succ] at hn; omega)
    rw [h, pow_succ]; omega

theorem evod_inj (k n m : ℕ) (hk : k ≤ 16) (hn : n < 4 ^ k) (hm : m < 4 ^ k) (h1 : ev n = ev m) (h2 : od n = od m) :
    n = m := by
  induction k generalizing n m with
  | zero => simp at hn hm; omega
  | succ k ih =>
    have h4 : (4 : ℕ) ^ (k + 1) ≤ 4 ^ 16 := Nat.pow_le_pow_right (by norm_num) hk
    have a1 := ev_step (n / 4) (n % 4) (by omega) (by norm_num at h4 ⊢; omega)
    have a2 := ev_step (m / 4) (m % 4) (by omega) (by norm_num at h4 ⊢; omega)
    have b1 := od_step (n / 4) (n % 4) (by omega) (by norm_num at h4 ⊢; omega)
    have b2 := od_step (m / 4) (m % 4) (by omega) (by norm_num at h4 ⊢; omega)
    have e : 4 * (n / 4) + n % 4 = n := by omega
    have e' : 4 * (m / 4) + m % 4 = m := by omega
    rw [e] at a1 b1
    rw [e'] at a2 b2
    rw [pow_succ] at hn hm
    have := ih (n / 4) (m / 4) (by omega) (by omega) (by omega) (by omega) (by omega)
    omega

theorem sum_four (N : ℕ) (g : ℕ → ℝ) :
    ∑ n ∈ range (4 * N), g n = ∑ m ∈ range N, (g (4 * m) + g (4 * m + 1) + g (4 * m + 2) + g (4 * m + 3)) := by
  induction N with
  | zero => simp
  | succ N ih =>
    rw [sum_range_succ, ← ih, show 4 * (N + 1) = 4 * N + 1 + 1 + 1 + 1 by ring, sum_range_succ, sum_range_succ,
      sum_range_succ, sum_range_succ]
    ring

theorem sum_two (N : ℕ) (g : ℕ → ℝ) : ∑ n ∈ range (2 * N), g n = ∑ m ∈ range N, (g (2 * m) + g (2 * m + 1)) := by
  induction N with
  | zero => simp
  | succ N ih =>
    rw [sum_range_succ, ← ih, show 2 * (N + 1) = 2 * N + 1 + 1 by ring, sum_range_succ, sum_range_succ]
    ring

theorem sum_evod (k : ℕ) (hk : k ≤ 16) (f : ℕ → ℕ → ℝ) :
    ∑ n ∈ range (4 ^ k), f (ev n) (od n) = ∑ a ∈ range (2 ^ k), ∑ b ∈ range (2 ^ k), f a b := by
  induction k generalizing f with
  | zero => simp [od, ev_zero]
  | succ k ih =>
    have h4 : (4 : ℕ) ^ (k + 1) ≤ 4 ^ 16 := Nat.pow_le_pow_right (by norm_num) hk
    rw [show (4 : ℕ) ^ (k + 1) = 4 * 4 ^ k by ring, sum_four]
    rw [show (2 : ℕ) ^ (k + 1) = 2 * 2 ^ k by ring, sum_two]
    simp only [sum_two]
    simp only [← sum_add_distrib]
    rw [← ih (by omega) (fun a b => (f (2 * a) (2 * b) + f (2 * a) (2 * b + 1)) + (f (2 * a + 1) (2 * b) + f (2 * a + 1) (2 * b + 1)))]
    apply sum_congr rfl
    intro m hm
    have hm' : m < 4 ^ k := by simpa using hm
    have hb : ∀ r, r < 4 → 4 * m + r < 2 ^ 32 := by
      intro r hr; rw [pow_succ] at h4; norm_num at h4 ⊢; omega
    have a0 := ev_step m 0 (by omega) (hb 0 (by omega))
    have a1 := ev_step m 1 (by omega) (hb 1 (by omega))
    have a2 := ev_step m 2 (by omega) (hb 2 (by omega))
    have a3 := ev_step m 3 (by omega) (hb 3 (by omega))
    have b0 := od_step m 0 (by omega) (hb 0 (by omega))
    have b1 := od_step m 1 (by omega) (hb 1 (by omega))
    have b2 := od_step m 2 (by omega) (hb 2 (by omega))
    have b3 := od_step m 3 (by omega) (hb 3 (by omega))
    norm_num at a0 a1 a2 a3 b0 b1 b2 b3
    rw [a0, a1, a2, a3, b0, b1, b2, b3]
    ring

theorem healNside_eq (k : ℕ) : healNside (12 * 4 ^ k) = 2 ^ k := by
  unfold healNside
  rw [Nat.mul_div_cancel_left _ (by norm_num), show (4 : ℕ) ^ k = 2 ^ k * 2 ^ k by rw [← mul_pow]; norm_num]
  exact Nat.sqrt_eq _

theorem healPix_eq (k idx : ℕ) (hk : k ≤ 16) :
    healPix (2 ^ k) idx = (idx / 4 ^ k, ev (idx % 4 ^ k), od (idx % 4 ^ k)) := by
  have e : (2 : ℕ) ^ k * 2 ^ k = 4 ^ k := by rw [← mul_pow]; norm_num
  have e2 : (4 : ℕ) ^ k = 2 ^ (2 * k) := by rw [pow_mul]; norm_num
  have h4 : (4 : ℕ) ^ k ≤ 4 ^ 16 := Nat.pow_le_pow_right (by norm_num) hk
  have hm : idx % 4 ^ k < 4 ^ k := Nat.mod_lt _ (by positivity)
  have ha : idx &&& (4 ^ k - 1) = idx % 4 ^ k := by rw [e2]; exact Nat.and_two_pow_sub_one_eq_mod _ _
  have hsh : (BitVec.ofNat 32 (idx % 4 ^ k)) >>> 1 = BitVec.ofNat 32 (idx % 4 ^ k / 2) := by
    apply BitVec.eq_of_toNat_eq
    rw [BitVec.toNat_ushiftRight, BitVec.toNat_ofNat, BitVec.toNat_ofNat, Nat.shiftRight_one]
    norm_num at h4 ⊢
    omega
  simp only [healPix, e, ha, hsh, ev, od]

theorem sum_blocks (F N : ℕ) (g : ℕ → ℝ) :
    ∑ n ∈ range (F * N), g n = ∑ f ∈ range F, ∑ p ∈ range N, g (f * N + p) := by
  induction F with
  | zero => simp
  | succ F ih => rw [Nat.succ_mul, sum_range_add, ih, sum_range_succ]

/-- A sum over the HEALPix indices is a sum over faces and pixels. -/
theorem sum_heal (k : ℕ) (hk : k ≤ 16) (F : ℕ → ℕ → ℕ → ℝ) :
    ∑ idx ∈ range (12 * 4 ^ k), F (healPix (2 ^ k) idx).1 (healPix (2 ^ k) idx).2.1 (healPix (2 ^ k) idx).2.2 =
      ∑ f ∈ range 12, ∑ a ∈ range (2 ^ k), ∑ b ∈ range (2 ^ k), F f a b := by
  rw [sum_blocks]
  apply sum_congr rfl
  intro f _
  rw [← sum_evod k hk (F f)]
  apply sum_congr rfl
  intro p hp
  have hp' : p < 4 ^ k := by simpa using hp
  rw [healPix_eq k _ hk]
  have h1 : (f * 4 ^ k + p) / 4 ^ k = f := by
    rw [Nat.add_comm, Nat.add_mul_div_right _ _ (by positivity), Nat.div_eq_of_lt hp', zero_add]
  have h2 : (f * 4 ^ k + p) % 4 ^ k = p := by
    rw [Nat.add_comm, Nat.add_mul_mod_self_right, Nat.mod_eq_of_lt hp']
  simp only [h1, h2]

theorem jpll_eq (face : ℕ) (h : face < 12) :
    jpll face = 2 * (face % 4) + (if face / 4 = 1 then 0 else 1) := by
  interval_cases face <;> decide

/-! ### The direction of a point of a face -/

theorem face_r (face : ℕ) (h : face < 12) : (1 - ((face / 4 : ℕ) : ℝ) = 1 ∧ face / 4 = 0) ∨
    (1 - ((face / 4 : ℕ) : ℝ) = 0 ∧ face / 4 = 1) ∨ (1 - ((face / 4 : ℕ) : ℝ) = -1 ∧ face / 4 = 2) := by
  interval_cases face <;> norm_num

/-- Height and azimuth (in units of pi/4, before the rotation) of a point of a face. -/
theorem healDir_form (face : ℕ) (h : face < 12) (x y : ℝ) (hx : 0 < x) (hx1 : x < 1) (hy : 0 < y) (hy1 : y < 1) :
    ∃ z t : ℝ, ∃ s, healDir face x y = ![Real.cos (Real.pi / 4 * t + 1 / 100) * s, Real.sin (Real.pi / 4 * t + 1 / 100) * s, z] ∧
      0 < s ∧ s ^ 2 = 1 - z ^ 2 ∧
      ((face / 4 = 0 ∧ 1 < x + y ∧ z = 1 - (2 - (x + y)) ^ 2 / 3 ∧ t = jpll face + (x - y) / (2 - (x + y))) ∨
       (face / 4 = 0 ∧ x + y ≤ 1 ∧ z = (x + y) * (2 / 3) ∧ t = jpll face + (x - y)) ∨
       (face / 4 = 1 ∧ z = (x + y - 1) * (2 / 3) ∧ t = jpll face + (x - y)) ∨
       (face / 4 = 2 ∧ 1 ≤ x + y ∧ z = (x + y - 2) * (2 / 3) ∧ t = jpll face + (x - y)) ∨
       (face / 4 = 2 ∧ x + y < 1 ∧ z = - (1 - (x + y) ^ 2 / 3) ∧ t = jpll face + (x - y) / (x + y))) := by
  have cap : ∀ m : ℝ, 0 < m → m < 1 → 0 < m ^ 2 * (1 / 3) * (2 - m ^ 2 * (1 / 3)) := by
    intro m h0 h1
    have : m ^ 2 < 1 := by nlinarith
    have h2 : 0 < m ^ 2 := by positivity
    apply mul_pos <;> nlinarith
  have eq : ∀ z : ℝ, -1 < z → z < 1 → 0 < (1 + z) * (1 - z) := by
    intro z h0 h1; apply mul_pos <;> linarith
  rcases face_r face h with ⟨hr, hf⟩ | ⟨hr, hf⟩ | ⟨hr, hf⟩
  · by_cases hm : 1 < x + y
    · have hm' : (2 - 1 * (1 - 1 + (x + y)) : ℝ) < 1 := by linarith
      have hp := cap (2 - 1 * (1 - 1 + (x + y))) (by linarith) hm'
      refine ⟨_, _, _, ?_, Real.sqrt_pos.2 hp, ?_, Or.inl ⟨hf, hm, rfl, rfl⟩⟩
      · simp only [healDir, hr, if_pos hm']
        congr 1
        · congr 2; ring_nf
        · congr 1
          · congr 2; ring_nf
          · congr 1; ring
      · rw [Real.sq_sqrt hp.le]; ring
    · have hm' : ¬ (2 - 1 * (1 - 1 + (x + y)) : ℝ) < 1 := by push Not; linarith
      have hp := eq ((1 - 1 + (x + y)) * (2 / 3)) (by nlinarith) (by nlinarith)
      refine ⟨_, _, _, ?_, Real.sqrt_pos.2 hp, ?_, Or.inr (Or.inl ⟨hf, not_lt.1 hm, rfl, rfl⟩)⟩
      · simp only [healDir, hr, if_neg hm']
        congr 1
        · congr 2; ring_nf
        · congr 1
          · congr 2; ring_nf
          · congr 1; ring
      · rw [Real.sq_sqrt hp.le]; ring
  · have hm' : ¬ (2 - 0 * (0 - 1 + (x + y)) : ℝ) < 1 := by norm_num
    have hp := eq ((0 - 1 + (x + y)) * (2 / 3)) (by nlinarith) (by nlinarith)
    refine ⟨_, _, _, ?_, Real.sqrt_pos.2 hp, ?_, Or.inr (Or.inr (Or.inl ⟨hf, rfl, rfl⟩))⟩
    · simp only [healDir, hr, if_neg hm']
      congr 1
      · congr 2; ring_nf
      · congr 1
        · congr 2; ring_nf
        · congr 1; ring
    · rw [Real.sq_sqrt hp.le]; ring
  · by_cases hm : x + y < 1
    · have hm' : (2 - (-1) * (-1 - 1 + (x + y)) : ℝ) < 1 := by linarith
      have hp := cap (2 - (-1) * (-1 - 1 + (x + y))) (by linarith) hm'
      refine ⟨_, _, _, ?_, Real.sqrt_pos.2 hp, ?_, Or.inr (Or.inr (Or.inr (Or.inr ⟨hf, hm, rfl, rfl⟩)))⟩
      · simp only [healDir, hr, if_pos hm']
        congr 1
        · congr 2; ring_nf
        · congr 1
          · congr 2; ring_nf
          · congr 1; ring
      · rw [Real.sq_sqrt hp.le]; ring
    · have hm' : ¬ (2 - (-1) * (-1 - 1 + (x + y)) : ℝ) < 1 := by push Not; linarith
      have hp := eq ((-1 - 1 + (x + y)) * (2 / 3)) (by nlinarith) (by nlinarith)
      refine ⟨_, _, _, ?_, Real.sqrt_pos.2 hp, ?_, Or.inr (Or.inr (Or.inr (Or.inl ⟨hf, not_lt.1 hm, rfl, rfl⟩)))⟩
      · simp only [healDir, hr, if_neg hm']
        congr 1
        · congr 2; ring_nf
        · congr 1
          · congr 2; ring_nf
          · congr 1; ring
      · rw [Real.sq_sqrt hp.le]; ring

theorem healDir_rot (g : ℕ) (hg : g < 3) (x y : ℝ) : ∃ phi s z : ℝ, ∀ j : ℕ, j < 4 →
    healDir (4 * g + j) x y = ![Real.cos (phi + j * (Real.pi / 2)) * s, Real.sin (phi + j * (Real.pi / 2)) * s, z] := by
  have hd : ∀ j, j < 4 → (4 * g + j) / 4 = g := by intro j hj; omega
  have hj : ∀ j, j < 4 → (jpll (4 * g + j) : ℝ) = jpll (4 * g) + 2 * j := by
    intro j hj
    rw [jpll_eq _ (by omega), jpll_eq _ (by omega), hd j hj, show 4 * g / 4 = g by omega,
      show (4 * g + j) % 4 = j by omega, show 4 * g % 4 = 0 by omega]
    push_cast; split <;> ring
  set r : ℝ := 1 - (g : ℝ) with hr
  set h : ℝ := r - 1 + (x + y)
  set m : ℝ := 2 - r * h with hm
  by_cases hc : m < 1
  · refine ⟨(1 / 4 * Real.pi) * (jpll (4 * g) + (x - y) / m) + 1 / 100, Real.sqrt (m ^ 2 * (1 / 3) * (2 - m ^ 2 * (1 / 3))), r * (1 - m ^ 2 * (1 / 3)), ?_⟩
    · intro j hj'
      simp only [healDir, hd j hj']
      rw [show (2 - (1 - (g : ℝ)) * ((1 - (g : ℝ)) - 1 + (x + y))) = m from rfl, if_pos hc, if_pos hc, if_pos hc, hj j hj']
      congr 1
      · congr 2; ring
      · congr 1
        congr 2; ring
  · refine ⟨(1 / 4 * Real.pi) * (jpll (4 * g) + (x - y)) + 1 / 100, Real.sqrt ((1 + h * (2 / 3)) * (1 - h * (2 / 3))), h * (2 / 3), ?_⟩
    · intro j hj'
      simp only [healDir, hd j hj']
      rw [show (2 - (1 - (g : ℝ)) * ((1 - (g : ℝ)) - 1 + (x + y))) = m from rfl, if_neg hc, if_neg hc, if_neg hc, hj j hj']
      congr 1
      · congr 2; ring
      · congr 1
        congr 2; ring

theorem healZ_flip (f f' : ℕ) (hf : f < 12) (hf' : f' / 4 + f / 4 = 2) (x y : ℝ) :
    healDir f' (1 - x) (1 - y) 2 = - healDir f x y 2 := by
  have e : ((f' / 4 : ℕ) : ℝ) = 2 - ((f / 4 : ℕ) : ℝ) := by
    have : ((f' / 4 : ℕ) : ℝ) + ((f / 4 : ℕ) : ℝ) = 2 := by exact_mod_cast hf'
    linarith
  have key : ∀ face (x y : ℝ), healDir face x y 2 =
      if 2 - (1 - ((face / 4 : ℕ) : ℝ)) * ((1 - ((face / 4 : ℕ) : ℝ)) - 1 + (x + y)) < 1 then
        (1 - ((face / 4 : ℕ) : ℝ)) * (1 - (2 - (1 - ((face / 4 : ℕ) : ℝ)) * ((1 - ((face / 4 : ℕ) : ℝ)) - 1 + (x + y))) ^ 2 * (1 / 3))
      else ((1 - ((face / 4 : ℕ) : ℝ)) - 1 + (x + y)) * (2 / 3) := by
    intro face x y; rfl
  rw [key, key, e]
  have hq : ((f / 4 : ℕ) : ℝ) = 0 ∨ ((f / 4 : ℕ) : ℝ) = 1 ∨ ((f / 4 : ℕ) : ℝ) = 2 := by
    rcases face_r f hf with ⟨_, h⟩ | ⟨_, h⟩ | ⟨_, h⟩ <;> rw [h] <;> norm_num
  clear e key
  generalize ((f / 4 : ℕ) : ℝ) = q at *
  rcases hq with rfl | rfl | rfl
  · by_cases hc : x + y > 1
    · rw [if_pos (by linarith), if_pos (by linarith)]; ring
    · rw [if_neg (by linarith), if_neg (by linarith)]; ring
  · rw [if_neg (by linarith), if_neg (by linarith)]; ring
  · by_cases hc : x + y < 1
    · rw [if_pos (by linarith), if_pos (by linarith)]; ring
    · rw [if_neg (by linarith), if_neg (by linarith)]; ring

set_option maxHeartbeats 1000000 in
/-- Equal directions come from the same point of the same face. -/
theorem healDir_inj (f f' : ℕ) (hf : f < 12) (hf' : f' < 12) (x y x' y' : ℝ) (hx : 0 < x) (hx1 : x < 1) (hy : 0 < y)
    (hy1 : y < 1) (hx' : 0 < x') (hx1' : x' < 1) (hy' : 0 < y') (hy1' : y' < 1)
    (h : healDir f x y = healDir f' x' y') : f = f' ∧ x = x' ∧ y = y' := by
  obtain ⟨z, t, s, e, hs, hsz, hc⟩ := healDir_form f hf x y hx hx1 hy hy1
  obtain ⟨z', t', s', e', hs', hsz', hc'⟩ := healDir_form f' hf' x' y' hx' hx1' hy' hy1'
  rw [e, e'] at h
  have h2 : z = z' := congrFun h 2
  have h0 : Real.cos (Real.pi / 4 * t + 1 / 100) * s = Real.cos (Real.pi / 4 * t' + 1 / 100) * s' := congrFun h 0
  have h1 : Real.sin (Real.pi / 4 * t + 1 / 100) * s = Real.sin (Real.pi / 4 * t' + 1 / 100) * s' := congrFun h 1
  subst h2
  have sqe : ∀ {a b : ℝ}, 0 < a → 0 < b → a ^ 2 = b ^ 2 → a = b := fun ha hb h => (sq_eq_sq₀ ha.le hb.le).1 h
  have hss : s = s' := sqe hs hs' (by rw [hsz, hsz'])
  subst hss
  have hco := mul_right_cancel₀ hs.ne' h0
  have hsi := mul_right_cancel₀ hs.ne' h1
  -- the azimuths agree modulo 8
  have hcos1 : Real.cos ((Real.pi / 4 * t + 1 / 100) - (Real.pi / 4 * t' + 1 / 100)) = 1 := by
    rw [Real.cos_sub, hco, hsi]; nlinarith [Real.sin_sq_add_cos_sq (Real.pi / 4 * t' + 1 / 100)]
  obtain ⟨n, hn⟩ := (Real.cos_eq_one_iff _).1 hcos1
  have htt : t - t' = 8 * n := by
    have hpi := Real.pi_ne_zero
    apply mul_left_cancel₀ (by positivity : Real.pi / 4 ≠ 0)
    linear_combination -hn
  have j1 := jpll_eq f hf
  have j2 := jpll_eq f' hf'
  have hjb : jpll f < 8 := by rw [j1]; split <;> omega
  have hjb' : jpll f' < 8 := by rw [j2]; split <;> omega
  -- |q| < 1 in all cases
  have finish : ∀ q q' : ℝ, t = jpll f + q → t' = jpll f' + q' → |q| < 1 → |q'| < 1 → f / 4 = f' / 4 →
      f = f' ∧ q = q' := by
    intro q q' ht ht' hq hq' hff
    rw [abs_lt] at hq hq'
    have hd : (jpll f : ℝ) - jpll f' - 8 * n = q' - q := by linarith
    have hi : -2 < (jpll f : ℤ) - jpll f' - 8 * n ∧ (jpll f : ℤ) - jpll f' - 8 * n < 2 := by
      constructor
      · have : (-2 : ℝ) < (jpll f : ℝ) - jpll f' - 8 * n := by linarith
        exact_mod_cast this
      · have : (jpll f : ℝ) - jpll f' - 8 * n < 2 := by linarith
        exact_mod_cast this
    rw [← hff] at j2
    have hpar : (jpll f : ℤ) - jpll f' - 8 * n = 0 := by
      rw [j1, j2] at *; split at * <;> push_cast at * <;> omega
    have hjj : jpll f = jpll f' := by omega
    have : f = f' := by rw [j1, j2] at hjj; split at hjj <;> omega
    refine ⟨this, ?_⟩
    have hn0 : (n : ℝ) = 0 := by
      have : n = 0 := by omega
      rw [this]; norm_num
    rw [hjj, hn0] at hd; linarith
  have clash : ∀ q q' : ℝ, t = jpll f + q → t' = jpll f' + q' → |q| + |q'| < 1 →
      (f / 4 = 1 ∧ f' / 4 ≠ 1 ∨ f / 4 ≠ 1 ∧ f' / 4 = 1) → False := by
    intro q q' ht ht' hq hff
    have hd : (jpll f : ℝ) - jpll f' - 8 * n = q' - q := by linarith
    have a1 := abs_le.1 (le_refl |q|)
    have a2 := abs_le.1 (le_refl |q'|)
    have hi : -1 < (jpll f : ℤ) - jpll f' - 8 * n ∧ (jpll f : ℤ) - jpll f' - 8 * n < 1 := by
      constructor
      · have : (-1 : ℝ) < (jpll f : ℝ) - jpll f' - 8 * n := by linarith
        exact_mod_cast this
      · have : (jpll f : ℝ) - jpll f' - 8 * n < 1 := by linarith
        exact_mod_cast this
    rcases hff with ⟨h1, h2⟩ | ⟨h1, h2⟩
    · rw [if_pos h1] at j1; rw [if_neg h2] at j2; omega
    · rw [if_neg h1] at j1; rw [if_pos h2] at j2; omega
  have ab : ∀ {a b : ℝ}, -b < a → a < b → |a| < b := fun h1 h2 => abs_lt.2 ⟨h1, h2⟩
  have dv : ∀ {a b : ℝ}, 0 < b → |a| < b → |a / b| < 1 := by
    intro a b hb h; rw [abs_div, abs_of_pos hb, div_lt_one hb]; exact h
  have c1 : ∀ {x y : ℝ}, 1 < x + y → x < 1 → y < 1 → 2 / 3 < 1 - (2 - (x + y)) ^ 2 / 3 := by
    intro x y h1 h2 h3; nlinarith
  have c5 : ∀ {x y : ℝ}, x + y < 1 → 0 < x → 0 < y → - (1 - (x + y) ^ 2 / 3) < - (2 / 3) := by
    intro x y h1 h2 h3; nlinarith
  clear e e' h h0 h1 hsz hsz' hco hsi hcos1 hn htt
  rcases hc with ⟨g, m, hz, ht⟩ | ⟨g, m, hz, ht⟩ | ⟨g, hz, ht⟩ | ⟨g, m, hz, ht⟩ | ⟨g, m, hz, ht⟩ <;>
    rcases hc' with ⟨g', m', hz', ht'⟩ | ⟨g', m', hz', ht'⟩ | ⟨g', hz', ht'⟩ | ⟨g', m', hz', ht'⟩ | ⟨g', m', hz', ht'⟩
  -- cap with cap
  · have hm : x + y = x' + y' := by linarith [sqe (by linarith : 0 < 2 - (x + y)) (by linarith : 0 < 2 - (x' + y')) (by linarith)]
    have hq := finish _ _ ht ht' (dv (by linarith) (ab (by linarith) (by linarith)))
      (dv (by linarith) (ab (by linarith) (by linarith))) (by omega)
    rw [hm] at hq
    have := (div_left_inj' (by linarith : (2 - (x' + y')) ≠ 0)).1 hq.2
    exact ⟨hq.1, by linarith, by linarith⟩
  · exfalso; first | linarith [c1 m hx1 hy1] | linarith [c1 m' hx1' hy1'] | linarith [c5 m hx hy] | linarith [c5 m' hx' hy'] | linarith [c1 m hx1 hy1, c5 m' hx' hy'] | linarith [c5 m hx hy, c1 m' hx1' hy1']
  · exfalso; first | linarith [c1 m hx1 hy1] | linarith [c1 m' hx1' hy1'] | linarith [c5 m hx hy] | linarith [c5 m' hx' hy'] | linarith [c1 m hx1 hy1, c5 m' hx' hy'] | linarith [c5 m hx hy, c1 m' hx1' hy1']
  · exfalso; first | linarith [c1 m hx1 hy1] | linarith [c1 m' hx1' hy1'] | linarith [c5 m hx hy] | linarith [c5 m' hx' hy'] | linarith [c1 m hx1 hy1, c5 m' hx' hy'] | linarith [c5 m hx hy, c1 m' hx1' hy1']
  · exfalso; first | linarith [c1 m hx1 hy1] | linarith [c1 m' hx1' hy1'] | linarith [c5 m hx hy] | linarith [c5 m' hx' hy'] | linarith [c1 m hx1 hy1, c5 m' hx' hy'] | linarith [c5 m hx hy, c1 m' hx1' hy1']
  · exfalso; first | linarith [c1 m hx1 hy1] | linarith [c1 m' hx1' hy1'] | linarith [c5 m hx hy] | linarith [c5 m' hx' hy'] | linarith [c1 m hx1 hy1, c5 m' hx' hy'] | linarith [c5 m hx hy, c1 m' hx1' hy1']
  · have hq := finish _ _ ht ht' (ab (by linarith) (by linarith)) (ab (by linarith) (by linarith)) (by omega)
    exact ⟨hq.1, by linarith, by linarith⟩
  · exfalso
    have e1 : |x - y| < x + y := ab (by linarith) (by linarith)
    have e2 : |x' - y'| < 1 - (x + y) := ab (by linarith) (by linarith)
    exact clash _ _ ht ht' (by linarith) (Or.inr ⟨by omega, g'⟩)
  · exfalso; linarith
  · exfalso; first | linarith [c1 m hx1 hy1] | linarith [c1 m' hx1' hy1'] | linarith [c5 m hx hy] | linarith [c5 m' hx' hy'] | linarith [c1 m hx1 hy1, c5 m' hx' hy'] | linarith [c5 m hx hy, c1 m' hx1' hy1']
  · exfalso; first | linarith [c1 m hx1 hy1] | linarith [c1 m' hx1' hy1'] | linarith [c5 m hx hy] | linarith [c5 m' hx' hy'] | linarith [c1 m hx1 hy1, c5 m' hx' hy'] | linarith [c5 m hx hy, c1 m' hx1' hy1']
  · exfalso
    have e1 : |x' - y'| < x' + y' := ab (by linarith) (by linarith)
    have e2 : |x - y| < 1 - (x' + y') := ab (by linarith) (by linarith)
    exact clash _ _ ht ht' (by linarith) (Or.inl ⟨g, by omega⟩)
  · have hq := finish _ _ ht ht' (ab (by linarith) (by linarith)) (ab (by linarith) (by linarith)) (by omega)
    exact ⟨hq.1, by linarith, by linarith⟩
  · exfalso
    have e1 : |x' - y'| < 2 - (x' + y') := ab (by linarith) (by linarith)
    have e2 : |x - y| < x + y := ab (by linarith) (by linarith)
    exact clash _ _ ht ht' (by linarith) (Or.inl ⟨g, by omega⟩)
  · exfalso; first | linarith [c1 m hx1 hy1] | linarith [c1 m' hx1' hy1'] | linarith [c5 m hx hy] | linarith [c5 m' hx' hy'] | linarith [c1 m hx1 hy1, c5 m' hx' hy'] | linarith [c5 m hx hy, c1 m' hx1' hy1']
  · exfalso; first | linarith [c1 m hx1 hy1] | linarith [c1 m' hx1' hy1'] | linarith [c5 m hx hy] | linarith [c5 m' hx' hy'] | linarith [c1 m hx1 hy1, c5 m' hx' hy'] | linarith [c5 m hx hy, c1 m' hx1' hy1']
  · exfalso; linarith
  · exfalso
    have e1 : |x - y| < 2 - (x + y) := ab (by linarith) (by linarith)
    have e2 : |x' - y'| < x' + y' := ab (by linarith) (by linarith)
    exact clash _ _ ht ht' (by linarith) (Or.inr ⟨by omega, g'⟩)
  · have hq := finish _ _ ht ht' (ab (by linarith) (by linarith)) (ab (by linarith) (by linarith)) (by omega)
    exact ⟨hq.1, by linarith, by linarith⟩
  · exfalso; first | linarith [c1 m hx1 hy1] | linarith [c1 m' hx1' hy1'] | linarith [c5 m hx hy] | linarith [c5 m' hx' hy'] | linarith [c1 m hx1 hy1, c5 m' hx' hy'] | linarith [c5 m hx hy, c1 m' hx1' hy1']
  · exfalso; first | linarith [c1 m hx1 hy1] | linarith [c1 m' hx1' hy1'] | linarith [c5 m hx hy] | linarith [c5 m' hx' hy'] | linarith [c1 m hx1 hy1, c5 m' hx' hy'] | linarith [c5 m hx hy, c1 m' hx1' hy1']
  · exfalso; first | linarith [c1 m hx1 hy1] | linarith [c1 m' hx1' hy1'] | linarith [c5 m hx hy] | linarith [c5 m' hx' hy'] | linarith [c1 m hx1 hy1, c5 m' hx' hy'] | linarith [c5 m hx hy, c1 m' hx1' hy1']
  · exfalso; first | linarith [c1 m hx1 hy1] | linarith [c1 m' hx1' hy1'] | linarith [c5 m hx hy] | linarith [c5 m' hx' hy'] | linarith [c1 m hx1 hy1, c5 m' hx' hy'] | linarith [c5 m hx hy, c1 m' hx1' hy1']
  · exfalso; first | linarith [c1 m hx1 hy1] | linarith [c1 m' hx1' hy1'] | linarith [c5 m hx hy] | linarith [c5 m' hx' hy'] | linarith [c1 m hx1 hy1, c5 m' hx' hy'] | linarith [c5 m hx hy, c1 m' hx1' hy1']
  · have hm : x + y = x' + y' := sqe (by linarith) (by linarith) (by linarith)
    have hq := finish _ _ ht ht' (dv (by linarith) (ab (by linarith) (by linarith)))
      (dv (by linarith) (ab (by linarith) (by linarith))) (by omega)
    rw [hm] at hq
    have := (div_left_inj' (by linarith : (x' + y') ≠ 0)).1 hq.2
    exact ⟨hq.1, by linarith, by linarith⟩

end DexRT.Dir
