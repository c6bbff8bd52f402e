import Verif.Props.World
import Verif.Props.FormalSol3
/-!
Lemmas for C79, 3D.
-/
namespace DexRT.Fs
open DexRT DexRT.Dir Classical

theorem ray3_of (e : Env3 ℝ) (hr : 0 < e.cfg.c0az ∧ 0 < e.cfg.c0polar) (hp : Probes3Ok e) (t : Nat) (ht : t < subsetTasks3 e.cfg)
    (p : ProbeIdx3) (h1 : Listed3 e 0 p.u p.v p.w) (h3 : InPass3 e.cfg (cascadeComputeSize3 e.cfg e.c0 0) t p) : Ray3 e 0 p := by
  obtain ⟨l1, l2, l3⟩ := listed3_lt hp (Nat.zero_le _) h1
  obtain ⟨-, -, a, b⟩ := pass3_range e hr h3 ht
  exact ⟨l1, l2, l3, a, b⟩

theorem compute_az (c : RcCfg3) (c0 : Casc3) (n : Nat) :
    (cascadeComputeSize3 c c0 (n + 1)).az = (cascadeComputeSize3 c c0 n).az * (upperTexels3 c.branch).1 ∧
    (cascadeComputeSize3 c c0 (n + 1)).polar = (cascadeComputeSize3 c c0 n).polar * (upperTexels3 c.branch).2 := by
  unfold cascadeComputeSize3
  simp only [azFactor_succ, polarFactor_succ]
  constructor <;> split <;> ring

theorem split_lt {a b i A : Nat} (h : a < A) (hi : i < b) : a * b + i < A * b := by
  calc a * b + i < (a + 1) * b := by rw [Nat.add_mul]; omega
    _ ≤ _ := Nat.mul_le_mul_right _ h

theorem ray3_child (e : Env3 ℝ) (n : Nat) (p : ProbeIdx3) (U W X i j : Nat) (h : Ray3 e n p)
    (hU : U < probesOn e.c0.np0 (n + 1)) (hW : W < probesOn e.c0.np1 (n + 1)) (hX : X < probesOn e.c0.np2 (n + 1))
    (hi : i < (upperTexels3 e.cfg.branch).2) (hj : j < (upperTexels3 e.cfg.branch).1) :
    Ray3 e (n + 1) { u := U, v := W, w := X, polar := p.polar * (upperTexels3 e.cfg.branch).2 + i,
                     az := p.az * (upperTexels3 e.cfg.branch).1 + j } := by
  obtain ⟨e1, e2⟩ := compute_az e.cfg e.c0 n
  refine ⟨hU, hW, hX, ?_, ?_⟩
  · rw [e1]; exact split_lt h.az hj
  · rw [e2]; exact split_lt h.polar hi

/-- which directions go up -/
theorem up_iff (k idx : ℕ) (hk : k ≤ 16) (hi : idx < 12 * 4 ^ k) : 0 < rayDir3 (12 * 4 ^ k) idx 2 ↔
    idx / 4 ^ k / 4 = 0 ∨ (idx / 4 ^ k / 4 = 1 ∧ 1 < pixPos (2 ^ k) (ev (idx % 4 ^ k)) + pixPos (2 ^ k) (od (idx % 4 ^ k))) := by
  obtain ⟨hf, ⟨hx, hx1⟩, ⟨hy, hy1⟩⟩ := pix_bounds k idx hk hi
  rw [rayDir3_eq k idx hk]
  obtain ⟨z, t, s, e, hs, hsz, hc⟩ := healDir_form _ hf _ _ hx hx1 hy hy1
  rw [e]
  show 0 < z ↔ _
  generalize pixPos (2 ^ k) (ev (idx % 4 ^ k)) = x at *
  generalize pixPos (2 ^ k) (od (idx % 4 ^ k)) = y at *
  rcases hc with ⟨f, a, b, -⟩ | ⟨f, a, b, -⟩ | ⟨f, b, -⟩ | ⟨f, a, b, -⟩ | ⟨f, a, b, -⟩ <;> rw [f, b]
  · refine ⟨fun _ => Or.inl rfl, fun _ => ?_⟩
    have : (2 - (x + y)) ^ 2 ≤ 1 := by nlinarith
    linarith
  · refine ⟨fun _ => Or.inl rfl, fun _ => ?_⟩
    have : 0 < x + y := by linarith
    linarith
  · constructor
    · intro h; right; exact ⟨rfl, by linarith⟩
    · rintro (h | ⟨-, h⟩)
      · simp at h
      · linarith
  · constructor
    · intro h; linarith
    · rintro (h | ⟨h, -⟩) <;> simp at h
  · constructor
    · intro h
      have : (x + y) ^ 2 ≤ 1 := by nlinarith
      linarith
    · rintro (h | ⟨h, -⟩) <;> simp at h

/-- the directions into which an upgoing direction splits go up -/
theorem up_child (k o idx r : ℕ) (hk : k + o ≤ 15) (hi : idx < 12 * 4 ^ k) (hr : r < 4 ^ o)
    (h : 0 < rayDir3 (12 * 4 ^ k) idx 2) : 0 < rayDir3 (12 * 4 ^ (k + o)) (idx * 4 ^ o + r) 2 := by
  have h4o : 0 < 4 ^ o := by positivity
  have hi' : idx * 4 ^ o + r < 12 * 4 ^ (k + o) := by
    rw [pow_add, ← Nat.mul_assoc]; exact split_lt hi hr
  rw [up_iff k idx (by omega) hi] at h
  rw [up_iff (k + o) _ (by omega) hi']
  have hm : idx % 4 ^ k < 4 ^ k := Nat.mod_lt _ (by positivity)
  have e1 : (idx * 4 ^ o + r) / 4 ^ (k + o) = idx / 4 ^ k := by
    rw [pow_add, Nat.mul_comm (4 ^ k), ← Nat.div_div_eq_div_mul, Nat.add_comm, Nat.add_mul_div_right _ _ h4o,
      Nat.div_eq_of_lt hr, zero_add]
  have e2 : (idx * 4 ^ o + r) % 4 ^ (k + o) = idx % 4 ^ k * 4 ^ o + r := by
    have h1 := Nat.div_add_mod (idx * 4 ^ o + r) (4 ^ (k + o))
    rw [e1] at h1
    have h2 := Nat.div_add_mod idx (4 ^ k)
    have h3 : idx * 4 ^ o = 4 ^ (k + o) * (idx / 4 ^ k) + idx % 4 ^ k * 4 ^ o := by
      conv_lhs => rw [← h2]
      rw [pow_add]; ring
    omega
  have hb : 4 ^ (k + o) ≤ 4 ^ 15 := Nat.pow_le_pow_right (by norm_num) hk
  have hlt : idx % 4 ^ k * 4 ^ o + r < 2 ^ 32 := by
    have : idx % 4 ^ k * 4 ^ o + r < 4 ^ k * 4 ^ o := by nlinarith
    rw [pow_add] at hb
    norm_num at hb ⊢
    omega
  rw [e1, e2, ev_pow o _ r hr hlt, od_pow o _ r hr hlt]
  refine h.imp_right fun ⟨h1, h2⟩ => ⟨h1, ?_⟩
  generalize ev (idx % 4 ^ k) = a at *
  generalize od (idx % 4 ^ k) = b at *
  -- the sum of the integer coordinates is at least nside
  have hp : (0 : ℝ) < 2 ^ k := by positivity
  have h3 : (2 ^ k : ℝ) ≤ a + b := by
    unfold pixPos at h2
    push_cast at h2
    rw [← add_div, lt_div_iff₀ hp] at h2
    have : (2 ^ k : ℝ) < (a + b + 1 : ℕ) := by push_cast; linarith
    have : 2 ^ k < a + b + 1 := by exact_mod_cast this
    exact_mod_cast Nat.lt_succ_iff.1 this
  have hpo : (0 : ℝ) < 2 ^ (k + o) := by positivity
  unfold pixPos
  push_cast
  rw [← add_div, lt_div_iff₀ hpo, pow_add]
  have : (0 : ℝ) < 2 ^ o := by positivity
  have := mul_le_mul_of_nonneg_left h3 this.le
  have h5 : (0 : ℝ) ≤ (ev r : ℝ) := Nat.cast_nonneg _
  have h6 : (0 : ℝ) ≤ (od r : ℝ) := Nat.cast_nonneg _
  nlinarith

/-- the direction sets of the cascades -/
theorem npix_eq (e : Env3 ℝ) (o k : Nat) (hb : e.cfg.branch = .healpix o) (hk : npix3 e 0 = 12 * 4 ^ k) (n : Nat) :
    npix3 e n = 12 * 4 ^ (k + o * n) := by
  induction n with
  | zero => simpa using hk
  | succ n ih =>
    unfold npix3 at *
    rw [(compute_az e.cfg e.c0 n).1, ih, hb]
    show 12 * 4 ^ (k + o * n) * 2 ^ (2 * o) = _
    rw [pow_mul 2 2 o, show (2 ^ 2 : ℕ) = 4 from rfl, Nat.mul_assoc, ← pow_add]
    congr 2
    ring

end DexRT.Fs
