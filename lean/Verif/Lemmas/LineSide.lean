import Verif.Lemmas.LineClip
import Mathlib.Data.List.Sort
/-! Lemmas about the search for lines on both sides of the base line. -/
namespace DexRT.LineSweep
open DexRT

/-- The other axis. -/
def other (p : Fin 2) : Fin 2 := 1 - p

theorem other_ne (p : Fin 2) : other p ≠ p := by fin_cases p <;> decide

theorem forall_axis (p : Fin 2) (P : Fin 2 → Prop) (hp : P p) (ho : P (other p)) : ∀ i, P i := by
  fin_cases p
  · intro i; fin_cases i
    · exact hp
    · exact ho
  · intro i; fin_cases i
    · exact ho
    · exact hp

variable {b : Box} {d : Fin 2 → ℝ} {step : ℝ}

theorem Geometry.box (G : Geometry b d step) (i : Fin 2) : b.lo i < b.hi i := by
  have h1 := G.wide i
  have h2 := G.two
  have : (b.lo i : ℝ) < b.hi i := by linarith
  exact_mod_cast this

theorem Geometry.le_one (G : Geometry b d step) (i : Fin 2) : |d i| ≤ 1 := by
  have h := G.unitary
  apply abs_le_of_sq_le_sq _ (by norm_num)
  fin_cases i
  · simp only [Fin.zero_eta]; nlinarith [sq_nonneg (d 1)]
  · simp only [Fin.mk_one]; nlinarith [sq_nonneg (d 0)]

theorem Geometry.steep (G : Geometry b d step) : 1 / 2 ≤ |d (other (primaryAxis d))| := by
  have h := G.unitary
  have n0 := G.nz 0
  have a0 : 0 < |d 0| := abs_pos.2 n0
  have e0 := sq_abs (d 0)
  have e1 := sq_abs (d 1)
  have z1 := abs_nonneg (d 1)
  unfold primaryAxis
  by_cases hc : 1 ≤ |d 1 / d 0|
  · rw [if_pos (Or.inr hc)]
    rw [abs_div, le_div_iff₀ a0] at hc
    change 1 / 2 ≤ |d 1|
    nlinarith
  · rw [if_neg (by push Not; exact ⟨n0, by linarith⟩)]
    rw [abs_div, not_le, div_lt_iff₀ a0] at hc
    change 1 / 2 ≤ |d 0|
    nlinarith

theorem origin_p (G : Geometry b d step) : lineOrigin d b (primaryAxis d) =
    if 0 < d (primaryAxis d) then (b.lo (primaryAxis d) : ℝ) + 1 / 2 else b.hi (primaryAxis d) - 1 / 2 := by
  unfold lineOrigin
  rw [selectOrigin_eq b d G.nz]
  rcases lt_trichotomy (d (primaryAxis d)) 0 with h | h | h
  · rw [if_neg (by linarith), if_pos h, if_neg (by linarith)]
    simp [unit]; ring
  · exact absurd h (G.nz _)
  · rw [if_pos h, if_neg (by linarith), if_pos h]
    simp [unit]

theorem origin_s (G : Geometry b d step) : lineOrigin d b (other (primaryAxis d)) =
    if 0 < d (other (primaryAxis d)) then (b.lo (other (primaryAxis d)) : ℝ) else b.hi (other (primaryAxis d)) := by
  unfold lineOrigin
  rw [selectOrigin_eq b d G.nz]
  simp [unit, other_ne]

theorem ext_s (G : Geometry b d step) (k : ℤ) : ext b (shifted (lineOrigin d b) (primaryAxis d) step k) d (other (primaryAxis d)) =
    (b.hi (other (primaryAxis d)) - b.lo (other (primaryAxis d)) : ℝ) / |d (other (primaryAxis d))| := by
  have hsh : shifted (lineOrigin d b) (primaryAxis d) step k (other (primaryAxis d)) = lineOrigin d b (other (primaryAxis d)) := by
    simp [shifted, other_ne]
  unfold ext
  rw [hsh, origin_s G]
  rcases lt_trichotomy (d (other (primaryAxis d))) 0 with h | h | h
  · rw [if_neg (by linarith), if_neg (by linarith), abs_of_neg h, div_neg, ← neg_div]; ring
  · exact absurd h (G.nz _)
  · rw [if_pos h, if_pos h, abs_of_pos h]

theorem T1_small (G : Geometry b d step) (k : ℤ) : T1 b (shifted (lineOrigin d b) (primaryAxis d) step k) d < 2 ^ 30 := by
  have h1 : T1 b (shifted (lineOrigin d b) (primaryAxis d) step k) d ≤
      ext b (shifted (lineOrigin d b) (primaryAxis d) step k) d (other (primaryAxis d)) := by
    refine forall_axis (primaryAxis d) (fun i => T1 b (shifted (lineOrigin d b) (primaryAxis d) step k) d ≤
      ext b (shifted (lineOrigin d b) (primaryAxis d) step k) d i) ?_ ?_ _
    all_goals
      generalize hgen : (primaryAxis d : Fin 2) = q
      unfold T1
      fin_cases q
      · first
        | exact le_trans (min_le_left _ _) (min_le_right _ _)
        | exact min_le_right _ _
      · first
        | exact min_le_right _ _
        | exact le_trans (min_le_left _ _) (min_le_right _ _)
  rw [ext_s G] at h1
  have h2 := G.steep
  have h3 := G.size (other (primaryAxis d))
  have h4 : (b.hi (other (primaryAxis d)) - b.lo (other (primaryAxis d)) : ℝ) / |d (other (primaryAxis d))| ≤ 2 ^ 29 := by
    rw [div_le_iff₀ (by linarith)]
    norm_num at h3 ⊢
    linarith
  norm_num at h4 ⊢
  linarith

/-- Length of the part of line `k` in the box (negative: it misses the box). -/
noncomputable def chord (b : Box) (d : Fin 2 → ℝ) (step : ℝ) (k : ℤ) : ℝ :=
  T1 b (shifted (lineOrigin d b) (primaryAxis d) step k) d - T0 b (shifted (lineOrigin d b) (primaryAxis d) step k) d

theorem shifted_zero (o : Fin 2 → ℝ) (p : Fin 2) (step : ℝ) : shifted o p step 0 = o := by
  funext i; simp [shifted]

theorem chord_zero (G : Geometry b d step) : step / 2 ≤ chord b d step 0 := by
  have hstep2 := G.two
  have gen : ∀ i, ent b (lineOrigin d b) d i ≤ 0 ∧ step / 2 ≤ ext b (lineOrigin d b) d i := by
    apply forall_axis (primaryAxis d)
    · have hw := G.wide (primaryAxis d)
      have h1 := G.le_one (primaryAxis d)
      have hz := abs_pos.2 (G.nz (primaryAxis d))
      unfold ent ext
      rw [origin_p G]
      rcases lt_trichotomy (d (primaryAxis d)) 0 with h | h | h
      · rw [abs_of_neg h] at h1 hz
        simp only [if_neg (not_lt.2 h.le)]
        constructor
        · exact div_nonpos_of_nonneg_of_nonpos (by linarith) h.le
        · rw [le_div_iff_of_neg h]
          nlinarith
      · exact absurd h (G.nz _)
      · rw [abs_of_pos h] at h1 hz
        simp only [if_pos h]
        constructor
        · exact div_nonpos_of_nonpos_of_nonneg (by linarith) h.le
        · rw [le_div_iff₀ h]
          nlinarith
    · have hw := G.wide (other (primaryAxis d))
      have h1 := G.le_one (other (primaryAxis d))
      have hz := abs_pos.2 (G.nz (other (primaryAxis d)))
      unfold ent ext
      rw [origin_s G]
      rcases lt_trichotomy (d (other (primaryAxis d))) 0 with h | h | h
      · rw [abs_of_neg h] at h1 hz
        simp only [if_neg (not_lt.2 h.le)]
        constructor
        · exact div_nonpos_of_nonneg_of_nonpos (by linarith) h.le
        · rw [le_div_iff_of_neg h]
          nlinarith
      · exact absurd h (G.nz _)
      · rw [abs_of_pos h] at h1 hz
        simp only [if_pos h]
        constructor
        · exact div_nonpos_of_nonpos_of_nonneg (by linarith) h.le
        · rw [le_div_iff₀ h]
          nlinarith
  unfold chord
  rw [shifted_zero]
  have t0 : T0 b (lineOrigin d b) d ≤ 0 := max_le (max_le (le_refl _) (gen 0).1) (gen 1).1
  have hs := G.size 0
  have hw := G.wide 0
  have t1 : step / 2 ≤ T1 b (lineOrigin d b) d := le_min (le_min (by norm_num at hs ⊢; linarith) (gen 0).2) (gen 1).2
  linarith

theorem chord_between (σ : ℤ) (j k : ℕ) (hjk : j ≤ k) :
    min (chord b d step 0) (chord b d step (σ * k)) ≤ chord b d step (σ * j) := by
  rcases Nat.eq_zero_or_pos k with h | h
  · subst h
    have : j = 0 := by omega
    subst this
    simp
  · have hk : (0 : ℝ) < k := by exact_mod_cast h
    have hj : (j : ℝ) ≤ k := by exact_mod_cast hjk
    unfold chord
    refine chord_concave b _ _ _ d (j / k) (by positivity) (by rw [div_le_one hk]; exact hj) ?_
    intro i
    unfold shifted
    split
    · push_cast; field_simp; ring
    · ring

theorem T0_nonneg (b : Box) (o d : Fin 2 → ℝ) : 0 ≤ T0 b o d := le_trans (le_max_left _ _) (le_max_left _ _)

theorem ent_le_T0 (b : Box) (o d : Fin 2 → ℝ) (i : Fin 2) : ent b o d i ≤ T0 b o d := by
  fin_cases i
  · exact le_trans (le_max_right _ _) (le_max_left _ _)
  · exact le_max_right _ _

theorem T1_le_ext (b : Box) (o d : Fin 2 → ℝ) (i : Fin 2) : T1 b o d ≤ ext b o d i := by
  fin_cases i
  · exact le_trans (min_le_left _ _) (min_le_right _ _)
  · exact min_le_right _ _

/-- Far enough on either side, lines miss the box. -/
theorem chord_far (G : Geometry b d step) (σ : ℤ) (hσ : σ = 1 ∨ σ = -1) : ∃ K : ℕ, chord b d step (σ * K) < 0 := by
  obtain ⟨p, hp⟩ : ∃ p, p = primaryAxis d := ⟨_, rfl⟩
  obtain ⟨O, hO⟩ : ∃ O, O = lineOrigin d b := ⟨_, rfl⟩
  have hst := G.two
  have hz := abs_pos.2 (G.nz p)
  have h1 := G.le_one p
  obtain ⟨K, hK⟩ := exists_nat_gt (|(b.hi p : ℝ) - O p| + |(b.lo p : ℝ) - O p| + 2 ^ 30)
  refine ⟨K, ?_⟩
  have ha := neg_abs_le ((b.hi p : ℝ) - O p)
  have hb' := neg_abs_le ((b.lo p : ℝ) - O p)
  have hc := le_abs_self ((b.hi p : ℝ) - O p)
  have hd := le_abs_self ((b.lo p : ℝ) - O p)
  have n1 := abs_nonneg ((b.hi p : ℝ) - O p)
  have n2 := abs_nonneg ((b.lo p : ℝ) - O p)
  have hKs : (K : ℝ) ≤ K * step := by
    have : (0 : ℝ) ≤ K := by positivity
    nlinarith
  unfold chord
  have t1 := T1_small G (σ * K)
  have tz := T0_nonneg b (shifted (lineOrigin d b) (primaryAxis d) step (σ * K)) d
  have te := ent_le_T0 b (shifted (lineOrigin d b) (primaryAxis d) step (σ * K)) d p
  have tx := T1_le_ext b (shifted (lineOrigin d b) (primaryAxis d) step (σ * K)) d p
  rw [← hO, ← hp] at *
  have hsh : shifted O p step (σ * K) p = O p + σ * K * step := by simp [shifted]
  unfold ent at te
  unfold ext at tx
  rw [hsh] at te tx
  norm_num at t1 hK
  rcases hσ with h | h <;> subst h <;> push_cast at te tx <;> rcases lt_trichotomy (d p) 0 with h | h | h
  · rw [abs_of_neg h] at h1 hz
    rw [if_neg (not_lt.2 h.le)] at te
    have : (1073741824 : ℝ) ≤ (↑(b.hi p) - (O p + 1 * ↑K * step)) / d p := by
      rw [le_div_iff_of_neg h]; nlinarith
    linarith
  · exact absurd h (G.nz _)
  · rw [abs_of_pos h] at h1 hz
    rw [if_pos h] at tx
    have : (↑(b.hi p) - (O p + 1 * ↑K * step)) / d p < 0 := div_neg_of_neg_of_pos (by linarith) h
    linarith
  · rw [abs_of_neg h] at h1 hz
    rw [if_neg (not_lt.2 h.le)] at tx
    have : (↑(b.lo p) - (O p + -1 * ↑K * step)) / d p < 0 := div_neg_of_pos_of_neg (by linarith) h
    linarith
  · exact absurd h (G.nz _)
  · rw [abs_of_pos h] at h1 hz
    rw [if_pos h] at te
    have : (1073741824 : ℝ) ≤ (↑(b.lo p) - (O p + -1 * ↑K * step)) / d p := by
      rw [le_div_iff₀ h]; nlinarith
    linarith

/-- The loop on one side finds the lines `1, 2, ..., M - 1`. -/
theorem side_eq (b : Box) (d : Fin 2 → ℝ) (step : ℝ) (p : Fin 2) (O : Fin 2 → ℝ) (σ : ℤ) (c : ℝ) (hc : c = σ) (N M : ℕ)
    (L : ℕ → Line) (hM : M ≤ N) (hN : clip b d step (shifted O p step (σ * N)) = .ok none)
    (hL : ∀ k, k < N → clip b d step (shifted O p step (σ * k)) = .ok (some (L k)))
    (hG : ∀ k, k < N → (step / 2 ≤ (L k).t1 - (L k).t0 ↔ k < M)) : ∀ (f k : ℕ), k < N → N - k ≤ f →
    sideLines b d step (fun i => c * unit p i) f (shifted O p step (σ * k)) = .ok (some ((List.range' (k + 1) (M - 1 - k)).map L)) := by
  intro f
  induction f with
  | zero => intro k h1 h2; omega
  | succ f ih =>
    intro k h1 h2
    have hpos : (fun i => shifted O p step (σ * k) i + c * unit p i * step) = shifted O p step (σ * (k + 1 : ℕ)) := by
      funext i
      unfold shifted unit
      rw [hc]
      split
      · push_cast; ring
      · ring
    unfold sideLines
    simp only
    rw [hpos]
    by_cases hk : k + 1 = N
    · rw [hk, hN, Outcome.ok_bind]
      have : M - 1 - k = 0 := by omega
      simp only
      rw [this]; simp
    · have hk' : k + 1 < N := by omega
      rw [hL (k + 1) hk', Outcome.ok_bind]
      simp only
      rw [ih (k + 1) hk' (by omega), Outcome.ok_bind]
      by_cases hm : k + 1 < M
      · have hg := (hG (k + 1) hk').2 hm
        rw [if_neg (by push Not; linarith)]
        have e : M - 1 - k = (M - 1 - (k + 1)) + 1 := by omega
        rw [e, List.range'_succ]
        rfl
      · have hg : ¬ (step / 2 ≤ (L (k + 1)).t1 - (L (k + 1)).t0) := fun h => hm ((hG (k + 1) hk').1 h)
        rw [if_pos (by push Not at hg; linarith)]
        have e : M - 1 - k = 0 := by omega
        have e' : M - 1 - (k + 1) = 0 := by omega
        rw [e, e']
        simp

end DexRT.LineSweep

namespace DexRT.LineSweep
open DexRT
variable {b : Box} {d : Fin 2 → ℝ} {step : ℝ}

/-- How far the kept lines reach on one side. -/
theorem side_reach (G : Geometry b d step) (σ : ℤ) (hσ : σ = 1 ∨ σ = -1) : ∃ N M : ℕ, 1 ≤ M ∧ M ≤ N ∧ chord b d step (σ * N) < 0 ∧
    (∀ k, k < N → 0 ≤ chord b d step (σ * k)) ∧ (∀ k : ℕ, step / 2 ≤ chord b d step (σ * k) ↔ k < M) := by
  classical
  have hs := G.two
  have h0 := chord_zero G
  have hN := chord_far G σ hσ
  have hM : ∃ K : ℕ, chord b d step (σ * K) < step / 2 := by
    obtain ⟨K, hK⟩ := hN
    exact ⟨K, by linarith⟩
  have fN := Nat.find_spec hN
  have fM := Nat.find_spec hM
  have hkM : ∀ k : ℕ, step / 2 ≤ chord b d step (σ * k) ↔ k < Nat.find hM := by
    intro k
    constructor
    · intro h
      by_contra hc
      push Not at hc
      have := chord_between (b := b) (d := d) (step := step) σ (Nat.find hM) k hc
      rcases min_le_iff.1 this with h' | h' <;> linarith
    · intro h
      have := Nat.find_min hM h
      linarith
  refine ⟨Nat.find hN, Nat.find hM, ?_, ?_, fN, ?_, hkM⟩
  · have := (hkM 0).1 (by simpa using h0)
    omega
  · exact Nat.find_min' hM (by linarith)
  · intro k hk
    have := Nat.find_min hN hk
    linarith

/-- Line `k` of the family as `clip` leaves it. -/
noncomputable def famLine (b : Box) (d : Fin 2 → ℝ) (step : ℝ) (k : ℤ) : Line :=
  match clip b d step (shifted (lineOrigin d b) (primaryAxis d) step k) with
  | .ok (some l) => l
  | _ => ⟨0, 0, 0, 0, 0⟩

theorem famLine_spec (G : Geometry b d step) (k : ℤ) (h : 0 ≤ chord b d step k) :
    clip b d step (shifted (lineOrigin d b) (primaryAxis d) step k) = .ok (some (famLine b d step k)) ∧
    Clipped b (shifted (lineOrigin d b) (primaryAxis d) step k) d step (famLine b d step k) := by
  unfold chord at h
  obtain ⟨l, hl, hc⟩ := clip_some b (shifted (lineOrigin d b) (primaryAxis d) step k) d step G.nz G.box G.two (by linarith) (T1_small G k)
  have : famLine b d step k = l := by unfold famLine; rw [hl]
  rw [this]
  exact ⟨hl, hc⟩

theorem famLine_chord (G : Geometry b d step) (k : ℤ) (h : 0 ≤ chord b d step k) :
    (famLine b d step k).t1 - (famLine b d step k).t0 = chord b d step k := by
  have hc := (famLine_spec G k h).2
  rw [hc.t0_eq, hc.t1_eq]
  rfl

theorem famLine_p (G : Geometry b d step) (k : ℤ) (h : 0 ≤ chord b d step k) :
    (famLine b d step k).o (primaryAxis d) = lineOrigin d b (primaryAxis d) + k * step := by
  rw [(famLine_spec G k h).2.o_eq]
  simp [shifted]

/-- The whole set of one direction: a stretch of consecutive lines of the family. -/
theorem lineSet_eq (G : Geometry b d step) : ∃ (F n a : ℕ), a < n ∧ (∀ k : ℤ, step / 2 ≤ chord b d step k ↔ -(a : ℤ) ≤ k ∧ k < (n : ℤ) - a) ∧
    ∀ fuel, F ≤ fuel → lineSet b d step fuel =
      .ok (some ⟨lineOrigin d b, d, step, primaryAxis d, (List.range n).map fun i : ℕ => famLine b d step ((i : ℤ) - a)⟩) := by
  classical
  obtain ⟨Nu, Mu, mu1, mu2, nu, hu, gu⟩ := side_reach G 1 (Or.inl rfl)
  obtain ⟨Nd, Md, md1, md2, nd, hd, gd⟩ := side_reach G (-1) (Or.inr rfl)
  simp only [one_mul] at nu hu gu
  have hs := G.two
  have h0 := chord_zero G
  have hr : ∀ k : ℤ, step / 2 ≤ chord b d step k ↔ -((Md - 1 : ℕ) : ℤ) ≤ k ∧ k < ((Mu + Md - 1 : ℕ) : ℤ) - (Md - 1 : ℕ) := by
    intro k
    rcases Int.eq_nat_or_neg k with ⟨m, rfl | rfl⟩
    · rw [gu m]; omega
    · have := gd m
      rw [neg_one_mul] at this
      rw [this]; omega
  refine ⟨max Nu Nd, Mu + Md - 1, Md - 1, by omega, hr, ?_⟩
  intro fuel hf
  have base := (famLine_spec G 0 (by linarith)).1
  rw [shifted_zero] at base
  have up := side_eq b d step (primaryAxis d) (lineOrigin d b) 1 1 (by norm_num) Nu Mu (fun k => famLine b d step k) mu2
    (by rw [one_mul]; exact clip_none b _ d step G.nz G.box (by unfold chord at nu; linarith))
    (fun k hk => by rw [one_mul]; exact (famLine_spec G k (hu k hk)).1)
    (fun k hk => by rw [famLine_chord G k (hu k hk)]; exact gu k) fuel 0 (by omega) (by omega)
  have down := side_eq b d step (primaryAxis d) (lineOrigin d b) (-1) (-1) (by norm_num) Nd Md (fun k => famLine b d step (-1 * (k : ℤ))) md2
    (clip_none b _ d step G.nz G.box (by unfold chord at nd; linarith))
    (fun k hk => (famLine_spec G _ (hd k hk)).1)
    (fun k hk => by rw [famLine_chord G _ (hd k hk)]; exact gd k) fuel 0 (by omega) (by omega)
  simp only [Nat.cast_zero, mul_zero, Nat.zero_add, Nat.sub_zero, shifted_zero] at up down
  unfold lineSet
  simp only
  rw [base, Outcome.ok_bind]
  simp only
  rw [up, Outcome.ok_bind, down, Outcome.ok_bind]
  simp only
  congr 3
  -- the sorted list
  obtain ⟨J, hJ⟩ : ∃ J : List ℤ, J = 0 :: ((List.range' 1 (Mu - 1)).map (fun k : ℕ => (k : ℤ)) ++ (List.range' 1 (Md - 1)).map (fun k : ℕ => -1 * (k : ℤ))) := ⟨_, rfl⟩
  obtain ⟨J', hJ'⟩ : ∃ J' : List ℤ, J' = (List.range (Mu + Md - 1)).map fun i : ℕ => (i : ℤ) - (Md - 1 : ℕ) := ⟨_, rfl⟩
  have e1 : famLine b d step 0 :: ((List.range' 1 (Mu - 1)).map (fun k : ℕ => famLine b d step k) ++
      (List.range' 1 (Md - 1)).map (fun k : ℕ => famLine b d step (-1 * (k : ℤ)))) = J.map (famLine b d step) := by
    rw [hJ]; simp [List.map_map, Function.comp_def]
  have e2 : (List.range (Mu + Md - 1)).map (fun i : ℕ => famLine b d step ((i : ℤ) - (Md - 1 : ℕ))) = J'.map (famLine b d step) := by
    rw [hJ']; simp [List.map_map, Function.comp_def]
  rw [e1, e2]
  have hmem' : ∀ k ∈ J', step / 2 ≤ chord b d step k := by
    intro k hk
    rw [hJ'] at hk
    obtain ⟨i, hi, rfl⟩ := List.mem_map.1 hk
    have := List.mem_range.1 hi
    rw [hr]; omega
  have nd1 : J.Nodup := by
    rw [hJ, List.nodup_cons]
    constructor
    · intro h
      rcases List.mem_append.1 h with h | h
      · obtain ⟨i, hi, h⟩ := List.mem_map.1 h
        rw [List.mem_range'_1] at hi
        omega
      · obtain ⟨i, hi, h⟩ := List.mem_map.1 h
        rw [List.mem_range'_1] at hi
        omega
    · rw [List.nodup_append]
      refine ⟨List.Nodup.map (fun x y h => by simpa using h) (List.nodup_range' (step := 1)), List.Nodup.map (fun x y h => by simpa using h) (List.nodup_range' (step := 1)), ?_⟩
      intro x hx y hy
      obtain ⟨i, hi, rfl⟩ := List.mem_map.1 hx
      obtain ⟨j, hj, rfl⟩ := List.mem_map.1 hy
      rw [List.mem_range'_1] at hi hj
      omega
  have nd2 : J'.Nodup := by
    rw [hJ']
    exact List.Nodup.map (fun x y h => by simpa using h) List.nodup_range
  have hperm : J.Perm J' := by
    rw [List.perm_ext_iff_of_nodup nd1 nd2]
    intro k
    rw [hJ, hJ']
    simp only [List.mem_cons, List.mem_append, List.mem_map, List.mem_range'_1, List.mem_range]
    constructor
    · rintro (rfl | ⟨i, hi, rfl⟩ | ⟨i, hi, rfl⟩)
      · exact ⟨Md - 1, by omega, by omega⟩
      · exact ⟨i + (Md - 1), by omega, by omega⟩
      · exact ⟨Md - 1 - i, by omega, by omega⟩
    · rintro ⟨i, hi, rfl⟩
      by_cases h1 : i = Md - 1
      · left; omega
      · by_cases h2 : i < Md - 1
        · right; right; exact ⟨Md - 1 - i, by omega, by omega⟩
        · right; left; exact ⟨i - (Md - 1), by omega, by omega⟩
  have hp : ∀ k ∈ J', (famLine b d step k).o (primaryAxis d) = lineOrigin d b (primaryAxis d) + k * step := fun k hk =>
    famLine_p G k (by have := hmem' k hk; linarith)
  refine List.Perm.eq_of_pairwise (le := fun x y : Line => x.o (primaryAxis d) ≤ y.o (primaryAxis d)) ?_ ?_ ?_
    ((List.mergeSort_perm _ _).trans (hperm.map _))
  · intro x y hx hy hxy hyx
    have hx' := (List.mergeSort_perm _ _).mem_iff.1 hx
    obtain ⟨k1, hk1, rfl⟩ := List.mem_map.1 hx'
    obtain ⟨k2, hk2, rfl⟩ := List.mem_map.1 hy
    have hk1' := hperm.mem_iff.1 hk1
    rw [hp k1 hk1', hp k2 hk2] at hxy
    rw [hp k1 hk1', hp k2 hk2] at hyx
    have a1 : (k1 : ℝ) ≤ k2 := by nlinarith
    have a2 : (k2 : ℝ) ≤ k1 := by nlinarith
    have : k1 = k2 := by exact_mod_cast le_antisymm a1 a2
    rw [this]
  · have := List.pairwise_mergeSort (le := fun x y : Line => decide (x.o (primaryAxis d) ≤ y.o (primaryAxis d)))
      (by intro x y z h1 h2; simp only [decide_eq_true_eq] at *; linarith)
      (by intro x y; simp only [Bool.or_eq_true, decide_eq_true_eq]; exact le_total _ _) (J.map (famLine b d step))
    refine this.imp ?_
    intro x y h
    simpa using h
  · rw [List.pairwise_map]
    have : J'.Pairwise (· < ·) := by
      rw [hJ', List.pairwise_map]
      refine List.Pairwise.imp ?_ List.pairwise_lt_range
      intro x y h
      omega
    refine List.Pairwise.imp_of_mem ?_ this
    intro x y hx hy h
    rw [hp x hx, hp y hy]
    have : (x : ℝ) ≤ y := by exact_mod_cast h.le
    nlinarith

end DexRT.LineSweep
