import Verif.Model.IterLoop
import Mathlib.Tactic.Linarith
namespace DexRT
variable {P E H : Type}

theorem iterStep_i (c : IterCfg) (ph : Phys P E H) (s : IterState P E H) : (iterStep c ph s).i = s.i + 1 := rfl

theorem iterN_i (c : IterCfg) (ph : Phys P E H) (s : IterState P E H) (k : Nat) :
    (iterN c ph s k).i = s.i + k := by
  induction k with
  | zero => simp [iterN]
  | succ k ih => rw [iterN, iterStep_i, ih]; push_cast; omega

theorem ngRecord_count {V : Type} (a l : Fl) (s : NgState V) (p : V) (ch : Fl) :
    (ngRecord a l s p ch).1.stepCount = s.stepCount + 1 := by
  unfold ngRecord; simp only; split
  · rfl
  · split <;> rfl

theorem ngRecord_hist {V : Type} (a l : Fl) (s : NgState V) (p : V) (ch : Fl) :
    (ngRecord a l s p ch).1.hist = fun k => if k = s.stepCount % 5 then ch else s.hist k := by
  unfold ngRecord; simp only; split
  · rfl
  · split <;> rfl

theorem ngRecord_pops {V : Type} (a l : Fl) (s : NgState V) (p : V) (ch : Fl) :
    (ngRecord a l s p ch).1.pops = fun k => if k = s.stepCount % 5 then p else s.pops k := by
  unfold ngRecord; simp only; split
  · rfl
  · split <;> rfl

theorem ngRecord_fire {V : Type} (a l : Fl) (s : NgState V) (p : V) (ch : Fl) :
    (ngRecord a l s p ch).2 = true ↔ s.stepCount % 5 = 4 ∧ flLt ch l = false ∧
      ∀ i < 5, flGt (if i = s.stepCount % 5 then ch else s.hist i) a = false := by
  unfold ngRecord; simp only; split
  · rename_i h
    simp only [Bool.or_eq_true, bne_iff_ne, ne_eq] at h
    constructor
    · simp
    · rintro ⟨h1, h2, _⟩
      rcases h with h | h
      · exact absurd h1 h
      · rw [h2] at h; simp at h
  · rename_i h
    simp only [Bool.or_eq_true, bne_iff_ne, ne_eq, not_or, Bool.not_eq_true, Decidable.not_not] at h
    split
    · rename_i h2
      obtain ⟨i, hi, h2⟩ := List.any_eq_true.mp h2
      constructor
      · simp
      · rintro ⟨_, _, h3⟩
        rw [h3 i (List.mem_range.mp hi)] at h2; simp at h2
    · rename_i h2
      simp only [List.any_eq_true, not_exists, not_and, Bool.not_eq_true, List.mem_range] at h2
      simp only [true_iff]
      exact ⟨h.1, h.2, h2⟩

theorem iterStep_ng (c : IterCfg) (ph : Phys P E H) (s : IterState P E H) (hng : c.ng = true) :
    (iterStep c ph s).ng.stepCount = s.ng.stepCount + 1 ∧
    ((iterStep c ph s).accelerated = true → s.ng.stepCount % 5 = 4) := by
  constructor
  · simp only [iterStep, ngStep, hng, if_true]
    exact ngRecord_count _ _ _ _ _
  · simp only [iterStep, ngStep, hng, if_true]
    intro h
    exact ((ngRecord_fire _ _ _ _ _).mp h).1

theorem iterStep_noNg (c : IterCfg) (ph : Phys P E H) (s : IterState P E H) (hng : c.ng = false) :
    (iterStep c ph s).accelerated = s.accelerated := by
  simp [iterStep, ngStep, hng]

theorem iterN_acc_noNg (c : IterCfg) (ph : Phys P E H) (s : IterState P E H) (hng : c.ng = false) (k : Nat) :
    (iterN c ph s k).accelerated = s.accelerated := by
  induction k with
  | zero => rfl
  | succ k ih => rw [iterN, iterStep_noNg _ _ _ hng, ih]

/-- two consecutive iterations are never both accelerated -/
theorem not_twice (c : IterCfg) (ph : Phys P E H) (s : IterState P E H) (h0 : s.accelerated = false) (k : Nat)
    (h : (iterN c ph s k).accelerated = true) : (iterN c ph s (k + 1)).accelerated = false := by
  cases hng : c.ng with
  | false => rw [iterN_acc_noNg _ _ _ hng, h0] at h; simp at h
  | true =>
    cases k with
    | zero => simp [iterN, h0] at h
    | succ k =>
      have h1 := (iterStep_ng c ph (iterN c ph s k) hng).2 h
      have h2 := (iterStep_ng c ph (iterN c ph s k) hng).1
      by_contra hc
      have hc : (iterStep c ph (iterN c ph s (k+1))).accelerated = true := by
        simpa [iterN] using hc
      have h3 := (iterStep_ng c ph (iterN c ph s (k + 1)) hng).2 hc
      rw [iterN, h2] at h3
      omega

theorem loopEnds_of_false {c : IterCfg} {ph : Phys P E H} {s : IterState P E H} : ∀ {N : Nat},
    iterCond c (iterN c ph s N) = false → ∃ n ≤ N, LoopEnds c ph s n := by
  intro N hN
  induction N using Nat.strong_induction_on with
  | _ N ih =>
    by_cases h : ∀ k < N, iterCond c (iterN c ph s k) = true
    · exact ⟨N, le_refl _, h, hN⟩
    · push Not at h
      obtain ⟨k, hk, hc⟩ := h
      obtain ⟨n, hn, hl⟩ := ih k hk (by simpa using hc)
      exact ⟨n, by omega, hl⟩

theorem loopEnds_unique {c : IterCfg} {ph : Phys P E H} {s : IterState P E H} {n m : Nat}
    (h1 : LoopEnds c ph s n) (h2 : LoopEnds c ph s m) : n = m := by
  rcases Nat.lt_trichotomy n m with h | h | h
  · have := h2.1 n h; rw [h1.2] at this; simp at this
  · exact h
  · have := h1.1 m h; rw [h2.2] at this; simp at this

/-! ### restart -/

theorem rank0_frame (c : IterCfg) (ph : Phys P E H) (i : Int) (w : Nat → Fields P E H) :
    (c.consCharge = false → (rank0Update c ph i w).1.ne = (w 0).ne) ∧
    (c.consCharge = false ∨ c.consPressure = false → (rank0Update c ph i w).1.nh = (w 0).nh) := by
  constructor
  · intro h; simp [rank0Update, h]
  · intro h
    rcases h with h | h
    · simp [rank0Update, h]
    · unfold rank0Update; simp only [h, Bool.and_false]
      split
      · simp [nrUpdate]
      · rfl

theorem iterStep_frame (c : IterCfg) (ph : Phys P E H) (s : IterState P E H) :
    (c.consCharge = false → (iterStep c ph s).f.ne = s.f.ne) ∧
    (c.consCharge = false ∨ c.consPressure = false → (iterStep c ph s).f.nh = s.f.nh) := by
  have := rank0_frame c ph s.i (fun _ => s.f)
  exact ⟨fun h => this.1 h, fun h => this.2 h⟩

theorem iterN_frame (c : IterCfg) (ph : Phys P E H) (s : IterState P E H) (k : Nat) :
    (c.consCharge = false → (iterN c ph s k).f.ne = s.f.ne) ∧
    (c.consCharge = false ∨ c.consPressure = false → (iterN c ph s k).f.nh = s.f.nh) := by
  induction k with
  | zero => exact ⟨fun _ => rfl, fun _ => rfl⟩
  | succ k ih =>
    have := iterStep_frame c ph (iterN c ph s k)
    exact ⟨fun h => (this.1 h).trans (ih.1 h), fun h => (this.2 h).trans (ih.2 h)⟩

/-- without Ng, what an iteration does depends only on `i` and the fields -/
theorem iterStep_det {c : IterCfg} (ph : Phys P E H) (hng : c.ng = false) {s t : IterState P E H}
    (hi : s.i = t.i) (hf : s.f = t.f) :
    (iterStep c ph s).i = (iterStep c ph t).i ∧ (iterStep c ph s).f = (iterStep c ph t).f ∧
    (iterStep c ph s).maxChange = (iterStep c ph t).maxChange := by
  simp [iterStep, ngStep, hng, hi, hf]

theorem iterN_add (c : IterCfg) (ph : Phys P E H) (s : IterState P E H) (k j : Nat) :
    iterN c ph s (k + j) = iterN c ph (iterN c ph s k) j := by
  induction j with
  | zero => rfl
  | succ j ih => rw [← Nat.add_assoc, iterN, iterN, ih]

theorem iterN_det {c : IterCfg} (ph : Phys P E H) (hng : c.ng = false) {s t : IterState P E H}
    (hi : s.i = t.i) (hf : s.f = t.f) (j : Nat) :
    (iterN c ph s j).i = (iterN c ph t j).i ∧ (iterN c ph s j).f = (iterN c ph t j).f ∧
    (0 < j → (iterN c ph s j).maxChange = (iterN c ph t j).maxChange) := by
  induction j with
  | zero => exact ⟨hi, hf, fun h => absurd h (by omega)⟩
  | succ j ih =>
    have := iterStep_det ph hng ih.1 ih.2.1
    exact ⟨this.1, this.2.1, fun _ => this.2.2⟩

end DexRT
