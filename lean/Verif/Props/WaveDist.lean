import Verif.Lemmas.WaveDist
/-!
# C22: every wavelength is solved exactly once per pass

`DistReach c s` ranges over every interleaving of the ranks and of rank 0's service thread, over any number
of passes, with or without a barrier at the beginning of each.
-/
namespace DexRT

/-- All ranks left the loop of the current pass. -/
def PassDone (c : DistCfg) (s : DistState) : Prop := ∀ r < c.R, s.pc r = .finished

/-- The batches given to all ranks in the current pass. -/
def handedOut (s : DistState) : List WaveBatch := s.log.map (·.2)

/-- Full C22 with load balancing, **proved except for the first pass of a run with several ranks**: in every
later pass (and in every pass of a single rank) the batches handed out to all ranks contain every wavelength
exactly once. Missing for the full claim: the first pass, see `C22_refuted`. -/
theorem C22_partial {c : DistCfg} (hB : 0 < c.B) (hR : 0 < c.R) {s : DistState} (h : DistReach c s)
    (hg : 0 < s.pass ∨ c.R = 1) (hd : PassDone c s) :
    BatchesOk c.laMax c.B (handedOut s) ∧ SolvedOnce c.laMax (handedOut s) := by
  have hi := dinv_reach hB hR h
  refine ⟨batchesOk_log hB fun p hp => ⟨(hi.logOk p hp).2.1, (hi.logOk p hp).2.2.1⟩, fun w hw => ?_⟩
  unfold handedOut
  rw [timesSolved_log hB (fun p hp => ⟨(hi.logOk p hp).2.1, (hi.logOk p hp).2.2.2⟩) hw]
  have hnA : ¬ phaseA s := by simp [phaseA, hd 0 hR]
  obtain ⟨pre, p0, hb⟩ := hi.Bp hnA
  have hle : c.B * (w / c.B) ≤ w := Nat.mul_div_le w c.B
  have hv : c.B * (w / c.B) < c.laMax := by omega
  have := hb _ hv
  have hz : inFlight c.R s.pc (c.B * (w / c.B)) = 0 := inFlight_zero fun r hr => by rw [hd r hr]; simp
  have hf := hi.fin (hd 0 hR)
  simp only [cnt, hz, p0 hg, Nat.dvd_mul_right, true_and] at this
  rw [if_pos (by omega)] at this
  omega

/-- While a pass is running no wavelength has been given to two ranks (same restriction). -/
theorem C22_never_twice_partial {c : DistCfg} (hB : 0 < c.B) (hR : 0 < c.R) {s : DistState}
    (h : DistReach c s) (hg : 0 < s.pass ∨ c.R = 1) {w : Nat} (hw : w < c.laMax) :
    timesSolved (handedOut s) w ≤ 1 := by
  have hi := dinv_reach hB hR h
  unfold handedOut
  rw [timesSolved_log hB (fun p hp => ⟨(hi.logOk p hp).2.1, (hi.logOk p hp).2.2.2⟩) hw]
  have hle : c.B * (w / c.B) ≤ w := Nat.mul_div_le w c.B
  have := cnt_le_one_B hi hg (v := c.B * (w / c.B)) (by omega)
  unfold cnt at this; omega

/-- In **every** pass, the first included, no wavelength is left out and batches are well formed. -/
theorem C22_none_missed {c : DistCfg} (hB : 0 < c.B) (hR : 0 < c.R) {s : DistState} (h : DistReach c s)
    (hd : PassDone c s) :
    BatchesOk c.laMax c.B (handedOut s) ∧ ∀ w < c.laMax, 1 ≤ timesSolved (handedOut s) w := by
  have hi := dinv_reach hB hR h
  refine ⟨batchesOk_log hB fun p hp => ⟨(hi.logOk p hp).2.1, (hi.logOk p hp).2.2.1⟩, fun w hw => ?_⟩
  unfold handedOut
  rw [timesSolved_log hB (fun p hp => ⟨(hi.logOk p hp).2.1, (hi.logOk p hp).2.2.2⟩) hw]
  have hnA : ¬ phaseA s := by simp [phaseA, hd 0 hR]
  obtain ⟨pre, p0, hb⟩ := hi.Bp hnA
  have hle : c.B * (w / c.B) ≤ w := Nat.mul_div_le w c.B
  have := hb (c.B * (w / c.B)) (by omega)
  have hz : inFlight c.R s.pc (c.B * (w / c.B)) = 0 := inFlight_zero fun r hr => by rw [hd r hr]; simp
  have hf := hi.fin (hd 0 hR)
  simp only [cnt, hz, Nat.dvd_mul_right, true_and] at this
  rw [if_pos (by omega)] at this
  omega

/-- Every rank is eventually told there is no more work: a pass cannot run forever (no infinite chain of
steps) and never gets stuck before all ranks have finished. -/
theorem C22_all_told {c : DistCfg} (hB : 0 < c.B) (hR : 0 < c.R) :
    (∀ run : Nat → DistState, ¬ ∀ k, DistStep c (run k) (run (k + 1))) ∧
    (∀ s, DistReach c s → ¬ PassDone c s → ∃ t, DistStep c s t) := by
  constructor
  · intro run hrun
    have : ∀ k, distMeasure c (run k) + k ≤ distMeasure c (run 0) := by
      intro k
      induction k with
      | zero => omega
      | succ k ih => have := measure_step hB hR (hrun k); omega
    have := this (distMeasure c (run 0) + 1); omega
  · intro s hs hd
    unfold PassDone at hd
    push Not at hd
    obtain ⟨r, hr, hf⟩ := hd
    exact dist_progress hB hR hs hr hf

/-- The full claim is **false**: with two ranks and one wavelength, in the very first pass rank 1's request
can be served between the barrier and rank 0's `reset()`, so the wavelength is solved twice (and, since `J`
and the rate matrices are summed over ranks, counted twice). -/
theorem C22_refuted : ∃ (c : DistCfg) (s : DistState), 0 < c.B ∧ 0 < c.R ∧ c.bar 0 = true ∧
    DistReach c s ∧ PassDone c s ∧ timesSolved (handedOut s) 0 = 2 := by
  let c : DistCfg := { R := 2, laMax := 1, B := 1, bar := fun _ => true }
  have h0 : DistReach c distInit := .init
  have h1 := h0.step (.barrier1 _ rfl (fun _ _ => rfl))
  have h2 := h1.step (.resetR _ 1 (by decide) (by decide) rfl)
  have h3 := h2.step (.send _ 1 (by decide) (by decide) rfl)
  have h4 := h3.step (.serve _ 1 (by decide) (by decide) rfl)
  have h5 := h4.step (.reset0 _ (by decide) rfl)
  have h6 := h5.step (.take0 _ (by decide) rfl)
  have h7 := h6.step (.recv _ 1 0 (by decide) (by decide) rfl)
  have h8 := h7.step (.take0 _ (by decide) rfl)
  have h9 := h8.step (.send _ 1 (by decide) (by decide) rfl)
  have h10 := h9.step (.serve _ 1 (by decide) (by decide) rfl)
  have h11 := h10.step (.recv _ 1 2 (by decide) (by decide) rfl)
  refine ⟨c, _, by decide, by decide, rfl, h11, ?_, by decide⟩
  intro r hr
  have : r = 0 ∨ r = 1 := by have : r < 2 := hr; omega
  rcases this with rfl | rfl <;> decide

/-- The hypotheses of `C22_partial` are met: a second pass with two ranks in which both get work. -/
example : ∃ (c : DistCfg) (s : DistState), 0 < c.B ∧ 1 < c.R ∧ 1 < c.laMax ∧ DistReach c s ∧ 0 < s.pass ∧
    PassDone c s ∧ (∃ b, (0, b) ∈ s.log) ∧ ∃ b, (1, b) ∈ s.log := by
  let c : DistCfg := { R := 2, laMax := 2, B := 1, bar := fun p => p == 0 }
  have h0 : DistReach c distInit := .init
  have h1 := h0.step (.barrier1 _ rfl (fun _ _ => rfl))
  have h2 := h1.step (.reset0 _ (by decide) rfl)
  have h3 := h2.step (.take0 _ (by decide) rfl)
  have h4 := h3.step (.take0 _ (by decide) rfl)
  have h5 := h4.step (.take0 _ (by decide) rfl)
  have h6 := h5.step (.resetR _ 1 (by decide) (by decide) rfl)
  have h7 := h6.step (.send _ 1 (by decide) (by decide) rfl)
  have h8 := h7.step (.serve _ 1 (by decide) (by decide) rfl)
  have h9 := h8.step (.recv _ 1 3 (by decide) (by decide) rfl)
  have h10 := h9.next (.barrier2 _ (by
    intro r hr
    have : r = 0 ∨ r = 1 := by have : r < 2 := hr; omega
    rcases this with rfl | rfl <;> decide))
  have k1 := h10.step (.enter _ 0 rfl (by decide) rfl)
  have k2 := k1.step (.enter _ 1 rfl (by decide) rfl)
  have k3 := k2.step (.reset0 _ (by decide) rfl)
  have k4 := k3.step (.take0 _ (by decide) rfl)
  have k5 := k4.step (.resetR _ 1 (by decide) (by decide) rfl)
  have k6 := k5.step (.send _ 1 (by decide) (by decide) rfl)
  have k7 := k6.step (.serve _ 1 (by decide) (by decide) rfl)
  have k8 := k7.step (.recv _ 1 1 (by decide) (by decide) rfl)
  have k9 := k8.step (.take0 _ (by decide) rfl)
  have k10 := k9.step (.send _ 1 (by decide) (by decide) rfl)
  have k11 := k10.step (.serve _ 1 (by decide) (by decide) rfl)
  have k12 := k11.step (.recv _ 1 3 (by decide) (by decide) rfl)
  refine ⟨c, _, by decide, by decide, by decide, k12, by decide, ?_, ⟨mkBatch c 0, by decide⟩, ⟨mkBatch c 1, by decide⟩⟩
  intro r hr
  have : r = 0 ∨ r = 1 := by have : r < 2 := hr; omega
  rcases this with rfl | rfl <;> decide

/-- Full C22 for static distribution and for builds without MPI (`R = 1`): every rank's loop ends, and the
batches of all ranks together solve every wavelength exactly once. -/
theorem C22_static (R B n : Nat) (hB : 0 < B) (hR : 0 < R) :
    (∀ r, ∃ bs, staticPass R B n (n + 1) r = some bs) ∧
    ∀ (fuel : Nat) (bs : Nat → List WaveBatch), (∀ r < R, staticPass R B n fuel r = some (bs r)) →
      BatchesOk n B ((List.range R).flatMap bs) ∧ SolvedOnce n ((List.range R).flatMap bs) := by
  refine ⟨fun r => staticLoop_some R B n (Nat.mul_pos hR hB) _ _ (by omega) (by omega), ?_⟩
  intro fuel bs hbs
  constructor
  · intro b hb
    obtain ⟨r, hr, hb⟩ := List.mem_flatMap.mp hb
    exact staticLoop_ok R B n hB _ _ _ (hbs r (List.mem_range.mp hr)) b hb
  · intro w hw
    rw [timesSolved_flatMap]
    have : ∀ r ∈ Finset.range R, timesSolved (bs r) w = if (w / B) % R = r then 1 else 0 := by
      intro r hr
      have hr := Finset.mem_range.mp hr
      have h := hbs r hr
      unfold staticPass at h
      rw [Nat.mul_comm] at h
      rw [staticLoop_times R B n w hB hR hw fuel r _ h]
      apply if_congr _ rfl rfl
      rw [Nat.mod_eq_of_lt hr]
      constructor
      · exact fun h => h.2
      · intro h; exact ⟨by rw [← h]; exact Nat.mod_le _ _, h⟩
    rw [Finset.sum_congr rfl this]
    rw [Finset.sum_ite_eq]
    simp [Nat.mod_lt _ hR]

example : staticPass 2 8 37 38 1 = some [⟨8, 16⟩, ⟨24, 32⟩] := by decide +kernel

/-- The batch loop of given-emissivity runs solves every wavelength exactly once. -/
theorem C22_given (W n : Nat) (hW : 0 < W) :
    ∃ bs, givenLoop W n (n + 1) 0 = some bs ∧ BatchesOk n W bs ∧ SolvedOnce n bs := by
  obtain ⟨bs, h⟩ := staticLoop_some 1 W n (by omega) (n + 1) 0 (by omega) (by omega)
  refine ⟨bs, by rw [givenLoop_eq]; exact h, staticLoop_ok 1 W n hW _ _ _ h, fun w hw => ?_⟩
  have := staticLoop_times 1 W n w hW (by omega) hw (n + 1) 0 bs (by simpa using h)
  simpa [Nat.mod_one] using this

end DexRT
