import Verif.Lemmas.IterLoop
import Mathlib.Data.List.Induction
/-!
# C29 (when it fires), C40, C44, C45, C46: the non-LTE iteration, ranks, snapshots and restart

`Phys` is arbitrary in every theorem: the claims hold whatever the formal solution, statistical equilibrium,
charge conservation and extrapolation compute.
-/
namespace DexRT
variable {P E H : Type}

/-! ## C29: when Ng acceleration fires -/

/-- The accelerator after a history of calls. -/
def ngAfter {V : Type} (accelTol lowerTol : Fl) (h0 : Nat → Fl) (p0 : Nat → V) (calls : List (V × Fl)) : NgState V :=
  calls.foldl (fun s e => (ngRecord accelTol lowerTol s e.1 e.2).1) (ngInit h0 p0)

theorem ngAfter_snoc {V : Type} (a l : Fl) (h0 : Nat → Fl) (p0 : Nat → V) (calls : List (V × Fl)) (e : V × Fl) :
    ngAfter a l h0 p0 (calls ++ [e]) = (ngRecord a l (ngAfter a l h0 p0 calls) e.1 e.2).1 := by
  simp [ngAfter, List.foldl_append]

theorem ngAfter_inv {V : Type} (a l : Fl) (h0 : Nat → Fl) (p0 : Nat → V) (calls : List (V × Fl)) :
    (ngAfter a l h0 p0 calls).stepCount = calls.length ∧
    ∀ j (hj : j < calls.length), calls.length ≤ j + 5 →
      (ngAfter a l h0 p0 calls).hist (j % 5) = calls[j].2 ∧ (ngAfter a l h0 p0 calls).pops (j % 5) = calls[j].1 := by
  induction calls using List.reverseRecOn with
  | nil => exact ⟨rfl, fun j hj => absurd hj (by simp)⟩
  | append_singleton xs x ih =>
    rw [ngAfter_snoc]
    refine ⟨by rw [ngRecord_count, ih.1]; simp, fun j hj h5 => ?_⟩
    rw [ngRecord_hist, ngRecord_pops, ih.1]
    simp only [List.length_append, List.length_singleton] at hj h5
    by_cases hjl : j = xs.length
    · subst hjl; simp
    · have hlt : j < xs.length := by omega
      have hne : ¬ j % 5 = xs.length % 5 := by omega
      simp only [hne, if_false]
      rw [List.getElem_append_left hlt]
      exact ih.2 j hlt (by omega)

/-- C29 (firing rule): whatever was recorded before and whatever the arrays contained initially, the `n`-th
call extrapolates iff `n` is a multiple of 5, the newest change is not below the lower threshold, and none of
the last five recorded changes exceeds the acceleration threshold. -/
theorem C29_fires {V : Type} (accelTol lowerTol : Fl) (h0 : Nat → Fl) (p0 : Nat → V) (calls : List (V × Fl))
    (e : V × Fl) :
    (ngRecord accelTol lowerTol (ngAfter accelTol lowerTol h0 p0 calls) e.1 e.2).2 = true ↔
      (calls ++ [e]).length % 5 = 0 ∧ flLt e.2 lowerTol = false ∧
      ∀ j (hj : j < (calls ++ [e]).length), (calls ++ [e]).length ≤ j + 5 →
        flGt (calls ++ [e])[j].2 accelTol = false := by
  have hi := ngAfter_inv accelTol lowerTol h0 p0 calls
  rw [ngRecord_fire, hi.1]
  have hlen : (calls ++ [e]).length = calls.length + 1 := by simp
  constructor
  · rintro ⟨h1, h2, h3⟩
    refine ⟨by omega, h2, fun j hj h5 => ?_⟩
    have := h3 (j % 5) (by omega)
    by_cases hjl : j = calls.length
    · subst hjl; simpa using this
    · have hlt : j < calls.length := by omega
      have hne : ¬ j % 5 = calls.length % 5 := by omega
      simp only [hne, if_false] at this
      rw [(hi.2 j hlt (by omega)).1] at this
      rw [List.getElem_append_left hlt]; exact this
  · rintro ⟨h1, h2, h3⟩
    refine ⟨by omega, h2, fun i hi5 => ?_⟩
    -- the call whose slot is i
    by_cases h4 : i = calls.length % 5
    · have := h3 calls.length (by omega) (by omega)
      simp only [h4, if_true]
      simpa using this
    · have hj : calls.length - 4 + i < calls.length := by omega
      have := h3 (calls.length - 4 + i) (by omega) (by omega)
      rw [List.getElem_append_left hj] at this
      have hm : (calls.length - 4 + i) % 5 = i := by omega
      have h6 := (hi.2 _ hj (by omega)).1
      rw [hm] at h6
      simp only [h4, if_false]
      rw [h6]; exact this

/-- C29: when it fires, the five slots used by the extrapolation hold the last five iterates, oldest first. -/
theorem C29_iterates {V : Type} (accelTol lowerTol : Fl) (h0 : Nat → Fl) (p0 : Nat → V) (calls : List (V × Fl))
    (hl : calls.length % 5 = 0) (k : Nat) (hk : k < 5) (h5 : 5 ≤ calls.length) :
    (ngAfter accelTol lowerTol h0 p0 calls).pops k = (calls[calls.length - 5 + k]'(by omega)).1 := by
  have := ((ngAfter_inv accelTol lowerTol h0 p0 calls).2 (calls.length - 5 + k) (by omega) (by omega)).2
  rw [show (calls.length - 5 + k) % 5 = k by omega] at this
  exact this

/-- Non-vacuity: the fifth call fires when all changes are small. -/
example : (ngRecord (some (1/20)) (some (1/5000)) (ngAfter (some (1/20)) (some (1/5000)) (fun _ => none) (fun _ => 0)
    [((1:Nat), some (1/50)), (2, some (1/50)), (3, some (1/50)), (4, some (1/50))]) 5 (some (1/50))).2 = true := by
  decide +kernel

/-! ## C40: the loop ends -/

/-- C40: from any start (fresh or restarted at iteration `i0`) the loop ends; it runs at most one iteration
beyond `max_iter`; it never ends on an accelerated (extrapolated) state; and if it ends before `max_iter` the
reported change does not exceed the tolerance and the initial lambda iterations are over. -/
theorem C40_loop (c : IterCfg) (ph : Phys P E H) (h0 : Nat → Fl) (p0 : Nat → P) (i0 : Int) (f : Fields P E H) :
    ∃ n, LoopEnds c ph (iterInit c h0 p0 i0 f) n ∧
      ((n : Int) ≤ max 0 (c.maxIters - i0 + 1)) ∧
      (iterN c ph (iterInit c h0 p0 i0 f) n).accelerated = false ∧
      ((iterN c ph (iterInit c h0 p0 i0 f) n).i < c.maxIters →
        flGt (iterN c ph (iterInit c h0 p0 i0 f) n).maxChange c.tol = false ∧
        c.initialLambda + 1 ≤ (iterN c ph (iterInit c h0 p0 i0 f) n).i) := by
  set s := iterInit c h0 p0 i0 f with hs
  have hacc : s.accelerated = false := rfl
  have hi : s.i = i0 := rfl
  have key : ∃ N : Nat, iterCond c (iterN c ph s N) = false ∧ (N : Int) ≤ max 0 (c.maxIters - i0 + 1) := by
    by_cases hm : c.maxIters ≤ i0
    · refine ⟨0, ?_, by simp⟩
      simp only [iterCond, iterN, hacc, hi, Bool.or_false]
      simp [show ¬ i0 < c.maxIters by omega]
    · have hN : ((c.maxIters - i0).toNat : Int) = c.maxIters - i0 := by omega
      by_cases ha : (iterN c ph s (c.maxIters - i0).toNat).accelerated = true
      · refine ⟨(c.maxIters - i0).toNat + 1, ?_, by push_cast; omega⟩
        have h2 := not_twice c ph s hacc _ ha
        unfold iterCond
        rw [h2, iterN_i, hi]
        push_cast
        rw [decide_eq_false (show ¬ (i0 + ((c.maxIters - i0).toNat + 1) < c.maxIters) by omega)]
        simp
      · refine ⟨(c.maxIters - i0).toNat, ?_, by omega⟩
        unfold iterCond
        rw [iterN_i, hi, Bool.eq_false_iff.mpr ha]
        rw [decide_eq_false (show ¬ (i0 + ((c.maxIters - i0).toNat : Int) < c.maxIters) by omega)]
        simp
  obtain ⟨N, hN, hb⟩ := key
  obtain ⟨n, hn, hl⟩ := loopEnds_of_false hN
  refine ⟨n, hl, by omega, ?_, ?_⟩
  · have := hl.2
    unfold iterCond at this
    simp only [Bool.or_eq_false_iff] at this
    exact this.2
  · intro hlt
    have := hl.2
    unfold iterCond at this
    simp only [Bool.or_eq_false_iff, Bool.and_eq_false_iff, decide_eq_false_iff_not] at this
    rcases this.1 with h | h
    · exact ⟨h.1, by omega⟩
    · exact absurd hlt h

/-- The largest reported change is the largest change, provided none of them is NaN. -/
theorem C40_reported_partial (low : ℚ) (changes : List ℚ) (x : ℚ) (hx : x ∈ changes) :
    ∃ m, reportedChange low (changes.map some) = some m ∧ x ≤ m ∧ 0 ≤ m := by
  have fold : ∀ (l : List ℚ) (m0 : ℚ), ∃ m, (l.map some).foldl (fun m ch => if flGt ch m then ch else m) (some m0) = some m
      ∧ m0 ≤ m ∧ ∀ y ∈ l, y ≤ m := by
    intro l
    induction l with
    | nil => intro m0; exact ⟨m0, rfl, le_refl _, fun y hy => absurd hy (by simp)⟩
    | cons a l ih =>
      intro m0
      by_cases h : m0 < a
      · obtain ⟨m, e, h1, h2⟩ := ih a
        refine ⟨m, by simp only [List.map_cons, List.foldl_cons, flGt, h, decide_true, if_true]; exact e, by linarith, ?_⟩
        intro y hy
        rcases List.mem_cons.mp hy with rfl | hy
        · exact h1
        · exact h2 y hy
      · obtain ⟨m, e, h1, h2⟩ := ih m0
        refine ⟨m, by simp only [List.map_cons, List.foldl_cons, flGt, h, decide_false]; exact e, h1, ?_⟩
        intro y hy
        rcases List.mem_cons.mp hy with rfl | hy
        · linarith
        · exact h2 y hy
  obtain ⟨m, e, _, h2⟩ := fold changes low
  unfold reportedChange
  rw [e]
  by_cases h : m < 0
  · exact ⟨0, by simp [flMax, flLt, flGt, h], by have := h2 x hx; linarith, le_refl _⟩
  · exact ⟨m, by simp [flMax, flLt, flGt, h], h2 x hx, by linarith⟩

/-- "Stops early only if the change is within tolerance" is **false** for populations that became NaN: a
cell whose new populations are NaN reports no change at all, so a run whose populations all turned into NaN
reports change 0 and ends as converged. -/
theorem C40_refuted_nan (low : ℚ) (hlow : low < 0) (n : Nat) :
    reportedChange low (List.replicate n none) = some 0 := by
  have : ∀ n, (List.replicate n (none : Fl)).foldl (fun m ch => if flGt ch m then ch else m) (some low) = some low := by
    intro n
    induction n with
    | zero => rfl
    | succ n ih => rw [List.replicate_succ, List.foldl_cons]; simpa [flGt] using ih
  unfold reportedChange
  rw [this]
  simp [flMax, flLt, flGt, hlow]

/-- A run in which everything happens: lambda iterations, an acceleration in the last allowed iteration and
the extra iteration after it. -/
def exCfg : IterCfg :=
  { tol := some (1/1000), initialLambda := 2, maxIters := 4, ng := true, accelTol := some 2,
    lowerTol := some 0, consCharge := false, consPressure := false, pressNr := true, snapFreq := 4 }
def exPhys : Phys Nat Nat Nat :=
  { statEq := fun _ w => ((w 0).pops + 1, some (1/2)), nr := fun _ f => (f, some 0), press := fun f => (f, some 0),
    extrap := fun h => h 4 + 1000 }
def exStart : IterState Nat Nat Nat := iterInit exCfg (fun _ => none) (fun _ => 0) 0 { pops := 0, ne := 0, nh := 0 }

example : LoopEnds exCfg exPhys exStart 5 := by
  constructor
  · intro k hk
    have : k = 0 ∨ k = 1 ∨ k = 2 ∨ k = 3 ∨ k = 4 := by omega
    rcases this with rfl | rfl | rfl | rfl | rfl <;> decide +kernel
  · decide +kernel

/-! ## C44: all ranks work with the same state -/

/-- All ranks hold the same fields. -/
def Agree (w : Nat → Fields P E H) : Prop := ∀ r, w r = w 0

theorem worldN_i (c : IterCfg) (ph : Phys P E H) (s : WorldState P E H) (k : Nat) :
    (worldN c ph s k).i = s.i + k := by
  induction k with
  | zero => simp [worldN]
  | succ k ih => rw [worldN]; show (worldN c ph s k).i + 1 = _; rw [ih]; push_cast; omega

theorem fields_ext {a b : Fields P E H} (h1 : a.pops = b.pops) (h2 : a.ne = b.ne) (h3 : a.nh = b.nh) : a = b := by
  cases a; cases b; simp_all

theorem worldStep_pops (c : IterCfg) (ph : Phys P E H) (s : WorldState P E H) (r : Nat) :
    ((worldStep c ph s).w r).pops = ((worldStep c ph s).w 0).pops := rfl

theorem worldStep_ne (c : IterCfg) (ph : Phys P E H) (s : WorldState P E H) (r : Nat)
    (hp : c.pressNr = true ∨ c.consPressure = false)
    (h : (s.w r).ne = (s.w 0).ne ∨ (0 < s.i ∧ c.consCharge = true)) :
    ((worldStep c ph s).w r).ne = ((worldStep c ph s).w 0).ne := by
  by_cases hr : r = 0
  · rw [hr]
  · have hpp : (!c.pressNr && c.consPressure) = false := by rcases hp with h | h <;> simp [h]
    simp only [worldStep, hr, if_false, if_true, rank0Update, hpp]
    by_cases hs : (decide (s.i > 0) && c.consCharge) = true
    · simp [hs]
    · simp only [hs, if_false, Bool.false_eq_true]
      rcases h with h | ⟨h1, h2⟩
      · exact h
      · exfalso; apply hs; simp [h1, h2]

theorem worldStep_nh (c : IterCfg) (ph : Phys P E H) (s : WorldState P E H) (r : Nat)
    (hp : c.pressNr = true ∨ c.consPressure = false)
    (h : (s.w r).nh = (s.w 0).nh ∨ (0 < s.i ∧ c.consCharge = true ∧ c.consPressure = true)) :
    ((worldStep c ph s).w r).nh = ((worldStep c ph s).w 0).nh := by
  by_cases hr : r = 0
  · rw [hr]
  · have hpp : (!c.pressNr && c.consPressure) = false := by rcases hp with h | h <;> simp [h]
    simp only [worldStep, hr, if_false, if_true, rank0Update, hpp]
    by_cases hs : (decide (s.i > 0) && c.consCharge) = true
    · by_cases hcp : c.consPressure = true
      · simp [hs, hcp]
      · have hcp' : c.consPressure = false := by simpa using hcp
        rcases h with h | h
        · simp [hs, hcp', nrUpdate, h]
        · exact absurd h.2.2 hcp
    · simp only [hs, if_false, Bool.false_eq_true, Bool.false_and]
      rcases h with h | ⟨h1, h2, _⟩
      · exact h
      · exfalso; apply hs; simp [h1, h2]

theorem worldStep_agree (c : IterCfg) (ph : Phys P E H) (s : WorldState P E H)
    (hp : c.pressNr = true ∨ c.consPressure = false) (h : Agree s.w) : Agree (worldStep c ph s).w := fun r =>
  fields_ext (worldStep_pops c ph s r) (worldStep_ne c ph s r hp (.inl (by rw [h r])))
    (worldStep_nh c ph s r hp (.inl (by rw [h r])))

/-- C44 for a restarted run (or any start in which the ranks agree), with pressure conservation inside the
Newton-Raphson update or off: all ranks hold the same populations, electron and hydrogen densities before
every iteration. -/
theorem C44_from_agreement (c : IterCfg) (ph : Phys P E H) (h0 : Nat → Nat → Fl) (p0 : Nat → Nat → P) (i0 : Int)
    (w : Nat → Fields P E H) (hp : c.pressNr = true ∨ c.consPressure = false) (h : Agree w) (k : Nat) :
    Agree (worldN c ph (worldInit c h0 p0 i0 w) k).w := by
  induction k with
  | zero => exact h
  | succ k ih => exact worldStep_agree c ph _ hp ih

/-- C44, **partial**: a fresh run. The ranks agree from the third iteration on; from the second if charge is
not conserved; from the first if moreover no atom starts from zero-radiation populations. Missing: the
first two iterations of a charge-conserving run, see `C44_refuted`; and `CONSERVE_PRESSURE_NR = false`, see
`C44_refuted_simple_pressure`. -/
theorem C44_fresh_partial (c : IterCfg) (ph : Phys P E H) (h0 : Nat → Nat → Fl) (p0 : Nat → Nat → P)
    (zeroRad : Bool) (f f0 : Fields P E H) (pz : P) (hp : c.pressNr = true ∨ c.consPressure = false) (k : Nat)
    (hk : 2 ≤ k ∨ (1 ≤ k ∧ c.consCharge = false) ∨ (c.consCharge = false ∧ zeroRad = false)) :
    Agree (worldN c ph (worldInit c h0 p0 0 (startupWorld c zeroRad f f0 pz)) k).w := by
  set s := worldInit c h0 p0 0 (startupWorld c zeroRad f f0 pz) with hs
  by_cases hcc : c.consCharge = false
  · -- densities always agree
    have hd : ∀ k r, ((worldN c ph s k).w r).ne = ((worldN c ph s k).w 0).ne ∧
        ((worldN c ph s k).w r).nh = ((worldN c ph s k).w 0).nh := by
      intro k r
      induction k with
      | zero =>
        show ((startupWorld c zeroRad f f0 pz) r).ne = ((startupWorld c zeroRad f f0 pz) 0).ne ∧
          ((startupWorld c zeroRad f f0 pz) r).nh = ((startupWorld c zeroRad f f0 pz) 0).nh
        by_cases hr : r = 0
        · subst hr; exact ⟨rfl, rfl⟩
        · simp [startupWorld, hr, hcc]
      | succ k ih => exact ⟨worldStep_ne c ph _ r hp (.inl ih.1), worldStep_nh c ph _ r hp (.inl ih.2)⟩
    intro r
    refine fields_ext ?_ (hd k r).1 (hd k r).2
    cases k with
    | succ k => exact worldStep_pops c ph _ r
    | zero =>
      have hz : zeroRad = false := by rcases hk with h | h | h <;> [omega; omega; exact h.2]
      show ((startupWorld c zeroRad f f0 pz) r).pops = ((startupWorld c zeroRad f f0 pz) 0).pops
      by_cases hr : r = 0
      · subst hr; rfl
      · simp [startupWorld, hr, hcc, hz]
  · have hcc' : c.consCharge = true := by simpa using hcc
    have hk2 : 2 ≤ k := by rcases hk with h | h | h <;> [exact h; exact absurd h.2 hcc; exact absurd h.1 hcc]
    obtain ⟨m, rfl⟩ : ∃ m, k = 2 + m := ⟨k - 2, by omega⟩
    -- densities of nh agree throughout unless they are broadcast
    have h2 : Agree (worldN c ph s 2).w := by
      intro r
      have hi1 : 0 < (worldN c ph s 1).i := by rw [worldN_i]; show (0:Int) < 0 + ((1:Nat):Int); omega
      refine fields_ext (worldStep_pops c ph _ r) (worldStep_ne c ph _ r hp (.inr ⟨hi1, hcc'⟩)) ?_
      apply worldStep_nh c ph _ r hp
      by_cases hcp : c.consPressure = true
      · exact .inr ⟨hi1, hcc', hcp⟩
      · left
        have hcp' : c.consPressure = false := by simpa using hcp
        apply worldStep_nh c ph _ r hp
        left
        show ((startupWorld c zeroRad f f0 pz) r).nh = ((startupWorld c zeroRad f f0 pz) 0).nh
        by_cases hr : r = 0
        · subst hr; rfl
        · simp [startupWorld, hr, hcp']
    clear hk hk2
    induction m with
    | zero => exact h2
    | succ m ih => rw [show 2 + (m + 1) = (2 + m) + 1 by omega]; exact worldStep_agree c ph _ hp ih

/-- C44 is **false** for a fresh charge-conserving run with more than one rank: in the first formal solution
(iteration 0) rank 0 uses the converged LTE electron density and populations, the others the ones they read
from file; and in iteration 1 the electron densities still differ. -/
theorem C44_refuted : ∃ (c : IterCfg) (ph : Phys Nat Nat Nat) (f f0 : Fields Nat Nat Nat),
    c.consCharge = true ∧ c.consPressure = false ∧
    ((worldN c ph (worldInit c (fun _ _ => none) (fun _ _ => 0) 0 (startupWorld c false f f0 0)) 0).w 1).pops ≠
      ((worldN c ph (worldInit c (fun _ _ => none) (fun _ _ => 0) 0 (startupWorld c false f f0 0)) 0).w 0).pops ∧
    ((worldN c ph (worldInit c (fun _ _ => none) (fun _ _ => 0) 0 (startupWorld c false f f0 0)) 1).w 1).ne ≠
      ((worldN c ph (worldInit c (fun _ _ => none) (fun _ _ => 0) 0 (startupWorld c false f f0 0)) 1).w 0).ne := by
  refine ⟨{ exCfg with consCharge := true, ng := false }, exPhys, { pops := 5, ne := 5, nh := 5 },
    { pops := 7, ne := 7, nh := 5 }, rfl, rfl, ?_, ?_⟩ <;> decide +kernel

/-- With `CONSERVE_PRESSURE_NR = false` the electron density of rank 0 is changed after it was broadcast, so
the ranks can disagree for the whole run. -/
theorem C44_refuted_simple_pressure : ∃ (c : IterCfg) (ph : Phys Nat Nat Nat) (f : Fields Nat Nat Nat),
    c.pressNr = false ∧ ∀ k, 2 ≤ k →
      ((worldN c ph (worldInit c (fun _ _ => none) (fun _ _ => 0) 0 (fun _ => f)) k).w 1).ne ≠
      ((worldN c ph (worldInit c (fun _ _ => none) (fun _ _ => 0) 0 (fun _ => f)) k).w 0).ne := by
  refine ⟨{ exCfg with consCharge := true, consPressure := true, pressNr := false, ng := false },
    { exPhys with nr := fun _ f => ({ f with ne := 3 }, some 0), press := fun f => ({ f with ne := f.ne + 1 }, some 0) },
    { pops := 5, ne := 5, nh := 5 }, rfl, ?_⟩
  intro k hk
  obtain ⟨m, rfl⟩ : ∃ m, k = m + 1 + 1 := ⟨k - 2, by omega⟩
  set c : IterCfg := { exCfg with consCharge := true, consPressure := true, pressNr := false, ng := false }
  set ph : Phys Nat Nat Nat := { exPhys with nr := fun _ f => ({ f with ne := 3 }, some 0), press := fun f => ({ f with ne := f.ne + 1 }, some 0) }
  set s := worldN c ph (worldInit c (fun _ _ => none) (fun _ _ => 0) 0 (fun _ => { pops := 5, ne := 5, nh := 5 })) (m + 1) with hs
  have hi : decide (s.i > 0) = true := by
    rw [hs, worldN_i]; apply decide_eq_true
    show (0:Int) < 0 + ((m + 1 : Nat) : Int); omega
  show ((worldStep c ph s).w 1).ne ≠ ((worldStep c ph s).w 0).ne
  simp only [worldStep, rank0Update, hi]
  simp [c, ph, nrUpdate]

/-- C44 (control flow): whatever the fields do, all ranks always take the same decision at the loop head, so
no rank leaves the loop while others wait for it in a barrier. -/
theorem C44_same_decision (c : IterCfg) (ph : Phys P E H) (h0 : Nat → Nat → Fl) (p0 : Nat → Nat → P) (i0 : Int)
    (w : Nat → Fields P E H) (k r : Nat) :
    worldCond c (worldN c ph (worldInit c h0 p0 i0 w) k) r = worldCond c (worldN c ph (worldInit c h0 p0 i0 w) k) 0 := by
  set s0 := worldInit c h0 p0 i0 w with hs0
  have inv : ∀ k, (worldN c ph s0 k).accelerated r = (worldN c ph s0 k).accelerated 0 ∧
      (worldN c ph s0 k).maxChange r = (worldN c ph s0 k).maxChange 0 ∧
      ((worldN c ph s0 k).ng r).stepCount = ((worldN c ph s0 k).ng 0).stepCount ∧
      ∀ j < 5, j < ((worldN c ph s0 k).ng 0).stepCount → ((worldN c ph s0 k).ng r).hist j = ((worldN c ph s0 k).ng 0).hist j := by
    intro k
    induction k with
    | zero =>
      refine ⟨rfl, rfl, ?_, ?_⟩
      · show (iterInit c (h0 r) (p0 r) i0 (w r)).ng.stepCount = (iterInit c (h0 0) (p0 0) i0 (w 0)).ng.stepCount
        cases hng : c.ng <;> simp [iterInit, hng, ngRecord_count, ngInit]
      · intro j hj
        show j < (iterInit c (h0 0) (p0 0) i0 (w 0)).ng.stepCount →
          (iterInit c (h0 r) (p0 r) i0 (w r)).ng.hist j = (iterInit c (h0 0) (p0 0) i0 (w 0)).ng.hist j
        cases hng : c.ng with
        | false => simp [iterInit, hng, ngInit]
        | true =>
          simp only [iterInit, hng, if_true, ngRecord_count, ngRecord_hist]
          intro hlt
          have : j = 0 := by simp [ngInit] at hlt; omega
          subst this; simp [ngInit]
    | succ k ih =>
      obtain ⟨a, b, d, e⟩ := ih
      set s := worldN c ph s0 k
      show (worldStep c ph s).accelerated r = (worldStep c ph s).accelerated 0 ∧
        (worldStep c ph s).maxChange r = (worldStep c ph s).maxChange 0 ∧
        ((worldStep c ph s).ng r).stepCount = ((worldStep c ph s).ng 0).stepCount ∧
        ∀ j < 5, j < ((worldStep c ph s).ng 0).stepCount → ((worldStep c ph s).ng r).hist j = ((worldStep c ph s).ng 0).hist j
      cases hng : c.ng with
      | false =>
        simp only [worldStep, ngStep, hng, Bool.false_eq_true, if_false]
        exact ⟨a, trivial, d, e⟩
      | true =>
        simp only [worldStep, ngStep, hng, if_true, ngRecord_count, ngRecord_hist, d]
        refine ⟨?_, trivial, trivial, ?_⟩
        · rw [Bool.eq_iff_iff, ngRecord_fire, ngRecord_fire, d]
          constructor
          · rintro ⟨x, y, z⟩
            refine ⟨x, y, fun i hi => ?_⟩
            have := z i hi
            by_cases hie : i = (s.ng 0).stepCount % 5
            · simpa [hie] using this
            · simp only [hie, if_false] at this ⊢; rw [← e i hi (by omega)]; exact this
          · rintro ⟨x, y, z⟩
            refine ⟨x, y, fun i hi => ?_⟩
            have := z i hi
            by_cases hie : i = (s.ng 0).stepCount % 5
            · simpa [hie] using this
            · simp only [hie, if_false] at this ⊢; rw [e i hi (by omega)]; exact this
        · intro j hj hlt
          by_cases hje : j = (s.ng 0).stepCount % 5
          · simp [hje]
          · simp only [hje, if_false]; exact e j hj (by omega)
  obtain ⟨a, b, _, _⟩ := inv k
  simp [worldCond, a, b]

/-! ## C45: restart -/

/-- Restarting from the snapshot taken after `k` iterations restores the iteration number and all fields,
whatever the atmosphere file contains for the saved quantities. `f` are the fields loaded before the restart,
`f1` those the original run started iterating with: they agree on what iterations cannot change. -/
theorem C45_restores (c : IterCfg) (ph : Phys P E H)
    (h0 : Nat → Fl) (p0 : Nat → P) (f f1 : Fields P E H)
    (hne : c.consCharge = false → f.ne = f1.ne) (hnh : c.consPressure = false → f.nh = f1.nh) (k : Nat) :
    let s := iterN c ph (iterInit c h0 p0 0 f1) k
    handleRestart (snapshotOf c s.i s.f) f = .ok ((k : Int), s.f) := by
  intro s
  have hi : s.i = k := by rw [show s.i = _ from iterN_i ..]; show (0:Int) + k = k; omega
  have fr := iterN_frame c ph (iterInit c h0 p0 0 f1) k
  simp only [handleRestart, snapshotOf, hi]
  congr 1
  refine Prod.ext rfl (fields_ext rfl ?_ ?_)
  · cases hc : c.consCharge with
    | true => simp
    | false => simp only [Bool.false_eq_true, if_false, Option.getD_none]; rw [hne hc]; exact (fr.1 hc).symm
  · cases hc : c.consPressure with
    | true => simp
    | false => simp only [Bool.false_eq_true, if_false, Option.getD_none]; rw [hnh hc]; exact (fr.2 (.inr hc)).symm

/-- C45, **partial** (without Ng acceleration; tolerance below 1): if the original run would go on after the
snapshot, the restarted run makes the remaining iterations, with the same fields after each of them, and ends
with the same result. Missing: runs with Ng acceleration, see `C45_refuted_ng`. -/
theorem C45_resume_partial (c : IterCfg) (ph : Phys P E H)
    (hng : c.ng = false) (htol : flGt (some 1) c.tol = true)
    (h0 h0' : Nat → Fl) (p0 p0' : Nat → P) (f f1 : Fields P E H)
    (hne : c.consCharge = false → f.ne = f1.ne) (hnh : c.consPressure = false → f.nh = f1.nh)
    (k n : Nat) (hkn : k < n) (hrun : LoopEnds c ph (iterInit c h0 p0 0 f1) n) :
    let s := iterN c ph (iterInit c h0 p0 0 f1) k
    ∃ i' f', handleRestart (snapshotOf c s.i s.f) f = .ok (i', f') ∧
      LoopEnds c ph (iterInit c h0' p0' i' f') (n - k) ∧
      ∀ j, (iterN c ph (iterInit c h0' p0' i' f') j).f = (iterN c ph (iterInit c h0 p0 0 f1) (k + j)).f := by
  intro s
  refine ⟨_, _, C45_restores c ph h0 p0 f f1 hne hnh k, ?_, ?_⟩
  · have hi : s.i = k := by rw [show s.i = _ from iterN_i ..]; show (0:Int) + k = k; omega
    set t := iterInit c h0' p0' (k : Int) s.f
    have hd := fun j => iterN_det ph hng (s := t) (t := s) hi.symm rfl j
    have hst : ∀ j, iterN c ph s j = iterN c ph (iterInit c h0 p0 0 f1) (k + j) := fun j => (iterN_add ..).symm
    have hacc : ∀ u : IterState P E H, ∀ j, u.accelerated = false → (iterN c ph u j).accelerated = false := by
      intro u j h; rw [iterN_acc_noNg _ _ _ hng, h]
    have hcond : ∀ j, 0 < j → iterCond c (iterN c ph t j) = iterCond c (iterN c ph (iterInit c h0 p0 0 f1) (k + j)) := by
      intro j hj
      rw [← hst]
      unfold iterCond
      rw [(hd j).1, (hd j).2.2 hj, hacc t j rfl, hacc s j (hacc _ k rfl)]
    constructor
    · intro j hj
      by_cases hj0 : j = 0
      · subst hj0
        have := hrun.1 k hkn
        unfold iterCond at this ⊢
        rw [hacc _ k rfl] at this
        simp only [Bool.or_false, Bool.and_eq_true, decide_eq_true_eq] at this
        have hlt : (k:Int) < c.maxIters := by
          have := this.2; rw [← show s.i = (iterN c ph (iterInit c h0 p0 0 f1) k).i from rfl, hi] at this; exact this
        show ((flGt (some 1) c.tol || decide ((k:Int) < c.initialLambda + 1)) && decide ((k:Int) < c.maxIters) || false) = true
        simp [htol, hlt]
      · rw [hcond j (by omega)]; exact hrun.1 _ (by omega)
    · rw [hcond (n - k) (by omega), show k + (n - k) = n by omega]; exact hrun.2
  · intro j
    have hi : s.i = k := by rw [show s.i = _ from iterN_i ..]; show (0:Int) + k = k; omega
    have := (iterN_det ph hng (s := iterInit c h0' p0' (k : Int) s.f) (t := s) hi.symm rfl j).2.1
    rw [this, iterN_add]

/-- Non-vacuity: a charge-conserving run of four iterations restarted after two. -/
example : ∃ (c : IterCfg) (ph : Phys Nat Nat Nat) (f1 : Fields Nat Nat Nat), c.consCharge = true ∧ c.ng = false ∧
    flGt (some 1) c.tol = true ∧ LoopEnds c ph (iterInit c (fun _ => none) (fun _ => 0) 0 f1) 4 := by
  refine ⟨{ exCfg with ng := false, consCharge := true }, exPhys, { pops := 0, ne := 0, nh := 0 }, rfl, rfl,
    by decide +kernel, ?_, by decide +kernel⟩
  intro k hk
  have : k = 0 ∨ k = 1 ∨ k = 2 ∨ k = 3 := by omega
  rcases this with rfl | rfl | rfl | rfl <;> decide +kernel

/-- With Ng acceleration the claim is **false**, and so is "a run never ends on an extrapolated state" once
restarts are allowed: in the run `exStart` the snapshot taken after iteration 4 holds extrapolated
populations (1004); the uninterrupted run makes one more iteration (1005), the restarted run makes none and
ends with the extrapolated ones. -/
theorem C45_refuted_ng : ∃ (c : IterCfg) (ph : Phys Nat Nat Nat) (s : IterState Nat Nat Nat) (f : Fields Nat Nat Nat)
    (i' : Int) (f' : Fields Nat Nat Nat),
    s = iterInit c (fun _ => none) (fun _ => 0) 0 f ∧ snapshotDue c (iterN c ph s 4).i = true ∧
    LoopEnds c ph s 5 ∧ (iterN c ph s 4).accelerated = true ∧
    handleRestart (snapshotOf c (iterN c ph s 4).i (iterN c ph s 4).f) f = .ok (i', f') ∧
    LoopEnds c ph (iterInit c (fun _ => none) (fun _ => 0) i' f') 0 ∧
    f'.pops = 1004 ∧ (iterN c ph s 5).f.pops = 1005 := by
  refine ⟨exCfg, exPhys, exStart, { pops := 0, ne := 0, nh := 0 }, 4, { pops := 1004, ne := 0, nh := 0 }, rfl,
    by decide +kernel, ⟨?_, by decide +kernel⟩, by decide +kernel, by decide +kernel, ⟨by omega, by decide +kernel⟩, rfl, by decide +kernel⟩
  intro k hk
  have : k = 0 ∨ k = 1 ∨ k = 2 ∨ k = 3 ∨ k = 4 := by omega
  rcases this with rfl | rfl | rfl | rfl | rfl <;> decide +kernel

/-! ## C46: crash safety of snapshots -/

/-- The last operation of `save_snapshot` leaves the complete file. -/
theorem C46_complete (c : IterCfg) (i : Int) (f : Fields P E H) :
    (snapshotWrites c i f)[4]? = some (snapshotOf c i f) := by
  cases hc : c.consCharge <;> cases hp : c.consPressure <;> simp [snapshotWrites, snapshotOf, hc, hp]

/-- C46, **partial** (crash while no snapshot is being written): whenever the process dies after `n`
iterations, the snapshot file is the complete snapshot of the latest iteration `m ≤ n` at which one was due,
and there is none only if none was due. Missing: a crash during `save_snapshot`, see `C46_refuted`. -/
theorem C46_idle_partial (c : IterCfg) (ph : Phys P E H) (s : IterState P E H) (n : Nat) :
    (fileIdle c ph s n = none ∧ ∀ m, 0 < m → m ≤ n → snapshotDue c (iterN c ph s m).i = false) ∨
    ∃ m, 0 < m ∧ m ≤ n ∧ snapshotDue c (iterN c ph s m).i = true ∧
      (∀ l, m < l → l ≤ n → snapshotDue c (iterN c ph s l).i = false) ∧
      fileIdle c ph s n = some (snapshotOf c (iterN c ph s m).i (iterN c ph s m).f) := by
  induction n with
  | zero => left; exact ⟨rfl, fun m h1 h2 => by omega⟩
  | succ n ih =>
    cases hd : snapshotDue c (iterN c ph s (n + 1)).i with
    | true =>
      right
      exact ⟨n + 1, by omega, le_refl _, hd, fun l h1 h2 => by omega, by simp [fileIdle, hd]⟩
    | false =>
      have e : fileIdle c ph s (n + 1) = fileIdle c ph s n := by simp [fileIdle, hd]
      rw [e]
      rcases ih with ⟨h1, h2⟩ | ⟨m, h0, h1, h2, h3, h4⟩
      · left
        refine ⟨h1, fun m hm hle => ?_⟩
        by_cases h : m = n + 1
        · rw [h]; exact hd
        · exact h2 m hm (by omega)
      · right
        refine ⟨m, h0, by omega, h2, fun l hl hle => ?_, h4⟩
        by_cases h : l = n + 1
        · rw [h]; exact hd
        · exact h3 l hl (by omega)

/-- The full claim (after the first completed snapshot, any crash leaves a file from which the run can be
resumed) is **false**. If the process dies during a later `save_snapshot`, (1) right after the file was
replaced, the old snapshot is gone and a restart throws; (2) between writing the populations and the electron
density of a charge-conserving run, a restart is accepted but silently combines the new populations with the
electron density of the atmosphere file. -/
theorem C46_refuted : ∃ (c : IterCfg) (ph : Phys Nat Nat Nat) (f : Fields Nat Nat Nat),
    let s := iterInit c (fun _ => none) (fun _ => 0) 0 f
    (∃ snap, fileIdle c ph s 2 = some snap ∧ ∃ r, handleRestart snap f = .ok r) ∧
    (∃ snap, fileTorn c ph s 3 0 = some snap ∧ handleRestart snap f = .throws) ∧
    (∃ snap r, fileTorn c ph s 3 2 = some snap ∧ handleRestart snap f = .ok r ∧ r.1 = 3 ∧
      r.2.pops = (iterN c ph s 3).f.pops ∧ r.2.ne ≠ (iterN c ph s 3).f.ne) := by
  refine ⟨{ exCfg with ng := false, consCharge := true, snapFreq := 1 },
    { exPhys with nr := fun _ f => ({ f with ne := f.ne + 1 }, some 0) }, { pops := 0, ne := 0, nh := 0 }, ?_, ?_, ?_⟩
  · exact ⟨_, rfl, _, rfl⟩
  · exact ⟨_, rfl, rfl⟩
  · exact ⟨_, _, rfl, rfl, by decide +kernel, by decide +kernel, by decide +kernel⟩

/-- The snapshot never overwrites the output file: its name is always different (nine characters longer, or
twelve if the path does not contain `.nc`). -/
theorem C46_name (name : List Char) : snapshotName name ≠ name := by
  intro h
  have hl : (snapshotName name).length = name.length := by rw [h]
  unfold snapshotName at hl
  simp only at hl
  split at hl
  · simp at hl
  · rename_i p hp
    have hm := List.find?_some hp
    have h3 : ((name.drop p).take 3).length = 3 := by
      rw [beq_iff_eq] at hm; rw [hm]; rfl
    simp only [List.length_take, List.length_drop] at h3
    simp only [List.length_append, List.length_take, List.length_drop, List.length_cons, List.length_nil] at hl
    omega

example : snapshotName "out.nc".toList = "out_snapshot.nc".toList := by decide +kernel

end DexRT
