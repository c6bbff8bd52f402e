import Verif.Lemmas.RcInterp
/-!
# C16-C19: ray intervals, cascade buffers, probe interpolation
-/
namespace DexRT

/-- **C16** 2D: cascade 0 starts at the probe, each cascade starts where the previous one ends, and the
last cascade ends at the configured maximum distance (or, without that option, at the natural length). -/
theorem C16_intervals2 (c : RcCfg) (l : LenCfg) (num : Nat) :
    (intervalLength c l num 0).1 = 0 ∧
    (∀ n, n < num → (intervalLength c l num n).2 = (intervalLength c l num (n + 1)).1) ∧
    (intervalLength c l num num).2 =
      if l.toInfty then l.maxDist else l.len0 * 2 ^ numFlatRaysExponent c num := by
  refine ⟨by simp [intervalLength], ?_, ?_⟩
  · intro n hn
    have h : ¬ (n = num) := by omega
    simp [intervalLength, h]
  · simp [intervalLength]

/-- **C16** 2D: no interval but the last is reversed; the last one is in order exactly when the maximum
distance is at least the start of the last cascade. -/
theorem C16_ordered2 (c : RcCfg) (l : LenCfg) (hl : 0 < l.len0) (num : Nat) :
    (∀ n, n < num → (intervalLength c l num n).1 ≤ (intervalLength c l num n).2) ∧
    (l.toInfty = true → 0 < num → ((intervalLength c l num num).1 ≤ (intervalLength c l num num).2 ↔
      l.len0 * 2 ^ numFlatRaysExponent c (num - 1) ≤ l.maxDist)) := by
  constructor
  · intro n hn
    have h : ¬ (n = num) := by omega
    simp only [intervalLength, h, and_false, if_false]
    rcases Nat.eq_zero_or_pos n with h0 | h0
    · subst h0; simp; exact hl.le
    · obtain ⟨m, rfl⟩ : ∃ m, n = m + 1 := ⟨n - 1, by omega⟩
      simp only [Nat.add_sub_cancel, Nat.succ_pos, if_true]
      rw [if_neg (by omega)]
      apply mul_le_mul_of_nonneg_left _ hl.le
      apply pow_le_pow_right₀ (by norm_num)
      rw [exponent_succ]; omega
  · intro ht hn
    simp only [intervalLength, ht, and_self, if_true]
    rw [if_neg (by omega), if_pos hn]

/-- **C16** With DexRT's default 2D constants (length 1.5, branching 2, maximum distance 20000) the last
interval is in order exactly for at most 7 cascades above cascade 0; from 8 on (accepted by the
configuration) the last rays run backwards. -/
theorem C16_default_limit (num : Nat) (hn : 0 < num) :
    let i := intervalLength ⟨2, 1, 0, 4, .dirByDir⟩ ⟨3 / 2, true, 20000⟩ num num
    i.1 ≤ i.2 ↔ num ≤ 7 := by
  intro i
  have := (C16_ordered2 ⟨2, 1, 0, 4, .dirByDir⟩ ⟨3 / 2, true, 20000⟩ (by norm_num) num).2 rfl hn
  rw [this]
  have he : numFlatRaysExponent ⟨2, 1, 0, 4, .dirByDir⟩ (num - 1) = 2 * (num - 1) := by
    simp [numFlatRaysExponent, RcCfg.vary]
  simp only [he]
  constructor
  · intro h
    by_contra hc
    have h14 : (2 : ℚ) ^ 14 ≤ 2 ^ (2 * (num - 1)) := pow_le_pow_right₀ (by norm_num) (by omega)
    have : (3 / 2 : ℚ) * 2 ^ 14 ≤ 20000 := le_trans (by linarith) h
    norm_num at this
  · intro h
    have h12 : (2 : ℚ) ^ (2 * (num - 1)) ≤ 2 ^ 12 := pow_le_pow_right₀ (by norm_num) (by omega)
    calc (3 / 2 : ℚ) * 2 ^ (2 * (num - 1)) ≤ 3 / 2 * 2 ^ 12 := by linarith
      _ ≤ 20000 := by norm_num

/-- **C16** 3D: cascade 0 starts at the probe and each cascade starts where the previous one ends. -/
theorem C16_intervals3 (l : LenCfg3) (num : Nat) :
    (intervalLength3 l num 0).1 = 0 ∧
    (∀ n, n < num → (intervalLength3 l num n).2 = (intervalLength3 l num (n + 1)).1) := by
  refine ⟨by simp [intervalLength3], ?_⟩
  intro n hn
  have h : ¬ (n = num) := by omega
  simp [intervalLength3, h]

/-- **C16** 3D, partial: the last cascade reaches the configured 3D maximum distance when that constant
equals the 2D one (as in the default configuration). -/
theorem C16_last3_partial (l : LenCfg3) (ht : l.toInfty = true) (heq : l.maxDist2 = l.maxDist3) (num : Nat) :
    (intervalLength3 l num num).2 = l.maxDist3 := by
  simp [intervalLength3, ht, heq]

/-- **C16** is false in 3D in general: the configured 3D maximum distance is ignored, the 2D one is used. -/
theorem C16_last3_refuted : ∃ l : LenCfg3, l.toInfty = true ∧ ∀ num, (intervalLength3 l num num).2 ≠ l.maxDist3 :=
  ⟨⟨6, 2, true, 20000, 40000⟩, rfl, by intro num; simp [intervalLength3]⟩

/-- Non-vacuity for the 3D statements: DexRT's default lengths. -/
example : intervalLength3 ⟨6, 2, true, 20000, 20000⟩ 5 4 = (48, 96) := by decide +kernel

/-- **C17** Whenever the buffers are allocated with the same buffering mode that indexes them (always so
in 2D), for every number of cascades and every cascade sizes: computing the cascades last to first stays
inside the buffers, each cascade's upper buffer is a different one and holds exactly the cascade above
when it is read, cascade 0 ends up in buffer 0, and every cascade the configuration accepts for output is
in the buffer that is written out. -/
theorem C17_buffers (pp : Bool) (entries : Nat → Nat) (num : Nat) (b : BufState)
    (hb : b.length = (bufferSizes pp entries num).length) :
    ∃ f reads, cascadePass pp (bufferSizes pp entries num) entries num (num + 1) b = .ok (f, reads) ∧
      (∀ n r, (n, r) ∈ reads ↔ n < num ∧ r = some (n + 1)) ∧
      (∀ n, n < num → (cascadeIndices pp num n).2 ≠ some (cascadeIndices pp num n).1) ∧
      f[0]? = some (some 0) ∧
      (∀ casc, outputAccepted pp num casc = true → f[casc]? = some (some casc)) := by
  obtain ⟨f, h1, h2, h3, h4⟩ := cascadePass_ok (pp := pp) (entries := entries) (num := num)
    (fun m hm => bufferSizes_ok pp entries num m hm) (num + 1) b hb (Nat.le_refl _) (by omega)
  refine ⟨f, goodReads num (num + 1), h1, ?_, ?_, ?_, ?_⟩
  · intro n r
    rw [mem_goodReads (Nat.le_refl _)]
    constructor
    · rintro ⟨_, h, h'⟩; exact ⟨h, h'⟩
    · rintro ⟨h, h'⟩; exact ⟨by omega, h, h'⟩
  · intro n hn
    rw [cascadeIndices_eq]
    simp only [show ¬ n = num by omega, if_false, ne_eq, Option.some.injEq]
    exact fun h => bufOf_ne pp n h.symm
  · have := h3 0 (by omega) (by omega)
    cases pp <;> simpa [bufOf] using this
  · intro casc hc
    simp only [outputAccepted, Bool.and_eq_true, decide_eq_true_eq, Bool.not_eq_true',
      Bool.and_eq_false_iff, decide_eq_false_iff_not] at hc
    obtain ⟨h5, h6⟩ := hc
    cases pp
    · have := h3 casc (by omega) (by intro m hm; simp [bufOf]; omega)
      simpa [bufOf] using this
    · have hle : casc ≤ 1 := by rcases h6 with h | h <;> simp_all
      interval_cases casc
      · have := h3 0 (by omega) (by omega); simpa [bufOf] using this
      · have := h3 1 (by omega) (by intro m hm; interval_cases m; simp [bufOf]); simpa [bufOf] using this

/-- Default 3D configuration: buffers allocated one per cascade (`PINGPONG_BUFFERS_3D = false`) but
indexed with the 2D flag (`PINGPONG_BUFFERS = true`); Healpix order 1 with 12 rays. -/
def defaultEntries3 (np0 np1 np2 : Nat) (n : Nat) : Nat :=
  cascadeEntries3 (cascadeSize3 (.healpix 1) ⟨np0, np1, np2, 12, 1⟩ n)

/-- **C17** is false in the default 3D configuration (1): on an 8x8x8 grid with the default 5 cascades
above cascade 0 a pass writes outside the allocated buffers. -/
theorem C17_overrun3_refuted :
    cascadePass true (bufferSizes false (defaultEntries3 8 8 8) 5) (defaultEntries3 8 8 8) 5 6
      (List.replicate 6 none) = .ub := by decide +kernel

/-- **C17** is false in the default 3D configuration (2): the configuration accepts output of every cascade
above 1, but the buffer written out for it is never filled (for every grid and every number of cascades
for which the pass itself succeeds). -/
theorem C17_output3_refuted (entries : Nat → Nat) (num : Nat) (f : BufState) (reads : List (Nat × Option Nat))
    (h : cascadePass true (bufferSizes false entries num) entries num (num + 1)
      (List.replicate (num + 1) none) = .ok (f, reads)) (casc : Nat) (h2 : 2 ≤ casc) (hc : casc ≤ num) :
    outputAccepted false num casc = true ∧ f[casc]? = some none := by
  refine ⟨by simp [outputAccepted, hc], ?_⟩
  have key : ∀ k (b f : BufState) reads, cascadePass true (bufferSizes false entries num) entries num k b
      = .ok (f, reads) → f[casc]? = b[casc]? := by
    intro k
    induction k with
    | zero => intro b f reads h; simp [cascadePass] at h; rw [h.1]
    | succ k ih =>
      intro b f reads h
      simp only [cascadePass] at h
      cases hst : cascadeStep true (bufferSizes false entries num) entries num k b with
      | throws => simp [hst] at h
      | ub => simp [hst] at h
      | ok p =>
        obtain ⟨b', rd⟩ := p
        simp only [hst, Outcome.ok_bind] at h
        have hb' : b' = b.set (bufOf true k) (some k) := by
          simp only [cascadeStep, cascadeIndices_eq] at hst
          split at hst
          · cases hst
          · split at hst
            · cases hst
            · by_cases hk : k = num
              · simp [hk] at hst; rw [← hst.1, hk]
              · simp only [hk, if_false] at hst
                split at hst
                · cases hst
                · split at hst
                  · cases hst
                  · simp at hst; exact hst.1.symm
        cases hp : cascadePass true (bufferSizes false entries num) entries num k b' with
        | throws => simp [hp] at h
        | ub => simp [hp] at h
        | ok q =>
          obtain ⟨b'', rds⟩ := q
          have := ih b' b'' rds hp
          simp only [hp, Outcome.ok_bind] at h
          have hf : f = b'' := by
            cases rd <;> simp at h <;> exact h.1.symm
          rw [hf, this, hb', List.getElem?_set_ne]
          simp only [bufOf, if_true]
          omega
  rw [key _ _ _ _ h, List.getElem?_replicate, if_pos (by omega)]

/-- **C17** 3D, partial: in the default 3D configuration a pass is nevertheless memory safe and reads the
right cascades when no cascade is larger than cascade 0 or 1 of the same parity. -/
theorem C17_buffers3_partial (entries : Nat → Nat) (num : Nat) (b : BufState) (hb : b.length = num + 1)
    (hsz : ∀ n, n ≤ num → entries n ≤ entries (n % 2)) :
    ∃ f reads, cascadePass true (bufferSizes false entries num) entries num (num + 1) b = .ok (f, reads) ∧
      (∀ n r, (n, r) ∈ reads ↔ n < num ∧ r = some (n + 1)) ∧ f[0]? = some (some 0) := by
  have hlen : (bufferSizes false entries num).length = num + 1 := by simp [bufferSizes]
  obtain ⟨f, h1, h2, h3, h4⟩ := cascadePass_ok (pp := true) (entries := entries) (num := num)
    (sizes := bufferSizes false entries num)
    (fun m hm => by
      refine ⟨entries (m % 2), ?_, hsz m hm⟩
      have : m % 2 < num + 1 := by omega
      simp [bufferSizes, bufOf, this])
    (num + 1) b (by rw [hb, hlen]) (Nat.le_refl _) (by omega)
  refine ⟨f, goodReads num (num + 1), h1, ?_, ?_⟩
  · intro n r
    rw [mem_goodReads (Nat.le_refl _)]
    constructor
    · rintro ⟨_, h, h'⟩; exact ⟨h, h'⟩
    · rintro ⟨h, h'⟩; exact ⟨by omega, h, h'⟩
  · have := h3 0 (by omega) (by omega)
    simpa [bufOf] using this

private theorem shift_half (N n : Nat) : N >>> (n + 1) = (N >>> n) / 2 := by
  rw [Nat.shiftRight_eq_div_pow, Nat.shiftRight_eq_div_pow, pow_succ, Nat.div_div_eq_div_mul]

/-- **C17** 3D: the size condition of `C17_buffers3_partial` holds in the default configuration for every
grid whose sides are all at least `2^num` cells. -/
theorem C17_sizes3_partial (np0 np1 np2 num : Nat) (h0 : 2 ^ num ≤ np0) (h1 : 2 ^ num ≤ np1)
    (h2 : 2 ^ num ≤ np2) (n : Nat) (hn : n ≤ num) :
    defaultEntries3 np0 np1 np2 n ≤ defaultEntries3 np0 np1 np2 (n % 2) := by
  have pos : ∀ N m, 2 ^ num ≤ N → m ≤ num → 1 ≤ N >>> m := by
    intro N m hN hm
    rw [Nat.shiftRight_eq_div_pow, Nat.le_div_iff_mul_le (by positivity), one_mul]
    exact le_trans (Nat.pow_le_pow_right (by norm_num) hm) hN
  have step : ∀ m, m + 1 ≤ num → defaultEntries3 np0 np1 np2 (m + 1) ≤ defaultEntries3 np0 np1 np2 m := by
    intro m hm
    have e : ∀ N, 2 ^ num ≤ N → max 1 (N >>> (m + 1)) ≤ max 1 (N >>> m) / 2 := by
      intro N hN
      have := pos N (m + 1) hN hm
      have h2 := shift_half N m
      omega
    have a0 := e np0 h0
    have a1 := e np1 h1
    have a2 := e np2 h2
    simp only [defaultEntries3, cascadeEntries3, cascadeSize3, azFactor, polarFactor]
    generalize max 1 (np0 >>> (m + 1)) = x0 at *
    generalize max 1 (np1 >>> (m + 1)) = x1 at *
    generalize max 1 (np2 >>> (m + 1)) = x2 at *
    generalize max 1 (np0 >>> m) = y0 at *
    generalize max 1 (np1 >>> m) = y1 at *
    generalize max 1 (np2 >>> m) = y2 at *
    have b0 : 2 * x0 ≤ y0 := by omega
    have b1 : 2 * x1 ≤ y1 := by omega
    have b2 : 2 * x2 ≤ y2 := by omega
    have hp : 2 ^ (2 * 1 * (m + 1)) = 4 * 2 ^ (2 * 1 * m) := by rw [mul_add, pow_add]; ring
    rw [hp]
    generalize 2 ^ (2 * 1 * m) = A
    have c1 : (2 * x0) * (2 * x1) * (2 * x2) ≤ y0 * y1 * y2 :=
      Nat.mul_le_mul (Nat.mul_le_mul b0 b1) b2
    calc x0 * x1 * x2 * (12 * (4 * A)) * (1 * 1) = (2 * (2 * x0 * x1 * x2)) * (12 * A) * (1 * 1) := by ring
      _ ≤ (2 * x0 * (2 * x1) * (2 * x2)) * (12 * A) * (1 * 1) := by
        apply Nat.mul_le_mul_right; apply Nat.mul_le_mul_right
        have e : 2 * x0 * (2 * x1) * (2 * x2) = 2 * (2 * (2 * x0 * x1 * x2)) := by ring
        omega
      _ ≤ y0 * y1 * y2 * (12 * A) * (1 * 1) := by
        apply Nat.mul_le_mul_right; apply Nat.mul_le_mul_right; exact c1
  have chain : ∀ m k, m + k ≤ num → defaultEntries3 np0 np1 np2 (m + k) ≤ defaultEntries3 np0 np1 np2 m := by
    intro m k
    induction k with
    | zero => intro _; exact Nat.le_refl _
    | succ k ih => intro h; exact le_trans (step (m + k) (by omega)) (ih (by omega))
  have := chain (n % 2) (n - n % 2) (by have := Nat.mod_le n 2; omega)
  rwa [Nat.add_sub_cancel' (Nat.mod_le n 2)] at this

/-- Non-vacuity: a 64^3 grid with 5 upper cascades meets the hypotheses. -/
example : (2 : Nat) ^ 5 ≤ 64 := by decide

/-- Specification: number of probes along an axis of `N` cells in cascade `n`. -/
def axisProbes (N n : Nat) : Int := ((max 1 (N / 2 ^ n) : Nat) : Int)

private theorem axisProbes_succ (N n : Nat) : axisProbes N (n + 1) = max 1 (axisProbes N n / 2) := by
  simp only [axisProbes, pow_succ, ← Nat.div_div_eq_div_mul]
  generalize N / 2 ^ n = m
  omega

/-- `axisProbes` is what the code computes. -/
theorem axisProbes_eq (c : RcCfg) (c0 : Casc2) (n : Nat) :
    ((cascadeSize c c0 n).np0 : Int) = axisProbes c0.np0 n ∧
    ((cascadeSize c c0 n).np1 : Int) = axisProbes c0.np1 n := by
  simp [cascadeSize, axisProbes, Nat.shiftRight_eq_div_pow]

private theorem corner_lt {N n : Nat} {u : Int} (h0 : 0 ≤ u) (h1 : u < axisProbes N n) :
    0 ≤ (cornerAxis u).1 ∧ (cornerAxis u).1 < axisProbes N (n + 1) := by
  obtain ⟨h2, h3, _, _⟩ := cornerAxis_facts h0
  rw [axisProbes_succ]
  omega

/-- **C18** For every grid, cascade and probe: the four upper probes exist, their weights are non-negative
and sum to one. -/
theorem C18_convex (Nx Nz n : Nat) (u v : Int) (hu : 0 ≤ u ∧ u < axisProbes Nx n)
    (hv : 0 ≤ v ∧ v < axisProbes Nz n) :
    let s := bilinearSample u v (axisProbes Nx (n + 1)) (axisProbes Nz (n + 1))
    (∀ k, k < 4 → (0 ≤ (s k).1.1 ∧ (s k).1.1 < axisProbes Nx (n + 1)) ∧
      (0 ≤ (s k).1.2 ∧ (s k).1.2 < axisProbes Nz (n + 1)) ∧ 0 ≤ (s k).2) ∧
    (s 0).2 + (s 1).2 + (s 2).2 + (s 3).2 = 1 := by
  intro s
  obtain ⟨a1, a2⟩ := corner_lt hu.1 hu.2
  obtain ⟨b1, b2⟩ := corner_lt hv.1 hv.2
  obtain ⟨_, _, fu1, fu2⟩ := cornerAxis_facts hu.1
  obtain ⟨_, _, fv1, fv2⟩ := cornerAxis_facts hv.1
  constructor
  · intro k hk
    simp only [s, bilinearSample]
    generalize (cornerAxis u).1 = cu at *
    generalize (cornerAxis v).1 = cv at *
    generalize (cornerAxis u).2 = fu at *
    generalize (cornerAxis v).2 = fv at *
    generalize axisProbes Nx (n + 1) = nu at *
    generalize axisProbes Nz (n + 1) = nv at *
    have g1 : 0 ≤ 1 - fu := by linarith
    have g2 : 0 ≤ 1 - fv := by linarith
    interval_cases k
    · simp only [bilinearOffset, bilinearWeight]
      exact ⟨by omega, by omega, by positivity⟩
    · simp only [bilinearOffset, bilinearWeight]
      refine ⟨?_, ?_, by positivity⟩ <;> by_cases h : cu = nu - 1 <;> simp [h] <;> omega
    · simp only [bilinearOffset, bilinearWeight]
      refine ⟨?_, ?_, by positivity⟩ <;> by_cases h : cv = nv - 1 <;> simp [h] <;> omega
    · simp only [bilinearOffset, bilinearWeight]
      refine ⟨?_, ?_, by positivity⟩ <;> by_cases h : cu = nu - 1 <;> by_cases h' : cv = nv - 1 <;>
        simp [h, h'] <;> omega
  · simp only [s, bilinearSample, bilinearWeight]; ring

private theorem axis_interp {u : Int} (hu : 1 ≤ u) (n : Nat) :
    (cornerAxis u).2 * probePos (cornerAxis u).1 (n + 1) +
      (1 - (cornerAxis u).2) * probePos ((cornerAxis u).1 + 1) (n + 1) = probePos u n := by
  obtain ⟨h1, h2⟩ := cornerAxis_pos (show 0 < u by omega)
  rw [h1, h2]
  simp only [probePos, pow_succ]
  rcases Int.emod_two_eq_zero_or_one u with h | h
  · obtain ⟨k, rfl⟩ : ∃ k, u = 2 * k + 2 := ⟨(u - 2) / 2, by omega⟩
    rw [h]
    have : (2 * k + 2 - 1) / 2 = k := by omega
    rw [this]; push_cast; ring
  · obtain ⟨k, rfl⟩ : ∃ k, u = 2 * k + 1 := ⟨(u - 1) / 2, by omega⟩
    rw [h]
    have : (2 * k + 1 - 1) / 2 = k := by omega
    rw [this]; push_cast; ring

/-- **C18** In the interior (no clamping) every function of position that is linear (even bilinear) is
reproduced exactly at the lower probe by the weighted upper probes. -/
theorem C18_linear (u v nu nv : Int) (n : Nat) (hu : 1 ≤ u ∧ (cornerAxis u).1 + 1 < nu)
    (hv : 1 ≤ v ∧ (cornerAxis v).1 + 1 < nv) (α β γ δ : ℚ) :
    let s := bilinearSample u v nu nv
    let f := fun x z : ℚ => α + β * x + γ * z + δ * x * z
    let at' := fun k => f (probePos (s k).1.1 (n + 1)) (probePos (s k).1.2 (n + 1))
    (s 0).2 * at' 0 + (s 1).2 * at' 1 + (s 2).2 * at' 2 + (s 3).2 * at' 3 =
      f (probePos u n) (probePos v n) := by
  intro s f at'
  have h1 : ¬ (cornerAxis u).1 = nu - 1 := by omega
  have h2 : ¬ (cornerAxis v).1 = nv - 1 := by omega
  simp only [s, f, at', bilinearSample, bilinearOffset, bilinearWeight]
  simp only [beq_eq_false_iff_ne.2 h1, beq_eq_false_iff_ne.2 h2, Bool.false_eq_true, if_false,
    Bool.and_self, add_zero]
  rw [← axis_interp hu.1, ← axis_interp hv.1]
  ring

/-- Non-vacuity of the interior hypotheses: probe (5, 6) of a 16x16 cascade. -/
example : (1 ≤ (5 : Int) ∧ (cornerAxis 5).1 + 1 < 8) ∧ (1 ≤ (6 : Int) ∧ (cornerAxis 6).1 + 1 < 8) := by
  decide +kernel
example : (0 : Int) ≤ 15 ∧ (15 : Int) < axisProbes 64 2 := by decide +kernel

/-- **C19** 3D: the eight upper probes exist, their weights are non-negative and sum to one. -/
theorem C19_convex (Nx Ny Nz n : Nat) (u v w : Int) (hu : 0 ≤ u ∧ u < axisProbes Nx n)
    (hv : 0 ≤ v ∧ v < axisProbes Ny n) (hw : 0 ≤ w ∧ w < axisProbes Nz n) :
    let s := trilinearSample u v w (axisProbes Nx (n + 1)) (axisProbes Ny (n + 1)) (axisProbes Nz (n + 1))
    (∀ k, k < 8 → (0 ≤ (s k).1.1 ∧ (s k).1.1 < axisProbes Nx (n + 1)) ∧
      (0 ≤ (s k).1.2.1 ∧ (s k).1.2.1 < axisProbes Ny (n + 1)) ∧
      (0 ≤ (s k).1.2.2 ∧ (s k).1.2.2 < axisProbes Nz (n + 1)) ∧ 0 ≤ (s k).2) ∧
    (s 0).2 + (s 1).2 + (s 2).2 + (s 3).2 + (s 4).2 + (s 5).2 + (s 6).2 + (s 7).2 = 1 := by
  intro s
  obtain ⟨a1, a2⟩ := corner_lt hu.1 hu.2
  obtain ⟨b1, b2⟩ := corner_lt hv.1 hv.2
  obtain ⟨c1, c2⟩ := corner_lt hw.1 hw.2
  obtain ⟨_, _, fu1, fu2⟩ := cornerAxis_facts hu.1
  obtain ⟨_, _, fv1, fv2⟩ := cornerAxis_facts hv.1
  obtain ⟨_, _, fw1, fw2⟩ := cornerAxis_facts hw.1
  constructor
  · intro k hk
    simp only [s, trilinearSample]
    generalize (cornerAxis u).1 = cu at *
    generalize (cornerAxis v).1 = cv at *
    generalize (cornerAxis w).1 = cw at *
    generalize (cornerAxis u).2 = fu at *
    generalize (cornerAxis v).2 = fv at *
    generalize (cornerAxis w).2 = fw at *
    generalize axisProbes Nx (n + 1) = nu at *
    generalize axisProbes Ny (n + 1) = nv at *
    generalize axisProbes Nz (n + 1) = nw at *
    have g1 : 0 ≤ 1 - fu := by linarith
    have g2 : 0 ≤ 1 - fv := by linarith
    have g3 : 0 ≤ 1 - fw := by linarith
    interval_cases k <;> simp only [trilinearCoord, trilinearWeight] <;>
      exact ⟨by omega, by omega, by omega, by positivity⟩
  · simp only [s, trilinearSample, trilinearWeight]; ring

/-- **C19** 3D: in the interior every trilinear function of position is reproduced exactly. -/
theorem C19_linear (u v w nu nv nw : Int) (n : Nat) (hu : 1 ≤ u ∧ (cornerAxis u).1 + 1 < nu)
    (hv : 1 ≤ v ∧ (cornerAxis v).1 + 1 < nv) (hw : 1 ≤ w ∧ (cornerAxis w).1 + 1 < nw)
    (α β γ δ ε : ℚ) :
    let s := trilinearSample u v w nu nv nw
    let f := fun x y z : ℚ => α + β * x + γ * y + δ * z + ε * x * y * z
    let at' := fun k => f (probePos (s k).1.1 (n + 1)) (probePos (s k).1.2.1 (n + 1))
      (probePos (s k).1.2.2 (n + 1))
    (s 0).2 * at' 0 + (s 1).2 * at' 1 + (s 2).2 * at' 2 + (s 3).2 * at' 3 + (s 4).2 * at' 4 +
      (s 5).2 * at' 5 + (s 6).2 * at' 6 + (s 7).2 * at' 7 =
      f (probePos u n) (probePos v n) (probePos w n) := by
  intro s f at'
  have e0 : ∀ c m : Int, c + 1 < m → min c (m - 1) = c := by intros; omega
  have e1 : ∀ c m : Int, c + 1 < m → min (c + 1) (m - 1) = c + 1 := by intros; omega
  simp only [s, f, at', trilinearSample, trilinearCoord, trilinearWeight, e0 _ _ hu.2, e0 _ _ hv.2,
    e0 _ _ hw.2, e1 _ _ hu.2, e1 _ _ hv.2, e1 _ _ hw.2]
  rw [← axis_interp hu.1, ← axis_interp hv.1, ← axis_interp hw.1]
  ring

end DexRT
