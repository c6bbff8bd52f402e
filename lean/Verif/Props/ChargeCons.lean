import Verif.Lemmas.ChargeCons
import Verif.Props.StatEq
import Mathlib.Tactic.NormNum
/-!
# C30 pressure conservation, C47 charge conservation

One cell; the update treats cells independently.
-/
namespace DexRT
open Finset
variable {K : Type} [Field K] [LinearOrder K] [IsStrictOrderedRing K] {n : Nat}

/-! ## C47 -/

section
open Nr

/-- No quantity would be driven negative by the Newton step `d`. -/
def Unclamped (c : Nr.Cell K n) (d : Fin (n + 1) → K) : Prop :=
  (∀ i, 0 ≤ c.pops i + d i.castSucc) ∧ 0 ≤ c.ne + d (Fin.last n)

omit [IsStrictOrderedRing K] in
/-- C47 at constant density, when the step is not clamped: hydrogen is conserved, the plasma (of hydrogen) is
neutral, nothing is negative. Missing: clamped steps, for which both claims are false (`C47_refuted_clamp`). -/
theorem C47_charge_partial (hn : 0 < n) (ta : K) (c : Nr.Cell K n) (s : Fin n → K) (d : Fin (n + 1) → K)
    (hd : newtonStep false ta c = some d) (hu : Unclamped c d) :
    ∃ c', nrCell false ta c s = some c' ∧ ∑ i, c'.pops i = c.abundance * c.nh ∧ c'.nh = c.nh ∧
      ∑ i, (c.stage i - 1) * c'.pops i = c'.ne ∧ (∀ i, 0 ≤ c'.pops i) ∧ 0 ≤ c'.ne := by
  refine ⟨{ c with pops := fun i => c.pops i + d i.castSucc, ne := c.ne + d (Fin.last n) }, ?_, ?_, rfl, ?_, hu.1, hu.2⟩
  · unfold nrCell
    rw [hd, Option.bind_some, applyStep_unclamped s hu.1 hu.2]
    rfl
  · simpa using cons_row hn hd
  · exact charge_row hd

/-- C47 with pressure conservation, when the step is not clamped: the new total hydrogen density and the new
electron density give the required pressure. Missing: the populations, see `C47_refuted_rescale`. -/
theorem C47_pressure_partial (hn : 0 < n) (ta : K) (c : Nr.Cell K n) (s : Fin n → K) (d : Fin (n + 1) → K)
    (hd : newtonStep true ta c = some d) (hu : Unclamped c d) :
    ∃ c', nrCell true ta c s = some c' ∧ ta * c'.nh + c'.ne = c.pOverKT ∧ 0 ≤ c'.nh ∧ 0 ≤ c'.ne := by
  refine ⟨rescale { c with pops := fun i => c.pops i + d i.castSucc, ne := c.ne + d (Fin.last n) }, ?_, ?_, ?_, hu.2⟩
  · unfold nrCell
    rw [hd, Option.bind_some, applyStep_unclamped s hu.1 hu.2]
    rfl
  · simpa [rescale] using cons_row hn hd
  · show 0 ≤ ∑ i, (c.pops i + d i.castSucc)
    exact sum_nonneg fun i _ => hu.1 i

omit [IsStrictOrderedRing K] in
/-- With pressure conservation the hydrogen populations are scaled **twice**: after any step (clamped or not) that
changes the hydrogen density, they do not add up to it. -/
theorem C47_refuted_rescale (ta : K) (c : Nr.Cell K n) (s : Fin n → K) (c' : Nr.Cell K n) (hnh : c.nh ≠ 0)
    (h : nrCell true ta c s = some c') :
    ∑ i, c'.pops i = c'.nh * (c'.nh / c.nh) ∧ (∑ i, c'.pops i = c'.nh ↔ c'.nh = c.nh ∨ c'.nh = 0) := by
  unfold nrCell at h
  cases hd : newtonStep true ta c with
  | none => rw [hd] at h; simp at h
  | some d =>
    rw [hd, Option.bind_some, Option.map_eq_some_iff] at h
    obtain ⟨c1, h1, rfl⟩ := h
    have hnh1 : c1.nh = c.nh := by
      unfold applyStep at h1
      split at h1
      · simp at h1
      · dsimp only at h1
        split at h1
        · simp only [Option.some.injEq] at h1; subst h1; rfl
        · simp at h1
    simp only [if_true]
    have e : ∑ i, (rescale c1).pops i = (rescale c1).nh * ((rescale c1).nh / c.nh) := by
      show ∑ i, c1.pops i * ((∑ i, c1.pops i) / c1.nh) = (∑ i, c1.pops i) * ((∑ i, c1.pops i) / c.nh)
      rw [← sum_mul, hnh1]
    refine ⟨e, ?_⟩
    rw [e]
    constructor
    · intro h
      by_cases hz : (rescale c1).nh = 0
      · exact Or.inr hz
      · left
        have : (rescale c1).nh / c.nh = 1 := by
          have h2 : (rescale c1).nh * ((rescale c1).nh / c.nh - 1) = 0 := by linear_combination h
          exact sub_eq_zero.mp ((mul_eq_zero.mp h2).resolve_left hz)
        rwa [div_eq_one_iff_eq hnh] at this
    · rintro (h | h)
      · rw [h, div_self hnh, mul_one]
      · rw [h, zero_mul]

/-- The bug is reached: two-level hydrogen in equilibrium and neutral, pressure higher than the present one. All
hypotheses of `C47_pressure_partial` hold, the new density is 17/4 and the pressure is met, but the populations add up
to more than twice that. -/
theorem C47_refuted_rescale_witness :
    ∃ (c : Nr.Cell ℚ 2) (d : Fin 3 → ℚ), Balanced c.Gamma c.pops ∧ ∑ i, c.pops i = c.abundance * c.nh ∧
      newtonStep true 1 c = some d ∧ Unclamped c d ∧
      (nrCell true 1 c (fun _ => c.ne)).map (fun c' => (c'.nh, c'.ne, ∑ i, c'.pops i)) = some (17 / 4, 7 / 4, 289 / 32) := by
  refine ⟨{ Gamma := fun _ _ => 1, C := fun _ _ => 0, dC := fun _ _ => 0, continua := [(0, 1)],
            stage := ![1, 2], pops := ![1, 1], ne := 1, nh := 2, pOverKT := 6, abundance := 1 },
    ![3 / 2, 3 / 4, 3 / 4], ?_, ?_, ?_, ?_, ?_⟩
  · unfold Balanced; decide +kernel
  · decide +kernel
  · decide +kernel
  · unfold Unclamped; decide +kernel
  · decide +kernel

/-- Two-level hydrogen with photo-ionisation (rate 4) and three-body recombination (rate `ne² / 400`), in equilibrium,
with more electrons than protons. -/
def clampCell : Nr.Cell ℚ 2 :=
  { Gamma := ![![0, 1], ![4, 0]], C := ![![0, 1], ![0, -1]], dC := ![![0, 1 / 10], ![0, -(1 / 10)]],
    continua := [(0, 1)], stage := ![1, 2], pops := ![1, 4], ne := 20, nh := 5, pOverKT := 0, abundance := 1 }

/-- C47 is **false** when the step is clamped: from a cell in equilibrium the result has a negative population, more
negative than without clamping because the "reduced" step is longer than the full one, and hydrogen is not conserved.
Moreover the result depends on the order in which the threads run (on which value of `ne` is read). -/
theorem C47_refuted_clamp :
    Balanced clampCell.Gamma clampCell.pops ∧ ∑ i, clampCell.pops i = clampCell.abundance * clampCell.nh ∧
    (∃ d, newtonStep false 1 clampCell = some d ∧ clampCell.pops 0 + d 0 = -5 / 27 ∧ clampCell.ne + d 2 = 140 / 27) ∧
    (nrCell false 1 clampCell (fun _ => clampCell.ne)).map (fun c => (c.pops 0, c.pops 1, c.nh)) = some (-13 / 25, 140 / 27, 5) ∧
    (nrCell false 1 clampCell (fun _ => 140 / 27)).map (fun c => (c.pops 0, c.pops 1, c.nh))
      ≠ (nrCell false 1 clampCell (fun _ => clampCell.ne)).map (fun c => (c.pops 0, c.pops 1, c.nh)) := by
  refine ⟨?_, ?_, ⟨![-32 / 27, 32 / 27, -400 / 27], ?_, ?_, ?_⟩, ?_, ?_⟩
  · unfold Balanced; decide +kernel
  all_goals decide +kernel

/-- C47 (fixed point): a cell that already satisfies the rate equations, number (or pressure) conservation and
charge neutrality is left exactly as it is, if the Newton matrix is regular. -/
theorem C47_fixed_point (cp : Bool) (ta : K) (c : Nr.Cell K n) (s : Fin n → K) (hb : Balanced c.Gamma c.pops)
    (hc : ∑ i, (c.stage i - 1) * c.pops i = c.ne)
    (hp : if cp then ta * (∑ i, c.pops i) + c.ne = c.pOverKT else ∑ i, c.pops i = c.abundance * c.nh)
    (hh : ∑ i, c.pops i = c.nh) (hnh : 0 < c.nh) (hpos : ∀ i, 0 ≤ c.pops i) (hne : 0 ≤ c.ne)
    (hreg : ∃ d, newtonStep cp ta c = some d) :
    ∃ c', nrCell cp ta c s = some c' ∧ c'.pops = c.pops ∧ c'.ne = c.ne ∧ c'.nh = c.nh := by
  have hz : residual cp ta c = fun _ => 0 := by
    funext i
    unfold residual
    split
    · exact (balanced_iff c.Gamma c.pops).mp hb _
    split
    · cases cp
      · simp only [Bool.false_eq_true, if_false] at hp ⊢; rw [hp, sub_self]
      · simp only [if_true] at hp ⊢; rw [← hp, ← mul_sum]; ring
    · rw [hc, sub_self]
  obtain ⟨d, hd⟩ := hreg
  have h0 : newtonStep cp ta c = some fun _ => 0 := by
    have hd' := hd
    unfold newtonStep at hd' ⊢
    rw [Lin.solveRefined_eq] at hd' ⊢
    rw [hz]
    exact Lin.luSolve_zero _ _ _ hd'
  have ha := applyStep_unclamped (c := c) (d := fun _ => 0) s (by simpa using hpos) (by simpa using hne)
  simp only [add_zero] at ha
  refine ⟨if cp then rescale c else c, ?_, ?_⟩
  · unfold nrCell
    rw [h0, Option.bind_some, ha]
    rfl
  · cases cp
    · simp
    · simp [rescale, hh, div_self hnh.ne']

/-- Other species are scaled with the change of the hydrogen density, as intended. -/
theorem C47_others (c : Nr.Cell K n) (p : K) (hnh : c.nh ≠ 0) : rescaleOther c p * c.nh = p * (rescale c).nh := by
  unfold rescaleOther rescale
  field_simp

/-- Non-vacuity of `C47_charge_partial` and `C47_fixed_point`: two-level hydrogen, regular matrix; a neutral cell and one
with too few electrons. -/
example : ∃ (c : Nr.Cell ℚ 2) (d : Fin 3 → ℚ), newtonStep false 1 c = some d ∧ Unclamped c d ∧ d ≠ (fun _ => 0) := by
  refine ⟨{ Gamma := fun _ _ => 1, C := fun _ _ => 0, dC := fun _ _ => 0, continua := [(0, 1)],
            stage := ![1, 2], pops := ![1, 1], ne := 1 / 2, nh := 2, pOverKT := 6, abundance := 1 },
    ![1 / 4, -1 / 4, 1 / 4], ?_, ?_, ?_⟩
  · decide +kernel
  · unfold Unclamped; decide +kernel
  · decide +kernel

end

/-! ## C30 -/

section
open Pressure

/-- C30 when the density is not clamped: the gas pressure `(abundance * nh_tot + ne) k T` is the required one, every
population is scaled by the same factor as the hydrogen density, and the electrons not coming from hydrogen
are kept. -/
theorem C30_pressure_partial (c : Pressure.Cell K) (hnh : 0 < c.nh) (hp : 0 ≤ c.protons)
    (hcl : 0 ≤ c.nh + correction c) :
    totalAbund * (update c).nh + (update c).ne = c.pOverKT ∧
    (update c).protons * c.nh = c.protons * (update c).nh ∧ (update c).other * c.nh = c.other * (update c).nh ∧
    (update c).ne - (update c).protons = c.ne - c.protons ∧ 0 ≤ (update c).nh := by
  have hnew : newNh c = c.nh + correction c := by unfold newNh; rw [if_neg (not_lt.mpr hcl)]
  have hta : (0 : K) < totalAbund := by unfold totalAbund; positivity
  have hden : totalAbund + c.protons / c.nh ≠ 0 := (add_pos_of_pos_of_nonneg hta (div_nonneg hp hnh.le)).ne'
  have hcorr : correction c * (totalAbund + c.protons / c.nh) = c.pOverKT - (totalAbund * c.nh + c.ne) := by
    unfold correction; rw [div_mul_cancel₀ _ hden]
  have hnhn : (update c).nh = c.nh + correction c := by
    unfold update; rw [hnew]; field_simp
  refine ⟨?_, ?_, ?_, ?_, ?_⟩
  · rw [hnhn]
    show totalAbund * (c.nh + correction c) + (c.ne + correction c * c.protons / c.nh) = c.pOverKT
    have : correction c * c.protons / c.nh = correction c * (c.protons / c.nh) := by rw [mul_div_assoc]
    rw [this]
    linear_combination hcorr
  · unfold update; field_simp
  · unfold update; field_simp
  · unfold update; rw [hnew]; field_simp; ring
  · rw [hnhn]; exact hcl

/-- Converse reading of the change reported: zero change means the pressure was already right. -/
theorem C30_change (c : Pressure.Cell K) (hnh : 0 < c.nh) (hp : 0 ≤ c.protons)
    (hcl : 0 ≤ c.nh + correction c) (h : relChange c = 0) : totalAbund * c.nh + c.ne = c.pOverKT := by
  have hnew : newNh c = c.nh + correction c := by unfold newNh; rw [if_neg (not_lt.mpr hcl)]
  unfold relChange at h
  rw [abs_eq_zero, hnew, sub_eq_zero, eq_comm, div_eq_one_iff_eq hnh.ne'] at h
  have hc : correction c = 0 := by linarith
  have hta : (0 : K) < totalAbund := by unfold totalAbund; positivity
  have hden : totalAbund + c.protons / c.nh ≠ 0 := (add_pos_of_pos_of_nonneg hta (div_nonneg hp hnh.le)).ne'
  unfold correction at hc
  rw [div_eq_zero_iff] at hc
  have := hc.resolve_right hden
  linarith

/-- The density is driven negative (and clamped) exactly when there are more electrons, beyond those of hydrogen,
than the pressure allows for: `P / kT < ne - protons`. -/
theorem C30_clamp_iff (c : Pressure.Cell K) (hnh : 0 < c.nh) (hp : 0 ≤ c.protons) :
    c.nh + correction c < 0 ↔ c.pOverKT < c.ne - c.protons := by
  have hta : (0 : K) < totalAbund := by unfold totalAbund; positivity
  have hden : 0 < totalAbund + c.protons / c.nh := add_pos_of_pos_of_nonneg hta (div_nonneg hp hnh.le)
  have hcorr : correction c * (totalAbund + c.protons / c.nh) = c.pOverKT - (totalAbund * c.nh + c.ne) := by
    unfold correction; rw [div_mul_cancel₀ _ hden.ne']
  have key : (c.nh + correction c) * (totalAbund + c.protons / c.nh) = c.pOverKT - (c.ne - c.protons) := by
    have : c.nh * (c.protons / c.nh) = c.protons := by field_simp
    linear_combination hcorr + this
  rw [← sub_neg (a := c.pOverKT), ← key]
  constructor
  · intro h; exact mul_neg_of_neg_of_pos h hden
  · intro h
    by_contra hc
    exact absurd (mul_nonneg (not_lt.mp hc) hden.le) (not_le.mpr h)

/-- C30 is **false** in that case: the hydrogen density is set to `1e10` whatever the pressure, while the electron
density is updated with the unclamped correction. -/
theorem C30_refuted_clamp (c : Pressure.Cell K) (hnh : 0 < c.nh) (hp : 0 ≤ c.protons)
    (hcl : c.pOverKT < c.ne - c.protons) :
    (update c).nh = 10000000000 ∧ (update c).ne = c.ne + correction c * c.protons / c.nh ∧
    c.pOverKT < totalAbund * (update c).nh + (update c).ne := by
  have hneg := (C30_clamp_iff c hnh hp).mpr hcl
  have hnew : newNh c = 10000000000 := by unfold newNh; rw [if_pos hneg]
  have hn : (update c).nh = 10000000000 := by unfold update; rw [hnew]; field_simp
  have hta : (0 : K) < totalAbund := by unfold totalAbund; positivity
  have hden : 0 < totalAbund + c.protons / c.nh := add_pos_of_pos_of_nonneg hta (div_nonneg hp hnh.le)
  have hcorr : correction c * (totalAbund + c.protons / c.nh) = c.pOverKT - (totalAbund * c.nh + c.ne) := by
    unfold correction; rw [div_mul_cancel₀ _ hden.ne']
  refine ⟨hn, rfl, ?_⟩
  rw [hn]
  show c.pOverKT < totalAbund * 10000000000 + (c.ne + correction c * c.protons / c.nh)
  have e : correction c * c.protons / c.nh = correction c * (c.protons / c.nh) := by rw [mul_div_assoc]
  rw [e]
  have h2 : totalAbund * (c.nh + correction c) < totalAbund * 10000000000 :=
    mul_lt_mul_of_pos_left (lt_trans hneg (by norm_num)) hta
  linarith

/-- Non-vacuity: a cell whose pressure is 10% too low, and one where the clamp is reached. -/
example : (∃ c : Pressure.Cell ℚ, 0 < c.nh ∧ 0 ≤ c.protons ∧ 0 ≤ c.nh + correction c ∧ correction c ≠ 0) ∧
    (∃ c : Pressure.Cell ℚ, 0 < c.nh ∧ 0 ≤ c.protons ∧ c.pOverKT < c.ne - c.protons) :=
  ⟨⟨⟨1, 10, 13, 1, 5⟩, by decide +kernel⟩, ⟨⟨5, 10, 3, 1, 5⟩, by decide +kernel⟩⟩

end
end DexRT
