import Verif.Lemmas.Lte
import Verif.Props.Interp
import Verif.Props.StatEq
/-!
# C27, C28, C50: LTE populations, collisional rates, hydrogen ionisation
-/
namespace DexRT
open Lte Finset

/-! ### C27 -/

/-- Saha–Boltzmann relation between two levels; `S` is the Saha factor per ionisation stage. -/
def SahaBoltzmann {n : Nat} (lv : Fin n → Level) (kbT S : ℝ) (p : Fin n → ℝ) : Prop :=
  ∀ i j, p i / p j = (lv i).g / (lv j).g * Real.exp (-((lv i).energy - (lv j).energy) / kbT)
    * S ^ ((lv j).stage - (lv i).stage)

/-- Physical input of the LTE populations. -/
structure LteInput {n : Nat} (kB dbc fmin : ℝ) (lv : Fin (n + 1) → Level) (T ne ntot : ℝ) : Prop where
  kB : 0 < kB
  dbc : 0 < dbc
  fmin : 0 < fmin
  g : ∀ i, 0 < (lv i).g
  T : 0 < T
  ne : 0 < ne
  ntot : 0 < ntot

variable {n : Nat} {kB dbc fmin T ne ntot : ℝ} {lv : Fin (n + 1) → Level}

/-- C27 (positivity and total): for every atom and every physical cell all LTE populations are positive and add up to
the number of atoms, exceeding it by at most the smallest normal number per level. -/
theorem C27_total (h : LteInput kB dbc fmin lv T ne ntot) :
    (∀ i, 0 < ltePops kB dbc fmin lv T ne ntot i) ∧ ntot ≤ ∑ i, ltePops kB dbc fmin lv T ne ntot i ∧
      ∑ i, ltePops kB dbc fmin lv T ne ntot i ≤ ntot + n * fmin := by
  have hs := sahaTerm_pos dbc T ne h.dbc h.T h.ne
  have hp0 := pop0_pos lv (T * kB) (sahaTerm dbc T ne) ntot h.g hs h.ntot
  have hsum := pop0_sum lv (T * kB) (sahaTerm dbc T ne) ntot h.g hs
  have hrel := relPop_pos lv (T * kB) (sahaTerm dbc T ne) h.g hs
  refine ⟨fun i => ?_, ?_, ?_⟩
  · rw [ltePops_eq _ _ _ _ _ _ _ (h.g 0).ne']
    split
    · exact mul_pos (hrel i) hp0
    · exact lt_max_of_lt_right h.fmin
  · calc ntot = _ := hsum.symm
      _ ≤ _ := sum_le_sum fun i _ => by
        rw [ltePops_eq _ _ _ _ _ _ _ (h.g 0).ne']
        split
        · exact le_refl _
        · exact le_max_left _ _
  · have e : ∀ i : Fin n, ltePops kB dbc fmin lv T ne ntot i.succ ≤
        relPop lv (T * kB) (sahaTerm dbc T ne) i.succ * pop0 lv (T * kB) (sahaTerm dbc T ne) ntot + fmin := by
      intro i
      rw [ltePops_eq _ _ _ _ _ _ _ (h.g 0).ne', if_neg (Fin.succ_ne_zero i)]
      have := mul_pos (hrel i.succ) hp0
      exact max_le (by linarith [h.fmin]) (by linarith)
    have e0 : ltePops kB dbc fmin lv T ne ntot 0 =
        relPop lv (T * kB) (sahaTerm dbc T ne) 0 * pop0 lv (T * kB) (sahaTerm dbc T ne) ntot := by
      rw [ltePops_eq _ _ _ _ _ _ _ (h.g 0).ne', if_pos rfl]
    rw [Fin.sum_univ_succ, e0]
    rw [Fin.sum_univ_succ] at hsum
    have := sum_le_sum (s := univ) fun i (_ : i ∈ univ) => e i
    rw [sum_add_distrib] at this
    simp only [sum_const, card_univ, Fintype.card_fin, nsmul_eq_mul] at this
    linarith

/-- C27 (Saha–Boltzmann): if level 0 is of the lowest ionisation stage and no population is at the lower clamp, then
for every pair of levels the ratio of populations is the Saha–Boltzmann one, and the populations add up to the number
of atoms exactly. Partial: a level of a lower stage than level 0 is refuted below. -/
theorem C27_saha_boltzmann_partial (h : LteInput kB dbc fmin lv T ne ntot) (hz : ∀ i, (lv 0).stage ≤ (lv i).stage)
    (hc : ∀ i, i ≠ 0 → fmin < ltePops kB dbc fmin lv T ne ntot i) :
    SahaBoltzmann lv (T * kB) (ne / 2 * (dbc / T) ^ (3 / 2 : ℝ)) (ltePops kB dbc fmin lv T ne ntot) ∧
      ∑ i, ltePops kB dbc fmin lv T ne ntot i = ntot := by
  have hs := sahaTerm_pos dbc T ne h.dbc h.T h.ne
  have hp0 := pop0_pos lv (T * kB) (sahaTerm dbc T ne) ntot h.g hs h.ntot
  rw [show ne / 2 * (dbc / T) ^ (3 / 2 : ℝ) = sahaTerm dbc T ne by unfold sahaTerm; ring]
  have e : ∀ i, ltePops kB dbc fmin lv T ne ntot i =
      relPop lv (T * kB) (sahaTerm dbc T ne) i * pop0 lv (T * kB) (sahaTerm dbc T ne) ntot := by
    intro i
    have h1 := ltePops_eq kB dbc fmin lv T ne ntot (h.g 0).ne' i
    by_cases h0 : i = 0
    · rw [h1, if_pos h0]
    · rw [if_neg h0] at h1
      have h2 := hc i h0
      rw [h1, lt_max_iff] at h2
      rw [h1]
      rcases h2 with h2 | h2
      · exact max_eq_left h2.le
      · exact absurd h2 (lt_irrefl _)
  refine ⟨fun i j => ?_, ?_⟩
  · rw [e i, e j, mul_div_mul_right _ _ hp0.ne']
    unfold relPop
    rw [divLoop_eq, divLoop_eq]
    have hS : sahaTerm dbc T ne ≠ 0 := hs.ne'
    have zi : sahaTerm dbc T ne ^ ((lv i).stage - (lv 0).stage).toNat =
        sahaTerm dbc T ne ^ ((lv i).stage - (lv 0).stage) := by
      rw [← zpow_natCast, Int.toNat_of_nonneg (by have := hz i; omega)]
    have zj : sahaTerm dbc T ne ^ ((lv j).stage - (lv 0).stage).toNat =
        sahaTerm dbc T ne ^ ((lv j).stage - (lv 0).stage) := by
      rw [← zpow_natCast, Int.toNat_of_nonneg (by have := hz j; omega)]
    rw [zi, zj]
    have e1 : sahaTerm dbc T ne ^ ((lv j).stage - (lv i).stage) =
        sahaTerm dbc T ne ^ ((lv j).stage - (lv 0).stage) / sahaTerm dbc T ne ^ ((lv i).stage - (lv 0).stage) := by
      rw [← zpow_sub₀ hS]; congr 1; ring
    have e2 : Real.exp (-((lv i).energy - (lv j).energy) / (T * kB)) =
        Real.exp (-(((lv i).energy - (lv 0).energy) / (T * kB))) /
          Real.exp (-(((lv j).energy - (lv 0).energy) / (T * kB))) := by
      rw [← Real.exp_sub]; congr 1; ring
    rw [e1, e2]
    have := (h.g 0).ne'; have := (h.g i).ne'; have := (h.g j).ne'
    have := zpow_ne_zero ((lv j).stage - (lv 0).stage) hS
    have := zpow_ne_zero ((lv i).stage - (lv 0).stage) hS
    field_simp
  · rw [sum_congr rfl fun i _ => e i]
    exact pop0_sum lv _ _ ntot h.g hs

/-- C27 (uniqueness): positive populations with these ratios and this total are unique, so `C27_saha_boltzmann_partial`
determines the result. -/
theorem C27_unique (kbT S : ℝ) (p q : Fin (n + 1) → ℝ) (hp : ∀ i, 0 < p i) (hq : ∀ i, 0 < q i)
    (h1 : SahaBoltzmann lv kbT S p) (h2 : SahaBoltzmann lv kbT S q) (hs : ∑ i, p i = ∑ i, q i) : p = q := by
  have hr : ∀ i, p i = p 0 / q 0 * q i := by
    intro i
    have := (h1 i 0).trans (h2 i 0).symm
    have := (hp 0).ne'; have := (hq 0).ne'
    field_simp at *
    linarith
  have hsum : ∑ i, p i = p 0 / q 0 * ∑ i, q i := by rw [mul_sum]; exact sum_congr rfl fun i _ => hr i
  have hpos : 0 < ∑ i, q i := sum_pos (fun i _ => hq i) ⟨0, mem_univ _⟩
  have hone : p 0 / q 0 = 1 := by
    rw [hs] at hsum
    have : (p 0 / q 0 - 1) * ∑ i, q i = 0 := by linarith
    rcases mul_eq_zero.mp this with h | h
    · linarith
    · exact absurd h hpos.ne'
  funext i
  rw [hr i, hone, one_mul]

/-- C27 is **false** for a level of a lower ionisation stage than level 0: the Saha factor is left out, so unless it
happens to be 1 the ratio is wrong. -/
theorem C27_refuted_stage (lv : Fin 2 → Level) (h : LteInput kB dbc fmin lv T ne ntot)
    (hz : (lv 1).stage = (lv 0).stage - 1) (hc : fmin < ltePops kB dbc fmin lv T ne ntot 1)
    (hS : ne / 2 * (dbc / T) ^ (3 / 2 : ℝ) ≠ 1) :
    ¬ SahaBoltzmann lv (T * kB) (ne / 2 * (dbc / T) ^ (3 / 2 : ℝ)) (ltePops kB dbc fmin lv T ne ntot) := by
  intro hb
  rw [show ne / 2 * (dbc / T) ^ (3 / 2 : ℝ) = sahaTerm dbc T ne by unfold sahaTerm; ring] at hb hS
  have hs := sahaTerm_pos dbc T ne h.dbc h.T h.ne
  have hp0 := pop0_pos lv (T * kB) (sahaTerm dbc T ne) ntot h.g hs h.ntot
  have hb := hb 1 0
  have h1 := ltePops_eq kB dbc fmin lv T ne ntot (h.g 0).ne' 1
  have h0 := ltePops_eq kB dbc fmin lv T ne ntot (h.g 0).ne' 0
  rw [if_neg (by decide)] at h1
  rw [if_pos rfl, relPop_zero _ _ _ (h.g 0).ne', one_mul] at h0
  have h2 : ltePops kB dbc fmin lv T ne ntot 1 =
      relPop lv (T * kB) (sahaTerm dbc T ne) 1 * pop0 lv (T * kB) (sahaTerm dbc T ne) ntot := by
    rw [h1, lt_max_iff] at hc
    rw [h1]
    rcases hc with hc | hc
    · exact max_eq_left hc.le
    · exact absurd hc (lt_irrefl _)
  rw [h2, h0, mul_div_assoc, div_self hp0.ne', mul_one] at hb
  unfold relPop at hb
  rw [divLoop_eq, hz] at hb
  have e : ((lv 0).stage - 1 - (lv 0).stage).toNat = 0 := by omega
  have e' : (lv 0).stage - ((lv 0).stage - 1) = 1 := by omega
  rw [e, e', pow_zero, div_one, zpow_one, neg_div] at hb
  have hpos : 0 < (lv 1).g / (lv 0).g * Real.exp (-(((lv 1).energy - (lv 0).energy) / (T * kB))) := by
    have := h.g 0; have := h.g 1; positivity
  exact hS (mul_left_cancel₀ hpos.ne' (by rw [mul_one]; exact hb.symm))

/-- Non-vacuity: a two-level ion with all constants 1. -/
noncomputable def exampleLevels : Fin 2 → Level := fun i => ⟨0, 1, if i = 0 then 1 else 2⟩

theorem example_lte : ltePops 1 1 (1 / 100) exampleLevels 1 2 2 = fun _ => 1 := by
  funext i
  have hs : sahaTerm 1 1 2 = 1 := by simp [sahaTerm]
  have hr : relPop exampleLevels (1 * 1) 1 1 = 1 := by
    unfold relPop; rw [divLoop_eq]; simp [exampleLevels]
  have hp : pop0 exampleLevels (1 * 1) 1 2 = 1 := by
    unfold pop0
    simp only [Fin.sum_univ_one]
    rw [show (0 : Fin 1).succ = 1 from rfl, hr]; norm_num
  unfold ltePops
  simp only [hs]
  by_cases h : i = 0
  · simp only [h, if_true]; exact hp
  · have : i = 1 := by
      rcases Fin.exists_fin_two.mp ⟨i, rfl⟩ with h' | h'
      · exact absurd h' h
      · exact h'
    subst this
    simp only [h, if_false, hr, hp]
    norm_num

example : LteInput 1 1 (1 / 100) exampleLevels 1 2 2 ∧ (∀ i, (exampleLevels 0).stage ≤ (exampleLevels i).stage) ∧
    ∀ i, i ≠ 0 → (1 / 100 : ℝ) < ltePops 1 1 (1 / 100) exampleLevels 1 2 2 i := by
  refine ⟨⟨by norm_num, by norm_num, by norm_num, fun i => by simp [exampleLevels], by norm_num, by norm_num,
    by norm_num⟩, fun i => ?_, fun i _ => ?_⟩
  · simp [exampleLevels]; split <;> norm_num
  · rw [example_lte]; norm_num

/-! ### C50: hydrogen ionisation -/

/-- Interpolated values lie between two values of the table. -/
theorem interp_range (x y : List ℝ) (hl : x.length = y.length) (hx : x.Pairwise (· < ·)) (hn : 0 < x.length) (a : ℝ) :
    ∃ v, interp (some a) x y = .ok v ∧ (∃ y0 ∈ y, y0 ≤ v) ∧ ∃ y1 ∈ y, v ≤ y1 := by
  obtain ⟨v, hv, hp⟩ := C37_interp_partial x y hl hx hn a
  refine ⟨v, hv, ?_⟩
  by_cases h0 : a ≤ x[0]
  · have := hp.1 hn h0
    exact ⟨⟨y[0], List.getElem_mem _, this.ge⟩, ⟨y[0], List.getElem_mem _, this.le⟩⟩
  · by_cases h1 : x[x.length - 1] ≤ a
    · have := hp.2.1 hn h1
      exact ⟨⟨_, List.getElem_mem _, this.ge⟩, ⟨_, List.getElem_mem _, this.le⟩⟩
    · obtain ⟨k, _, hk, hlo, hhi⟩ := C37_upper_bound x (hx.imp le_of_lt) a
      have hk0 : 0 < k := by
        rcases Nat.eq_zero_or_pos k with h | h
        · exact absurd (hhi 0 hn (by omega)).le h0
        · exact h
      have hkn : k < x.length := by
        rcases Nat.lt_or_ge k x.length with h | h
        · exact h
        · exact absurd (hlo _ (by omega) (by omega)) h1
      have hb := C37_between x y hl hx a v hp (k - 1) (by omega) (hlo _ (by omega) (by omega))
        (by simpa only [show k - 1 + 1 = k by omega] using (hhi k hkn (le_refl _)).le)
      constructor
      · rcases min_choice y[k - 1] y[k - 1 + 1] with h | h
        · exact ⟨_, List.getElem_mem _, h ▸ hb.1⟩
        · exact ⟨_, List.getElem_mem _, h ▸ hb.1⟩
      · rcases max_choice y[k - 1] y[k - 1 + 1] with h | h
        · exact ⟨_, List.getElem_mem _, h ▸ hb.2⟩
        · exact ⟨_, List.getElem_mem _, h ▸ hb.2⟩

/-- The built-in partition function is defined at every temperature, and between 2 and 109. -/
theorem C50_partition (T : ℝ) : ∃ u, interp (some (Real.logb 10 T)) (scaled logTData) (scaled partFnData) = .ok u ∧
    2 ≤ u ∧ u ≤ 109 := by
  have hsort : (scaled logTData).Pairwise (· < ·) := by
    unfold scaled
    rw [List.pairwise_map]
    have : logTData.Pairwise (· < ·) := by decide
    refine this.imp fun {a b} h => ?_
    have : (a : ℝ) < (b : ℝ) := Nat.cast_lt.mpr h
    linarith
  obtain ⟨v, hv, ⟨y0, hy0, h0⟩, ⟨y1, hy1, h1⟩⟩ := interp_range (scaled logTData) (scaled partFnData)
    (by simp [scaled, logTData, partFnData]) hsort (by simp [scaled, logTData]) (Real.logb 10 T)
  refine ⟨v, hv, ?_, ?_⟩
  · obtain ⟨k, hk, rfl⟩ := List.mem_map.mp hy0
    have : 2000000 ≤ k := by clear hy0 h0; revert k; decide
    have : ((2000000 : ℕ) : ℝ) ≤ k := Nat.cast_le.mpr this
    push_cast at this
    linarith
  · obtain ⟨k, hk, rfl⟩ := List.mem_map.mp hy1
    have : k ≤ 109000000 := by clear hy1 h1; revert k; decide
    have : (k : ℝ) ≤ ((109000000 : ℕ) : ℝ) := Nat.cast_le.mpr this
    push_cast at this
    linarith

/-- C50: for every temperature, positive electron density and hydrogen density the LTE hydrogen split is defined; both
parts are non-negative, they add up to all hydrogen, and they obey the Saha equation. -/
theorem C50_hydrogen (sahaConst ionE T ne nhTot : ℝ) (hs : 0 ≤ sahaConst) (hT : 0 < T) (hne : 0 < ne) (hn : 0 ≤ nhTot) :
    ∃ nh0 nhii u, hPart sahaConst ionE T ne nhTot = .ok (nh0, nhii) ∧ nh0 + nhii = nhTot ∧ 0 ≤ nh0 ∧ 0 ≤ nhii ∧
      interp (some (Real.logb 10 T)) (scaled logTData) (scaled partFnData) = .ok u ∧
      nhii * ne * u = nh0 * 2 * (sahaConst * T) ^ (3 / 2 : ℝ) * Real.exp (-ionE / T) := by
  obtain ⟨u, hu, h2, _⟩ := C50_partition T
  unfold hPart
  simp only [hu, Outcome.ok_bind]
  have hupos : 0 < u := by linarith
  have hp := Real.rpow_nonneg (mul_nonneg hs hT.le) (3 / 2)
  generalize hr : 2 * 1 / (ne * u) * (sahaConst * T) ^ (3 / 2 : ℝ) * Real.exp (-ionE / T) = ratio
  have hrn : 0 ≤ ratio := by rw [← hr]; positivity
  refine ⟨_, _, u, rfl, by field_simp, by positivity, by positivity, rfl, ?_⟩
  have : ratio * ne * u = 2 * (sahaConst * T) ^ (3 / 2 : ℝ) * Real.exp (-ionE / T) := by
    rw [← hr]; field_simp
  calc ratio * (nhTot / (1 + ratio)) * ne * u = (nhTot / (1 + ratio)) * (ratio * ne * u) := by ring
    _ = _ := by rw [this]; ring

/-! ### C28: collisional rates -/

/-- Kinds of collisional transition that come with their own inverse. -/
def TwoSided : CollType → Prop
  | .ChargeExcH => False
  | .ChargeExcP => False
  | _ => True

/-- A collisional transition with a proper table of rates. -/
def GoodTable {n : Nat} (c : Coll n) : Prop :=
  c.temps.length = c.rates.length ∧ c.temps.Pairwise (· < ·) ∧ 0 < c.temps.length ∧ ∀ r ∈ c.rates, 0 ≤ r

/-- Physical cell and constants. -/
structure CollInput {m : Nat} (k : Consts) (lv : Fin m → Level) (c : Cell) (nStar : Fin m → ℝ) : Prop where
  kB : 0 < k.kB
  seaton : 0 < k.seaton
  sahaConst : 0 < k.sahaConst
  g : ∀ i, 0 < (lv i).g
  T : 0 < c.temperature
  ne : 0 < c.ne
  nhTot : 0 ≤ c.nhTot
  nh0 : 0 ≤ c.nh0
  nStar : ∀ i, 0 < nStar i

/-- One transition: rates are defined and non-negative, and for the two-sided kinds satisfy detailed balance. -/
theorem rates_ok {m : Nat} {k : Consts} {lv : Fin m → Level} {c : Cell} {nStar : Fin m → ℝ}
    (h : CollInput k lv c nStar) (coll : Coll m) (ht : GoodTable coll) :
    ∃ up down, collRates k lv c nStar coll = .ok (up, down) ∧ 0 ≤ up ∧ 0 ≤ down ∧
      (TwoSided coll.type → up * nStar coll.i = down * nStar coll.j) := by
  obtain ⟨rate, hr, ⟨r0, hr0, hle⟩, _⟩ := interp_range coll.temps coll.rates ht.1 ht.2.1 ht.2.2.1 c.temperature
  have hrate : 0 ≤ rate := le_trans (ht.2.2.2 r0 hr0) hle
  obtain ⟨nh0, nhii, u, hp, _, _, hnii, _⟩ := C50_hydrogen k.sahaConst k.ionE c.temperature c.ne c.nhTot h.sahaConst.le h.T
    h.ne h.nhTot
  have hi := h.nStar coll.i
  have hj := h.nStar coll.j
  have gi := h.g coll.i
  have gj := h.g coll.j
  have hne := h.ne
  have hse := h.seaton
  have hnh := h.nh0
  have hsq := Real.sqrt_pos.mpr h.T
  have he : 0 < Real.exp (-((lv coll.j).energy - (lv coll.i).energy) / (k.kB * c.temperature)) := Real.exp_pos _
  unfold collRates
  simp only [hr, Outcome.ok_bind]
  cases hty : coll.type <;> simp only [hp, Outcome.ok_bind]
  · refine ⟨_, _, rfl, by positivity, by positivity, fun _ => by field_simp⟩
  · refine ⟨_, _, rfl, by positivity, by positivity, fun _ => by field_simp⟩
  · refine ⟨_, _, rfl, by positivity, by positivity, fun _ => by field_simp⟩
  · refine ⟨_, _, rfl, by positivity, by positivity, fun _ => by field_simp⟩
  · refine ⟨_, _, rfl, by positivity, by positivity, fun _ => by field_simp⟩
  · exact ⟨_, _, rfl, le_refl _, by positivity, fun hf => hf.elim⟩
  · exact ⟨_, _, rfl, by positivity, le_refl _, fun hf => hf.elim⟩

/-- C28 (rates): for every atom with proper tables and every physical cell, adding the collisional rates succeeds, no
rate is negative, the result does not depend on the order of the transitions; and if no charge exchange is listed the
rates satisfy detailed balance with the LTE populations they were given. -/
theorem C28_rates {m : Nat} {k : Consts} {lv : Fin m → Level} {c : Cell} {nStar : Fin m → ℝ}
    (h : CollInput k lv c nStar) (colls : List (Coll m)) (ht : ∀ coll ∈ colls, GoodTable coll) :
    ∃ C, computeCollisions k lv c nStar colls (fun _ _ => 0) = .ok C ∧ (∀ a b, 0 ≤ C a b) ∧
      (∀ colls', colls'.Perm colls → computeCollisions k lv c nStar colls' (fun _ _ => 0) = .ok C) ∧
      ((∀ coll ∈ colls, TwoSided coll.type) → ∀ a b, C a b * nStar b = C b a * nStar a) := by
  classical
  let r : Coll m → ℝ × ℝ := fun coll => if hc : GoodTable coll then
    ((rates_ok h coll hc).choose, (rates_ok h coll hc).choose_spec.choose) else 0
  have hr : ∀ coll, GoodTable coll → collRates k lv c nStar coll = .ok (r coll) ∧ 0 ≤ (r coll).1 ∧ 0 ≤ (r coll).2 ∧
      (TwoSided coll.type → (r coll).1 * nStar coll.i = (r coll).2 * nStar coll.j) := by
    intro coll hc
    have := (rates_ok h coll hc).choose_spec.choose_spec
    simp only [r, hc, dif_pos]
    exact this
  refine ⟨_, compute_eq k lv c nStar r colls (fun coll hc => (hr coll (ht coll hc)).1) _, ?_, ?_, ?_⟩
  · intro a b
    simp only [zero_add]
    refine List.sum_nonneg fun x hx => ?_
    obtain ⟨coll, hc, rfl⟩ := List.mem_map.mp hx
    obtain ⟨_, h1, h2, _⟩ := hr coll (ht coll hc)
    unfold store
    split <;> split <;> simp <;> first | exact add_nonneg h2 h1 | exact h2 | exact h1 | skip
  · intro colls' hp
    rw [compute_eq k lv c nStar r colls' (fun coll hc => (hr coll (ht coll (hp.mem_iff.mp hc))).1)]
    congr 1
    funext a b
    rw [(hp.map _).sum_eq]
  · intro htwo a b
    simp only [zero_add]
    rw [← List.sum_map_mul_right, ← List.sum_map_mul_right]
    congr 1
    refine List.map_congr_left fun coll hc => ?_
    have hb := (hr coll (ht coll hc)).2.2.2 (htwo coll hc)
    unfold store
    by_cases h1 : a = coll.i ∧ b = coll.j
    · obtain ⟨rfl, rfl⟩ := h1
      by_cases h2 : coll.i = coll.j
      · simp [h2]
      · simp [h2, Ne.symm h2]; exact hb.symm
    · by_cases h2 : a = coll.j ∧ b = coll.i
      · obtain ⟨rfl, rfl⟩ := h2
        have h3 : ¬ coll.j = coll.i := fun e => h1 ⟨e, e.symm⟩
        simp [h3, Ne.symm h3]; exact hb
      · rw [if_neg h1, if_neg h2, if_neg (fun h => h2 ⟨h.2, h.1⟩), if_neg (fun h => h1 ⟨h.2, h.1⟩)]
        simp

/-- Kinds of collisional transition caused by electrons. -/
def ByElectrons : CollType → Prop
  | .Omega => True
  | .CI => True
  | .CE => True
  | _ => False

/-- C28 (scaling): rates of collisions with electrons are proportional to the electron density, of those with neutral
hydrogen to its density; rates are proportional to the table. -/
theorem C28_scaling {m : Nat} (k : Consts) (lv : Fin m → Level) (c : Cell) (nStar : Fin m → ℝ) (coll : Coll m) (s rate : ℝ)
    (hr : interp (some c.temperature) coll.temps coll.rates = .ok rate) :
    (ByElectrons coll.type → ∃ u d, collRates k lv c nStar coll = .ok (u, d) ∧
      collRates k lv { c with ne := s * c.ne } nStar coll = .ok (s * u, s * d)) ∧
    (coll.type = .CH ∨ coll.type = .ChargeExcH → ∃ u d, collRates k lv c nStar coll = .ok (u, d) ∧
      collRates k lv { c with nh0 := s * c.nh0 } nStar coll = .ok (s * u, s * d)) ∧
    ∀ coll' : Coll m, coll'.type = coll.type → coll'.i = coll.i → coll'.j = coll.j →
      interp (some c.temperature) coll'.temps coll'.rates = .ok (s * rate) → ∀ u d,
      collRates k lv c nStar coll = .ok (u, d) → collRates k lv c nStar coll' = .ok (s * u, s * d) := by
  refine ⟨fun h => ?_, fun h => ?_, ?_⟩
  · unfold collRates
    simp only [hr, Outcome.ok_bind]
    cases hty : coll.type <;> simp only [hty, ByElectrons] at h
    · refine ⟨_, _, rfl, congrArg Outcome.ok (Prod.ext ?_ ?_)⟩ <;> dsimp only <;> ring
    · refine ⟨_, _, rfl, congrArg Outcome.ok (Prod.ext ?_ ?_)⟩ <;> dsimp only <;> ring
    · refine ⟨_, _, rfl, congrArg Outcome.ok (Prod.ext ?_ ?_)⟩ <;> dsimp only <;> ring
  · unfold collRates
    simp only [hr, Outcome.ok_bind]
    rcases h with h | h <;> rw [h]
    · refine ⟨_, _, rfl, congrArg Outcome.ok (Prod.ext ?_ ?_)⟩ <;> dsimp only <;> ring
    · refine ⟨_, _, rfl, congrArg Outcome.ok (Prod.ext ?_ ?_)⟩ <;> dsimp only <;> ring
  · intro coll' h1 h2 h3 hr' u d h
    unfold collRates at h ⊢
    simp only [hr, hr', Outcome.ok_bind, h1, h2, h3] at h ⊢
    cases hty : coll.type <;> rw [hty] at h <;> simp only at h ⊢
    case CP =>
      cases hp : hPart k.sahaConst k.ionE c.temperature c.ne c.nhTot with
      | ok v =>
        simp only [hp, Outcome.ok_bind, Outcome.ok.injEq, Prod.mk.injEq] at h ⊢
        obtain ⟨rfl, rfl⟩ := h
        constructor <;> ring
      | throws => rw [hp] at h; simp at h
      | ub => rw [hp] at h; simp at h
    case ChargeExcP =>
      cases hp : hPart k.sahaConst k.ionE c.temperature c.ne c.nhTot with
      | ok v =>
        simp only [hp, Outcome.ok_bind, Outcome.ok.injEq, Prod.mk.injEq] at h ⊢
        obtain ⟨rfl, rfl⟩ := h
        constructor <;> ring
      | throws => rw [hp] at h; simp at h
      | ub => rw [hp] at h; simp at h
    all_goals
      simp only [Outcome.ok.injEq, Prod.mk.injEq] at h ⊢
      obtain ⟨rfl, rfl⟩ := h
      constructor <;> ring

/-- C28 (equilibrium): with collisions of the two-sided kinds only, connecting all levels to the eliminated one,
statistical equilibrium returns exactly the LTE populations. -/
theorem C28_equilibrium_partial {m : Nat} {k : Consts} {lv : Fin m → Level} {c : Cell} {nStar : Fin m → ℝ}
    (h : CollInput k lv c nStar) (colls : List (Coll m)) (ht : ∀ coll ∈ colls, GoodTable coll)
    (htwo : ∀ coll ∈ colls, TwoSided coll.type) (C : Fin m → Fin m → ℝ)
    (hC : computeCollisions k lv c nStar colls (fun _ _ => 0) = .ok C) (e : Fin m) (hreach : Reaches C e) :
    StatEq.statEqCell e C (∑ i, nStar i) = some nStar := by
  obtain ⟨C', hC', hnn, _, hbal⟩ := C28_rates h colls ht
  rw [hC] at hC'
  cases hC'
  refine C25_unique e C _ (fun i j _ => hnn i j) hreach nStar (fun i => ?_) rfl
  rw [mul_sum]
  refine sum_congr rfl fun j _ => ?_
  rw [hbal htwo i j, mul_comm]

/-- C28 is **false** for charge exchange: whatever the LTE populations, a charge exchange with hydrogen puts its rate in
one direction only, so detailed balance fails. -/
theorem C28_refuted_charge_exchange {m : Nat} {k : Consts} {lv : Fin m → Level} {c : Cell} {nStar : Fin m → ℝ}
    (h : CollInput k lv c nStar) (hn : 0 < c.nh0) (i j : Fin m) (hij : i ≠ j) :
    ∃ C, computeCollisions k lv c nStar [⟨.ChargeExcH, i, j, [1], [1]⟩] (fun _ _ => 0) = .ok C ∧
      C i j * nStar j ≠ C j i * nStar i := by
  have hi : interp (some c.temperature) [1] [1] = .ok (1 : ℝ) := by
    obtain ⟨v, hv, ⟨y0, h0, e0⟩, ⟨y1, h1, e1⟩⟩ := interp_range [1] [1] rfl (by simp) (by simp) c.temperature
    simp only [List.mem_singleton] at h0 h1
    rw [hv, show v = 1 by linarith]
  refine ⟨_, by simp only [computeCollisions, collRates, hi, Outcome.ok_bind]; rfl, ?_⟩
  simp only [store, hij, Ne.symm hij, and_self, and_true, if_true, if_false, zero_add, add_zero, one_mul,
    zero_mul]
  exact (mul_pos hn (h.nStar j)).ne'

/-- C28 (perturbation): computing the derivative of the collisional rates with respect to the electron density leaves
the cell as it was, and the LTE populations as well if they were the ones of the cell. -/
theorem C28_ne_pert_restores (k : Consts) (ab pertSize : ℝ) (c : Cell) (nStar : Fin (n + 1) → ℝ)
    (colls : List (Coll (n + 1))) (C Cpert : Fin (n + 1) → Fin (n + 1) → ℝ) (r)
    (hl : nStar = ltePops k.kB dbc fmin lv c.temperature c.ne (ab * c.nhTot))
    (h : computeCNePert k dbc fmin ab pertSize lv c nStar colls C Cpert = .ok r) :
    computeCollisions k lv c nStar colls C = .ok r.1 ∧
      computeCollisions k lv { c with ne := c.ne * (1 + pertSize) }
        (ltePops k.kB dbc fmin lv c.temperature (c.ne * (1 + pertSize)) (ab * c.nhTot)) colls Cpert = .ok r.2.1 ∧
      r.2.2.1 = c ∧ r.2.2.2 = nStar := by
  have e : c.ne + c.ne * pertSize = c.ne * (1 + pertSize) := by ring
  unfold computeCNePert at h
  cases h1 : computeCollisions k lv c nStar colls C with
  | throws => rw [h1] at h; simp at h
  | ub => rw [h1] at h; simp at h
  | ok C' =>
    rw [h1] at h
    simp only [Outcome.ok_bind, e] at h
    cases h2 : computeCollisions k lv { c with ne := c.ne * (1 + pertSize) }
        (ltePops k.kB dbc fmin lv c.temperature (c.ne * (1 + pertSize)) (ab * c.nhTot)) colls Cpert with
    | throws => rw [h2] at h; simp at h
    | ub => rw [h2] at h; simp at h
    | ok C2 =>
      rw [h2] at h
      simp only [Outcome.ok_bind, Outcome.ok.injEq] at h
      subst h
      exact ⟨rfl, rfl, rfl, hl.symm⟩

/-- Non-vacuity: the hypotheses of the rate theorems are met by a cell with all quantities 1 and a table. -/
example : CollInput (m := 2) ⟨1, 1, 1, 1⟩ exampleLevels ⟨1, 1, 1, 1⟩ (fun _ => 1) ∧
    GoodTable (n := 2) ⟨.CI, 0, 1, [1, 2], [3, 4]⟩ := by
  refine ⟨⟨by norm_num, by norm_num, by norm_num, fun i => by simp [exampleLevels], by norm_num, by norm_num,
    by norm_num, by norm_num, fun _ => by norm_num⟩, rfl, by simp, by simp, by simp⟩

/-- Non-vacuity of `C28_equilibrium_partial`: two levels joined by collisional ionisation reach each other. -/
example : ∃ C, computeCollisions (n := 2) ⟨1, 1, 1, 1⟩ exampleLevels ⟨1, 1, 1, 1⟩ (fun _ => 1)
    [⟨.CI, 0, 1, [1, 2], [3, 4]⟩] (fun _ _ => 0) = .ok C ∧ Reaches C 0 := by
  have hi : interp (some (1 : ℝ)) [1, 2] [3, 4] = .ok 3 := by simp [interp, readAt]
  refine ⟨_, by simp only [computeCollisions, collRates, hi, Outcome.ok_bind]; rfl, fun j => ?_⟩
  by_cases hj : j = 0
  · rw [hj]
  · refine Relation.ReflTransGen.single ⟨hj, ?_⟩
    have : j = 1 := by
      rcases Fin.exists_fin_two.mp ⟨j, rfl⟩ with h' | h'
      · exact absurd h' hj
      · exact h'
    subst this
    simp [store, exampleLevels]

end DexRT
