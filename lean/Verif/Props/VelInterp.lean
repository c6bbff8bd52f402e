import Verif.Lemmas.VelRange
import Verif.Model.InclQuad
import Mathlib.Analysis.Real.Pi.Bounds
/-!
C84: the table of the `VelocityInterp` line scheme gives each ray the emissivity and opacity of the cell at the velocity
the ray sees.
-/
namespace DexRT.VelInterp
open DexRT DexRT.Dir

/-- The table is sampled within its bounds and the sample is the piecewise linear interpolation, constant outside. -/
theorem C84_sample (bins : ℕ) (hb1 : 1 ≤ bins) (hb : bins < 2147483648) (start step : ℝ) (hs : 0 < step) (tab : List Pair)
    (ht : tab.length = bins) (vel : ℝ) (h0 : start - 2147483648 * step ≤ vel) (h1 : vel < start + 2147483648 * step) :
    ∃ r, sample bins start step tab vel = .ok r ∧ Interpolates start step tab vel r := by
  by_cases hl : vel < start
  · obtain ⟨a, ha, h⟩ := sample_low bins hb1 start step hs tab ht vel hl h0
    exact ⟨a, h, Or.inl ⟨hl.le, ha⟩⟩
  · push Not at hl
    by_cases hh : vel < start + ((bins : ℝ) - 1) * step
    · obtain ⟨j, t, a, b, t0, t1, ea, eb, hv, h⟩ := sample_mid bins hb start step hs tab ht vel hl hh
      exact ⟨_, h, Or.inr (Or.inr ⟨j, t, a, b, t0, t1.le, ea, eb, hv, rfl⟩)⟩
    · push Not at hh
      obtain ⟨a, ha, h⟩ := sample_high bins hb1 hb start step hs tab ht vel hh h1
      exact ⟨a, h, Or.inr (Or.inl ⟨by rw [ht]; exact hh, by rw [ht]; exact ha⟩)⟩

/-- Whatever the velocity, a sample never leaves the bounds of the table. -/
theorem C84_sample_bounded (bins : ℕ) (start step : ℝ) (tab : List Pair) (vel : ℝ) (r lo hi : Pair)
    (h : sample bins start step tab vel = .ok r) (hw : ∀ p ∈ tab, Within lo hi p) : Within lo hi r := by
  have hat : ∀ i a, tabAt tab i = .ok a → Within lo hi a := by
    intro i a ha
    unfold tabAt at ha
    split at ha
    · unfold readAt at ha
      split at ha
      · rename_i x hx
        cases ha
        exact hw _ (List.mem_of_getElem? hx)
      · cases ha
    · cases ha
  unfold sample at h
  simp only at h
  obtain ⟨frac, hf⟩ : ∃ frac : ℝ, frac = if step = 0 then 0 else (vel - start) / step := ⟨_, rfl⟩
  rw [← hf] at h
  cases htr : truncInt frac with
  | throws => rw [htr] at h; cases h
  | ub => rw [htr] at h; cases h
  | ok iv =>
    rw [htr, Outcome.ok_bind] at h
    by_cases hc : frac < 0 ∨ (bins : ℝ) - 1 ≤ frac
    · rw [if_pos hc] at h
      cases ha : tabAt tab (min (max iv 0) ((bins : ℤ) - 1)) with
      | throws => rw [ha] at h; cases h
      | ub => rw [ha] at h; cases h
      | ok a =>
        rw [ha, Outcome.ok_bind, Outcome.ok_bind, pair_one] at h
        cases h
        exact hat _ _ ha
    · rw [if_neg hc] at h
      push Not at hc
      have hiv : iv = ⌊frac⌋ := by
        unfold truncInt at htr
        simp only [if_pos hc.1] at htr
        split at htr
        · cases htr; rfl
        · cases htr
      cases ha : tabAt tab iv with
      | throws => rw [ha] at h; cases h
      | ub => rw [ha] at h; cases h
      | ok a =>
        cases hb : tabAt tab (iv + 1) with
        | throws => rw [ha, Outcome.ok_bind, hb] at h; cases h
        | ub => rw [ha, Outcome.ok_bind, hb] at h; cases h
        | ok b =>
          rw [ha, Outcome.ok_bind, hb, Outcome.ok_bind] at h
          cases h
          obtain ⟨a1, a2, a3, a4⟩ := hat _ _ ha
          obtain ⟨b1, b2, b3, b4⟩ := hat _ _ hb
          have l0 : 0 ≤ frac - iv := by rw [hiv]; linarith [Int.floor_le frac]
          have l1 : 0 ≤ 1 - (frac - iv) := by rw [hiv]; linarith [Int.lt_floor_add_one frac]
          refine ⟨?_, ?_, ?_, ?_⟩ <;> simp only <;> nlinarith

/-- Not for every velocity: the bin number is computed as an `int` before the bounds are looked at, so a velocity more than
2^31 bins away is undefined behaviour. -/
theorem C84_sample_refuted (tab : List Pair) : sample 21 0 1 tab 2147483648 = .ub := by
  have : truncInt (2147483648 : ℝ) = .ub := by
    unfold truncInt
    have e : ⌊(2147483648 : ℝ)⌋ = 2147483648 := by
      have := Int.floor_intCast (R := ℝ) 2147483648
      exact_mod_cast this
    have hn : (0 : ℝ) ≤ 2147483648 := by norm_num
    rw [if_pos hn, e]
    rfl
  unfold sample
  simp only [one_ne_zero, if_false, sub_zero, div_one]
  rw [this]
  rfl

/-- Inside of the velocity range of the table, the interpolation error is at most half a step times the slope. -/
theorem C84_error (bins : ℕ) (hb2 : 2 ≤ bins) (hb : bins < 2147483648) (mm : ℝ × ℝ) (hm : mm.1 ≤ mm.2) (l : ℝ) (hl : 0 ≤ l)
    (f : ℝ → Pair) (hf : Slope l f) (vel : ℝ) (h0 : mm.1 ≤ vel) (h1 : vel ≤ mm.2) :
    ∃ r, sample bins mm.1 (velStep bins mm) (fillTab bins mm f) vel = .ok r ∧
      |r.eta - (f vel).eta| ≤ l * velStep bins mm / 2 ∧ |r.chi - (f vel).chi| ≤ l * velStep bins mm / 2 := by
  have hb2' : (2 : ℝ) ≤ bins := by exact_mod_cast hb2
  have hb1 : (0 : ℝ) < (bins : ℝ) - 1 := by linarith
  have hlen : (fillTab bins mm f).length = bins := by simp [fillTab]
  have hget : ∀ j a, (fillTab bins mm f)[j]? = some a → a = f (binVel bins mm j) := by
    intro j a ha
    unfold fillTab at ha
    rw [List.getElem?_map] at ha
    cases hr : (List.range bins)[j]? with
    | none => rw [hr] at ha; simp at ha
    | some k =>
      have := (List.getElem?_eq_some_iff.1 hr).2
      simp at this
      rw [hr] at ha
      simp at ha
      rw [← ha, this]
  have hstep : ((bins : ℝ) - 1) * velStep bins mm = mm.2 - mm.1 := by unfold velStep; field_simp
  rcases hm.eq_or_lt with he | hlt
  · have hz : velStep bins mm = 0 := by unfold velStep; rw [he]; simp
    obtain ⟨a, ha, h⟩ := sample_zero bins (by omega) mm.1 (fillTab bins mm f) hlen vel
    refine ⟨a, by rw [hz]; exact h, ?_⟩
    have hb0 : binVel bins mm 0 = vel := by unfold binVel; rw [hz]; linarith
    rw [hget 0 a ha, hb0, hz]
    simp
  · have hs : 0 < velStep bins mm := by unfold velStep; apply div_pos (by linarith) hb1
    by_cases hh : vel < mm.1 + ((bins : ℝ) - 1) * velStep bins mm
    · obtain ⟨j, t, a, b, t0, t1, ea, eb, hv, h⟩ := sample_mid bins hb mm.1 (velStep bins mm) hs _ hlen vel h0 hh
      refine ⟨_, h, ?_⟩
      have va := hget j a ea
      have vb := hget (j + 1) b eb
      have da : |binVel bins mm j - vel| = t * velStep bins mm := by
        unfold binVel
        rw [hv, abs_sub_comm, abs_of_nonneg (by nlinarith)]
        ring
      have db : |binVel bins mm (j + 1) - vel| = (1 - t) * velStep bins mm := by
        unfold binVel
        push_cast
        rw [hv, abs_of_nonneg (by nlinarith)]
        ring
      have ha := hf (binVel bins mm j) vel
      have hb' := hf (binVel bins mm (j + 1)) vel
      rw [da, ← va] at ha
      rw [db, ← vb] at hb'
      have quarter : t * (1 - t) ≤ 1 / 4 := by nlinarith [sq_nonneg (t - 1 / 2)]
      have gen : ∀ x y z : ℝ, |x - z| ≤ l * (t * velStep bins mm) → |y - z| ≤ l * ((1 - t) * velStep bins mm) →
          |(1 - t) * x + t * y - z| ≤ l * velStep bins mm / 2 := by
        intro x y z hx hy
        have e : (1 - t) * x + t * y - z = (1 - t) * (x - z) + t * (y - z) := by ring
        rw [e]
        have h2 := abs_add_le ((1 - t) * (x - z)) (t * (y - z))
        rw [abs_mul, abs_mul, abs_of_nonneg t0, abs_of_nonneg (by linarith : (0 : ℝ) ≤ 1 - t)] at h2
        have h3 : (1 - t) * |x - z| ≤ (1 - t) * (l * (t * velStep bins mm)) := mul_le_mul_of_nonneg_left hx (by linarith)
        have h4 : t * |y - z| ≤ t * (l * ((1 - t) * velStep bins mm)) := mul_le_mul_of_nonneg_left hy t0
        have h5 : t * (1 - t) * (l * velStep bins mm) ≤ 1 / 4 * (l * velStep bins mm) :=
          mul_le_mul_of_nonneg_right quarter (by positivity)
        linarith
      exact ⟨gen _ _ _ ha.1 hb'.1, gen _ _ _ ha.2 hb'.2⟩
    · push Not at hh
      have hve : vel = mm.2 := by linarith
      obtain ⟨a, ha, h⟩ := sample_high bins (by omega) hb mm.1 (velStep bins mm) hs _ hlen vel hh (by
        have : (bins : ℝ) - 1 < 2147483648 := by
          have : (bins : ℝ) < 2147483648 := by exact_mod_cast hb
          linarith
        nlinarith)
      refine ⟨a, h, ?_⟩
      have hbv : binVel bins mm (bins - 1) = vel := by
        unfold binVel
        rw [Nat.cast_sub (by omega)]
        push_cast
        rw [mul_comm, hstep, hve]; ring
      rw [hget _ a ha, hbv]
      simp
      positivity

/-- Cells whose velocity lies in the plane: the range found contains the velocity of every ray, of every cascade, that
belongs to the directions of the subset. -/
theorem C84_range_partial (v : Fin 3 → ℝ) (hv : v 1 = 0) (nd : ℕ) (mf ml : ℝ) (h0 : 0 ≤ mf) (h1 : ml ≤ 1) (start num k : ℕ)
    (hk0 : start ≤ k) (hk1 : k < start + num) (hk2 : k < nd) (m j : ℕ) (hj0 : k * m ≤ j) (hj1 : j < (k + 1) * m)
    (ray : RayProps) (hr : ray.dir = rayDir2 (nd * m) j) (mu : ℝ) (hm0 : mf ≤ mu) (hm1 : mu ≤ ml) :
    (minMaxVel v nd mf ml start num).1 ≤ ∑ i, v i * invertedMu ray mu i ∧
    ∑ i, v i * invertedMu ray mu i ≤ (minMaxVel v nd mf ml start num).2 := by
  obtain ⟨u, hu⟩ : ∃ u : Fin 3 → ℝ, u = ![- v 0, - v 1, - v 2] := ⟨_, rfl⟩
  have hm : 0 < m := by
    rcases Nat.eq_zero_or_pos m with h | h
    · subst h; omega
    · exact h
  have hndR : (0 : ℝ) < nd := by exact_mod_cast (by omega : 0 < nd)
  have hmR : (0 : ℝ) < m := by exact_mod_cast hm
  have hpi := Real.pi_pos
  have hproj : ∑ i, v i * invertedMu ray mu i = dot3 u (angsToDir (Real.arccos mu) (rayAngle (nd * m) j)) := by
    rw [dot_angs_mu _ _ _ (by linarith) (by linarith), hu, Fin.sum_univ_three]
    simp [invertedMu, hr, rayDir2]
  obtain ⟨r, hrd⟩ : ∃ r, r = dirRange nd mf ml k := ⟨_, rfl⟩
  have hang : r.phi0 ≤ rayAngle (nd * m) j ∧ rayAngle (nd * m) j ≤ r.phi1 ∧ 0 ≤ r.phi0 ∧ r.phi1 ≤ 2 * Real.pi := by
    have a0 : (k : ℝ) * m ≤ j := by exact_mod_cast hj0
    have a1 : (j : ℝ) + 1 ≤ (k + 1) * m := by exact_mod_cast hj1
    have a2 : (k : ℝ) + 1 ≤ nd := by exact_mod_cast hk2
    subst hrd
    unfold rayAngle dirRange
    simp only
    push_cast
    have e : 2 * Real.pi / (nd * m) * (j + 1 / 2) = 2 * Real.pi / nd * ((j + 1 / 2) / m) := by field_simp
    have hc : 0 < 2 * Real.pi / nd := by positivity
    rw [e]
    refine ⟨mul_le_mul_of_nonneg_left ?_ hc.le, mul_le_mul_of_nonneg_left ?_ hc.le, by positivity, ?_⟩
    · rw [le_div_iff₀ hmR]; linarith
    · rw [div_le_iff₀ hmR]; linarith
    · rw [div_mul_eq_mul_div, div_le_iff₀ hndR]
      exact mul_le_mul_of_nonneg_left a2 (by positivity)
  obtain ⟨⟨x, hx, hxl⟩, ⟨y, hy, hyl⟩⟩ := plane_both u (by simp [hu, hv]) r (by rw [hrd]; exact Real.arccos_nonneg _)
    (by rw [hrd]; exact Real.arccos_le_pi_div_two.2 h0) hang.2.2.1 hang.2.2.2 (Real.arccos mu) (rayAngle (nd * m) j)
    (by rw [hrd]; exact Real.arccos_le_arccos hm1) (by rw [hrd]; exact Real.arccos_le_arccos hm0) hang.1 hang.2.1
  have hmem : ∀ z, z ∈ corners u r ++ extraTests u (velAngs u) r ++ extraTests u (oppAngs u) r → z ∈ tested u nd mf ml start num := by
    intro z hz
    unfold tested
    refine List.mem_flatMap.2 ⟨k - start, List.mem_range.2 (by omega), ?_⟩
    rw [Nat.add_sub_cancel' hk0, ← hrd]
    exact hz
  have hf := (fold_bounds (tested u nd mf ml start num) (1e6, -1e6)).2.1
  unfold minMaxVel
  simp only
  rw [← hu, hproj]
  have fx := (hf x (hmem x hx)).2
  have fy := (hf y (hmem y hy)).1
  have ab := abs_nonneg ((tested u nd mf ml start num).foldl (fun m x => (min m.1 x, max m.2 x)) ((1e6 : ℝ), (-1e6 : ℝ))).1
  have ac := abs_nonneg ((tested u nd mf ml start num).foldl (fun m x => (min m.1 x, max m.2 x)) ((1e6 : ℝ), (-1e6 : ℝ))).2
  constructor <;> linarith

/-- The range is never wider than the velocity of the cell (both ways, and two percent). -/
theorem C84_width (v : Fin 3 → ℝ) (nd : ℕ) (mf ml : ℝ) (start num : ℕ) (hn : 0 < num) :
    -(1.02 * speed v) ≤ (minMaxVel v nd mf ml start num).1 ∧
    (minMaxVel v nd mf ml start num).1 ≤ (minMaxVel v nd mf ml start num).2 ∧
    (minMaxVel v nd mf ml start num).2 ≤ 1.02 * speed v := by
  obtain ⟨u, hu⟩ : ∃ u : Fin 3 → ℝ, u = ![- v 0, - v 1, - v 2] := ⟨_, rfl⟩
  have hs : speed u = speed v := by subst hu; simp [speed]
  have hs0 : 0 ≤ speed v := Real.sqrt_nonneg _
  obtain ⟨x, hx⟩ : ∃ x, x ∈ tested u nd mf ml start num := by
    refine ⟨dot3 u (angsToDir (dirRange nd mf ml (start + 0)).theta0 (dirRange nd mf ml (start + 0)).phi0),
      List.mem_flatMap.2 ⟨0, List.mem_range.2 hn, ?_⟩⟩
    simp [corners]
  have ht := tested_le_speed u nd mf ml start num
  rw [hs] at ht
  obtain ⟨f0, f1, f2⟩ := fold_bounds (tested u nd mf ml start num) (1e6, -1e6)
  have f3 := f2 (speed v) ht
  have fx := f1 x hx
  have tx := ht x hx
  have e1 := f3.1 (by simp only; linarith [(by norm_num : (0 : ℝ) ≤ 1e6)])
  have e2 := f3.2 (by simp only; linarith [(by norm_num : (0 : ℝ) ≤ 1e6)])
  unfold minMaxVel
  simp only
  rw [← hu]
  obtain ⟨m, hm⟩ : ∃ m, m = (tested u nd mf ml start num).foldl (fun m x => (min m.1 x, max m.2 x)) ((1e6 : ℝ), (-1e6 : ℝ)) := ⟨_, rfl⟩
  rw [← hm] at fx e1 e2 ⊢
  have a1 : |m.1| ≤ speed v := abs_le.2 ⟨e1, by linarith⟩
  have a2 : |m.2| ≤ speed v := abs_le.2 ⟨by linarith, e2⟩
  have n1 := abs_nonneg m.1
  have n2 := abs_nonneg m.2
  refine ⟨by linarith, by linarith, by linarith⟩

/-- End to end for a cell whose velocity lies in the plane: every ray of the subset gets the emissivity and opacity of the
cell at the velocity it sees, up to an error proportional to the speed and inversely proportional to the number of bins;
exactly at rest. -/
theorem C84_ray_partial (bins : ℕ) (hb2 : 2 ≤ bins) (hb : bins < 2147483648) (v : Fin 3 → ℝ) (hv : v 1 = 0) (nd : ℕ) (mf ml : ℝ)
    (h0 : 0 ≤ mf) (h1 : ml ≤ 1) (start num k : ℕ) (hk0 : start ≤ k) (hk1 : k < start + num) (hk2 : k < nd) (m j : ℕ)
    (hj0 : k * m ≤ j) (hj1 : j < (k + 1) * m) (ray : RayProps) (hr : ray.dir = rayDir2 (nd * m) j) (mu : ℝ) (hm0 : mf ≤ mu)
    (hm1 : mu ≤ ml) (l : ℝ) (hl : 0 ≤ l) (f : ℝ → Pair) (hf : Slope l f) :
    let mm := minMaxVel v nd mf ml start num
    let vel := ∑ i, v i * invertedMu ray mu i
    ∃ r, sample bins mm.1 (velStep bins mm) (fillTab bins mm f) vel = .ok r ∧
      |r.eta - (f vel).eta| ≤ 1.02 * l * speed v / ((bins : ℝ) - 1) ∧ |r.chi - (f vel).chi| ≤ 1.02 * l * speed v / ((bins : ℝ) - 1) := by
  intro mm vel
  obtain ⟨w0, w1, w2⟩ := C84_width v nd mf ml start num (by omega)
  obtain ⟨r0, r1⟩ := C84_range_partial v hv nd mf ml h0 h1 start num k hk0 hk1 hk2 m j hj0 hj1 ray hr mu hm0 hm1
  obtain ⟨r, hr, e1, e2⟩ := C84_error bins hb2 hb mm w1 l hl f hf vel r0 r1
  have hb2' : (2 : ℝ) ≤ bins := by exact_mod_cast hb2
  have hb1 : (0 : ℝ) < (bins : ℝ) - 1 := by linarith
  have hst : velStep bins mm ≤ 2.04 * speed v / ((bins : ℝ) - 1) := by
    unfold velStep
    apply div_le_div_of_nonneg_right _ hb1.le
    change (minMaxVel v nd mf ml start num).2 - (minMaxVel v nd mf ml start num).1 ≤ _
    linarith
  have : l * velStep bins mm / 2 ≤ 1.02 * l * speed v / ((bins : ℝ) - 1) := by
    have := mul_le_mul_of_nonneg_left hst hl
    have e : l * (2.04 * speed v / ((bins : ℝ) - 1)) = 2 * (1.02 * l * speed v / ((bins : ℝ) - 1)) := by ring
    linarith
  exact ⟨r, hr, e1.trans this, e2.trans this⟩

/-- A cell of a coarser level: every bin is defined and is the mean of what four cells give at the velocity of the bin, so
it lies within the bounds of their tables. -/
theorem C84_mip (bins : ℕ) (hb2 : 2 ≤ bins) (hb : bins < 2147483647) (mm : ℝ × ℝ) (cells : List Cell) (h4 : cells.length = 4)
    (hc : ∀ c ∈ cells, 0 ≤ c.step ∧ c.tab.length = bins) (lo hi : Pair) (hw : ∀ c ∈ cells, ∀ p ∈ c.tab, Within lo hi p) (j : ℕ) :
    ∃ r, mipBin bins mm cells j = .ok r ∧ Within lo hi r := by
  have one : ∀ c ∈ cells, ∃ x, sample bins c.start c.step c.tab (clampVel bins c (binVel bins mm j)) = .ok x ∧ Within lo hi x := by
    intro c hcm
    obtain ⟨hs, hlen⟩ := hc c hcm
    have hex : ∃ x, sample bins c.start c.step c.tab (clampVel bins c (binVel bins mm j)) = .ok x := by
      rcases hs.eq_or_lt with h | h
      · rw [← h]
        obtain ⟨a, _, ha⟩ := sample_zero bins (by omega) c.start c.tab hlen (clampVel bins c (binVel bins mm j))
        exact ⟨a, ha⟩
      · have hbR : (bins : ℝ) < 2147483647 := by exact_mod_cast hb
        have hb0 : (0 : ℝ) ≤ bins := by positivity
        have hlo : c.start ≤ clampVel bins c (binVel bins mm j) := by
          unfold clampVel
          split
          · exact le_refl _
          · split
            · nlinarith
            · linarith
        have hhi : clampVel bins c (binVel bins mm j) ≤ c.start + bins * c.step := by
          unfold clampVel
          split
          · nlinarith
          · split
            · exact le_refl _
            · linarith
        obtain ⟨r, hr, _⟩ := C84_sample bins (by omega) (by omega) c.start c.step h c.tab hlen _ (by linarith)
          (lt_of_le_of_lt hhi (by nlinarith))
        exact ⟨r, hr⟩
    obtain ⟨x, hx⟩ := hex
    exact ⟨x, hx, C84_sample_bounded bins c.start c.step c.tab _ x lo hi hx (hw c hcm)⟩
  match cells, h4 with
  | [c0, c1, c2, c3], _ =>
    obtain ⟨x0, e0, w0⟩ := one c0 (by simp)
    obtain ⟨x1, e1, w1⟩ := one c1 (by simp)
    obtain ⟨x2, e2, w2⟩ := one c2 (by simp)
    obtain ⟨x3, e3, w3⟩ := one c3 (by simp)
    unfold mipBin
    simp only [List.foldlM_cons, List.foldlM_nil, e0, e1, e2, e3, Outcome.ok_bind]
    refine ⟨_, rfl, ?_⟩
    obtain ⟨a1, a2, a3, a4⟩ := w0
    obtain ⟨b1, b2, b3, b4⟩ := w1
    obtain ⟨c1, c2, c3, c4⟩ := w2
    obtain ⟨d1, d2, d3, d4⟩ := w3
    refine ⟨?_, ?_, ?_, ?_⟩ <;> simp only <;> linarith

/-- Not with a velocity out of the plane: the inclination of the extreme ray at the edge of a direction is not tested. With
the default four inclinations and four directions, a ray of cascade 3 in a cell of velocity (-3, -1, -1) sees a velocity
above the range, by more than the two percent of safety, and gets the value at the end of the table. -/
theorem C84_range_refuted (ray : RayProps) (hr : ray.dir = rayDir2 256 64) :
    let v : Fin 3 → ℝ := ![-3, -1, -1]
    let mm := minMaxVel v 4 0 0.9114120404872961 1 1
    let vel := ∑ i, v i * invertedMu ray 0.5905331355592653 i
    mm.2 < vel ∧ ∃ r, sample 21 mm.1 (velStep 21 mm) (fillTab 21 mm fun x => ⟨x, 1⟩) vel = .ok r ∧ r.eta < vel := by
  intro v mm vel
  have hpi3 := Real.pi_gt_three
  have hpi4 := Real.pi_lt_d2
  obtain ⟨u, hu⟩ : ∃ u : Fin 3 → ℝ, u = ![3, 1, 1] := ⟨_, rfl⟩
  -- the ray
  have hvel : (1.367 : ℝ) < vel := by
    have hang : rayAngle 256 64 = Real.pi / 256 + Real.pi / 2 := by unfold rayAngle; push_cast; ring
    have e : vel = - (3 * (Real.sin (Real.pi / 256) * √(1 - 0.5905331355592653 ^ 2))) + 0.5905331355592653 +
        Real.cos (Real.pi / 256) * √(1 - 0.5905331355592653 ^ 2) := by
      change ∑ i, v i * invertedMu ray 0.5905331355592653 i = _
      rw [Fin.sum_univ_three]
      simp [v, invertedMu, hr, rayDir2, hang, Real.cos_add_pi_div_two, Real.sin_add_pi_div_two]
    have s1 : Real.sin (Real.pi / 256) ≤ Real.pi / 256 := Real.sin_le (by positivity)
    have c1 : 1 - (Real.pi / 256) ^ 2 / 2 ≤ Real.cos (Real.pi / 256) := Real.one_sub_sq_div_two_le_cos
    have q0 : (0.807 : ℝ) ≤ √(1 - 0.5905331355592653 ^ 2) := by apply Real.le_sqrt_of_sq_le; norm_num
    have q1 : √(1 - (0.5905331355592653 : ℝ) ^ 2) ≤ 0.8071 := by rw [Real.sqrt_le_left (by norm_num)]; norm_num
    have s2 : Real.sin (Real.pi / 256) ≤ 0.01231 := by linarith
    have c2 : (0.9999 : ℝ) ≤ Real.cos (Real.pi / 256) := by nlinarith
    have s0 : 0 ≤ Real.sin (Real.pi / 256) := Real.sin_nonneg_of_nonneg_of_le_pi (by positivity) (by linarith)
    rw [e]
    nlinarith
  -- the angles of the velocity
  obtain ⟨w, hw⟩ : ∃ w, w = √(11 : ℝ) := ⟨_, rfl⟩
  have hw2 : w ^ 2 = 11 := by rw [hw]; norm_num
  have hwp : 0 < w := by rw [hw]; positivity
  have u0 : u 0 = 3 := by rw [hu]; rfl
  have u1 : u 1 = 1 := by rw [hu]; rfl
  have u2 : u 2 = 1 := by rw [hu]; rfl
  have hnorm : √(u 0 ^ 2 + u 1 ^ 2 + u 2 ^ 2) = w := by rw [u0, u1, u2, hw]; norm_num
  obtain ⟨s, hs⟩ : ∃ s, s = √(1 - (1 / w) ^ 2) := ⟨_, rfl⟩
  have hs2 : s ^ 2 = 10 / 11 := by
    rw [hs, Real.sq_sqrt]
    · field_simp; linarith
    · rw [div_pow, hw2]; norm_num
  have hs0 : 0 < s := by
    rw [hs]; apply Real.sqrt_pos.2; rw [div_pow, hw2]; norm_num
  have hw3 : (3.3 : ℝ) < w := by nlinarith
  have hw4 : w < 3.32 := by nlinarith
  have hmu1 : 1 / w < 0.304 := by rw [div_lt_iff₀ hwp]; nlinarith
  have hmu0 : 0 < 1 / w := by positivity
  have hva : ∃ p, 0 < p ∧ p < Real.pi / 2 ∧ velAngs u = (some (Real.arccos (1 / w)), some p) := by
    obtain ⟨z, hz⟩ : ∃ z : ℂ, z = ⟨3 / w / s, 1 / w / s⟩ := ⟨_, rfl⟩
    have hre : 0 < z.re := by rw [hz]; positivity
    have him : 0 < z.im := by rw [hz]; positivity
    have h1 : |Complex.arg z| < Real.pi / 2 := Complex.abs_arg_lt_pi_div_two_iff.2 (Or.inl hre)
    have h2 : 0 ≤ Complex.arg z := Complex.arg_nonneg_iff.2 him.le
    have h3 : Complex.arg z ≠ 0 := by
      intro h
      have := (Complex.arg_eq_zero_iff.1 h).2
      linarith
    refine ⟨Complex.arg z, lt_of_le_of_ne h2 (Ne.symm h3), (abs_lt.1 h1).2, ?_⟩
    unfold velAngs
    simp only
    rw [hnorm, if_neg (ne_of_gt hwp)]
    unfold dirToAngs
    simp only
    have u0 : u 0 = 3 := by rw [hu]; rfl
    have u1 : u 1 = 1 := by rw [hu]; rfl
    have u2 : u 2 = 1 := by rw [hu]; rfl
    rw [u0, u1, u2, ← hs, if_neg (ne_of_gt hs0), ← hz, if_neg (not_lt.2 h2)]
  have hoa : ∃ p, Real.pi < p ∧ oppAngs u = (some (Real.arccos (-(1 / w))), some p) := by
    obtain ⟨z, hz⟩ : ∃ z : ℂ, z = ⟨-(3 / w) / s, -(1 / w) / s⟩ := ⟨_, rfl⟩
    have him : z.im < 0 := by rw [hz]; simp only; rw [neg_div]; have : 0 < 1 / w / s := by positivity
                              linarith
    have h1 : Complex.arg z < 0 := Complex.arg_neg_iff.2 him
    have h2 := Complex.neg_pi_lt_arg z
    refine ⟨Complex.arg z + 2 * Real.pi, by linarith, ?_⟩
    unfold oppAngs
    simp only
    rw [hnorm, if_neg (ne_of_gt hwp)]
    unfold dirToAngs
    simp only
    have u0 : u 0 = 3 := by rw [hu]; rfl
    have u1 : u 1 = 1 := by rw [hu]; rfl
    have u2 : u 2 = 1 := by rw [hu]; rfl
    rw [u0, u1, u2, neg_sq, ← hs, if_neg (ne_of_gt hs0), ← hz, if_pos h1]
  obtain ⟨p, hp0, hp1, hva⟩ := hva
  obtain ⟨po, hpo, hoa⟩ := hoa
  obtain ⟨r, hrd⟩ : ∃ r, r = dirRange 4 0 0.9114120404872961 1 := ⟨_, rfl⟩
  have rp0 : r.phi0 = Real.pi / 2 := by rw [hrd]; unfold dirRange; push_cast; ring
  have rp1 : r.phi1 = Real.pi := by rw [hrd]; unfold dirRange; push_cast; ring
  have rt0 : r.theta0 = Real.arccos 0.9114120404872961 := by rw [hrd]; rfl
  have rt1 : r.theta1 = Real.arccos 0 := by rw [hrd]; rfl
  have d90 : ∀ mu : ℝ, -1 ≤ mu → mu ≤ 1 → dot3 u (angsToDir (Real.arccos mu) (Real.pi / 2)) = mu + √(1 - mu ^ 2) := by
    intro mu a b; rw [dot_angs_mu _ _ _ a b, hu]; simp
  have d180 : ∀ mu : ℝ, -1 ≤ mu → mu ≤ 1 → dot3 u (angsToDir (Real.arccos mu) Real.pi) = mu - 3 * √(1 - mu ^ 2) := by
    intro mu a b; rw [dot_angs_mu _ _ _ a b, hu]; simp; ring
  have q2 : √(1 - (0.9114120404872961 : ℝ) ^ 2) ≤ 0.4116 := by rw [Real.sqrt_le_left (by norm_num)]; norm_num
  have hcor : ∀ x ∈ corners u r, x ≤ 1.3231 := by
    intro x hx
    simp only [corners, rp0, rp1, rt0, rt1, List.mem_cons, List.not_mem_nil, or_false] at hx
    have n := Real.sqrt_nonneg (1 - (0.9114120404872961 : ℝ) ^ 2)
    rcases hx with rfl | rfl | rfl | rfl
    · rw [d90 _ (by norm_num) (by norm_num)]; linarith
    · rw [d180 _ (by norm_num) (by norm_num)]; linarith
    · rw [d90 _ (by norm_num) (by norm_num)]; norm_num
    · rw [d180 _ (by norm_num) (by norm_num)]; norm_num
  have hin : inRange (some p) r.phi0 r.phi1 = false := by
    rw [rp0]; apply inRange_false; intro h; linarith [h.1]
  have hino : inRange (some po) r.phi0 r.phi1 = false := by
    rw [rp1]; apply inRange_false; intro h; linarith [h.2]
  have htho : inRange (some (Real.arccos (-(1 / w)))) r.theta0 r.theta1 = false := by
    rw [rt1]; apply inRange_false; intro h
    have h2 := h.2
    rw [Real.arccos_zero, Real.arccos_neg] at h2
    have h3 : Real.arccos (1 / w) < Real.pi / 2 := Real.arccos_lt_pi_div_two.2 hmu0
    linarith
  have hext : ∀ x ∈ extraTests u (velAngs u) r, x ≤ 1.3231 := by
    intro x hx
    rw [hva] at hx
    unfold extraTests at hx
    simp only [hin] at hx
    simp only [Bool.and_false, Bool.false_eq_true, if_false] at hx
    split at hx
    · simp only [Option.getD_some, List.mem_cons, List.not_mem_nil, or_false, rp0, rp1] at hx
      rcases hx with rfl | rfl
      · rw [d90 _ (by linarith) (by linarith), ← hs]; nlinarith
      · rw [d180 _ (by linarith) (by linarith), ← hs]; nlinarith
    · simp at hx
  have hexo : extraTests u (oppAngs u) r = [] := by
    rw [hoa]
    unfold extraTests
    simp only [hino, htho]
    simp
  have htest : tested u 4 0 0.9114120404872961 1 1 = corners u r ++ extraTests u (velAngs u) r := by
    unfold tested
    rw [show List.range 1 = [0] from rfl]
    simp only [List.flatMap_cons, List.flatMap_nil, List.append_nil, Nat.add_zero]
    rw [← hrd, hexo, List.append_nil]
  have hall : ∀ x ∈ tested u 4 0 0.9114120404872961 1 1, x ≤ 1.3231 := by
    intro x hx
    rw [htest] at hx
    rcases List.mem_append.1 hx with h | h
    · exact hcor x h
    · exact hext x h
  have hfold : ∀ (l : List ℝ) (m : ℝ × ℝ), (∀ x ∈ l, x ≤ 1.3231) → m.2 ≤ 1.3231 →
      (l.foldl (fun m x => (min m.1 x, max m.2 x)) m).2 ≤ 1.3231 := by
    intro l
    induction l with
    | nil => intro m _ h; exact h
    | cons a l ih =>
      intro m h1 h2
      exact ih _ (fun x hx => h1 x (List.mem_cons_of_mem _ hx)) (max_le h2 (h1 a List.mem_cons_self))
  have huv : (![- v 0, - v 1, - v 2] : Fin 3 → ℝ) = u := by rw [hu]; simp [v]
  have hmm2 : mm.2 ≤ 1.3496 := by
    change (minMaxVel v 4 0 0.9114120404872961 1 1).2 ≤ _
    unfold minMaxVel
    simp only
    rw [huv]
    have h1 := hfold _ (1e6, -1e6) hall (by norm_num)
    have h2 : (0 : ℝ) ≤ ((tested u 4 0 0.9114120404872961 1 1).foldl (fun m x => (min m.1 x, max m.2 x)) ((1e6 : ℝ), (-1e6 : ℝ))).2 := by
      have := ((fold_bounds (tested u 4 0 0.9114120404872961 1 1) (1e6, -1e6)).2.1 (dot3 u (angsToDir r.theta1 r.phi0)) (by
        rw [htest]; simp [corners])).2
      rw [rt1, rp0, d90 _ (by norm_num) (by norm_num)] at this
      have h3 : (0 : ℝ) + √(1 - 0 ^ 2) = 1 := by norm_num
      rw [h3] at this
      linarith
    rw [abs_of_nonneg h2]
    linarith
  have hmm1 : mm.1 ≤ -2 := by
    change (minMaxVel v 4 0 0.9114120404872961 1 1).1 ≤ _
    unfold minMaxVel
    simp only
    rw [huv]
    have := ((fold_bounds (tested u 4 0 0.9114120404872961 1 1) (1e6, -1e6)).2.1 (dot3 u (angsToDir r.theta1 r.phi1)) (by
        rw [htest]; simp [corners])).1
    rw [rt1, rp1, d180 _ (by norm_num) (by norm_num)] at this
    have h2 := abs_nonneg ((tested u 4 0 0.9114120404872961 1 1).foldl (fun m x => (min m.1 x, max m.2 x)) ((1e6 : ℝ), (-1e6 : ℝ))).1
    have h3 : (0 : ℝ) - 3 * √(1 - 0 ^ 2) = -3 := by norm_num
    rw [h3] at this
    linarith
  have hmm0 : -4 ≤ mm.1 := by
    have h := (C84_width v 4 0 0.9114120404872961 1 1 (by norm_num)).1
    have hsp : speed v = w := by unfold speed; rw [hw]; simp [v]; norm_num
    rw [hsp] at h
    change -4 ≤ (minMaxVel v 4 0 0.9114120404872961 1 1).1
    linarith
  have hmmlow : 1 ≤ mm.2 := by
    have := ((fold_bounds (tested u 4 0 0.9114120404872961 1 1) (1e6, -1e6)).2.1 (dot3 u (angsToDir r.theta1 r.phi0)) (by
        rw [htest]; simp [corners])).2
    rw [rt1, rp0, d90 _ (by norm_num) (by norm_num)] at this
    change 1 ≤ (minMaxVel v 4 0 0.9114120404872961 1 1).2
    unfold minMaxVel
    simp only
    rw [huv]
    have h2 := abs_nonneg ((tested u 4 0 0.9114120404872961 1 1).foldl (fun m x => (min m.1 x, max m.2 x)) ((1e6 : ℝ), (-1e6 : ℝ))).2
    have h3 : (0 : ℝ) + √(1 - 0 ^ 2) = 1 := by norm_num
    rw [h3] at this
    linarith
  have hv2 : vel ≤ 4 := by
    have := dot_le_speed u (Real.arccos 0.5905331355592653) (rayAngle 256 64)
    have hp : vel = dot3 u (angsToDir (Real.arccos 0.5905331355592653) (rayAngle 256 64)) := by
      change ∑ i, v i * invertedMu ray 0.5905331355592653 i = _
      rw [dot_angs_mu _ _ _ (by norm_num) (by norm_num), hu, Fin.sum_univ_three]
      simp [invertedMu, hr, rayDir2, v]
    have hsp : speed u = w := hnorm
    rw [hp]
    have := (abs_le.1 this).2
    linarith
  refine ⟨by linarith, ?_⟩
  have hst : velStep 21 mm = (mm.2 - mm.1) / 20 := by unfold velStep; norm_num
  have hstp : 0 < velStep 21 mm := by rw [hst]; linarith
  obtain ⟨x, hx, _⟩ := C84_sample 21 (by norm_num) (by norm_num) mm.1 (velStep 21 mm) hstp (fillTab 21 mm fun x => ⟨x, 1⟩) (by simp [fillTab])
    vel (by rw [hst]; linarith) (by rw [hst]; linarith)
  refine ⟨x, hx, ?_⟩
  have := C84_sample_bounded 21 mm.1 _ _ vel x ⟨mm.1, 1⟩ ⟨mm.2, 1⟩ hx (by
    intro q hq
    unfold fillTab at hq
    obtain ⟨i, hi, rfl⟩ := List.mem_map.1 hq
    have hi' : (i : ℝ) ≤ 20 := by have := List.mem_range.1 hi; exact_mod_cast (by omega : i ≤ 20)
    have hi0 : (0 : ℝ) ≤ i := by positivity
    have hb := hst
    refine ⟨?_, ?_, le_refl _, le_refl _⟩
    · simp only [binVel]; nlinarith
    · simp only [binVel]
      have : velStep 21 mm * i ≤ velStep 21 mm * 20 := mul_le_mul_of_nonneg_left hi' hstp.le
      rw [hst] at this ⊢
      linarith)
  linarith [this.2.1]

/-- Non-vacuity: a cell moving in the plane, a profile that is not constant, and a ray of cascade 1. -/
example : ∃ r, sample 21 (minMaxVel ![1, 0, 2] 4 0 0.9 1 1).1 (velStep 21 (minMaxVel ![1, 0, 2] 4 0 0.9 1 1))
    (fillTab 21 (minMaxVel ![1, 0, 2] 4 0 0.9 1 1) fun x => ⟨x, 2 * x⟩)
    (∑ i, (![1, 0, 2] : Fin 3 → ℝ) i * invertedMu ⟨0, 0, rayDir2 16 5, 0⟩ 0.5 i) = .ok r ∧
    |r.eta - ∑ i, (![1, 0, 2] : Fin 3 → ℝ) i * invertedMu ⟨0, 0, rayDir2 16 5, 0⟩ 0.5 i| ≤ 1.02 * 2 * speed ![1, 0, 2] / 20 := by
  obtain ⟨r, h1, h2, _⟩ := C84_ray_partial 21 (by norm_num) (by norm_num) ![1, 0, 2] (by simp) 4 0 0.9 (by norm_num) (by norm_num) 1 1 1
    (by norm_num) (by norm_num) (by norm_num) 4 5 (by norm_num) (by norm_num) ⟨0, 0, rayDir2 16 5, 0⟩ rfl 0.5 (by norm_num) (by norm_num)
    2 (by norm_num) (fun x => ⟨x, 2 * x⟩) (by
      intro x y
      constructor
      · simp only; linarith [abs_nonneg (x - y)]
      · simp only; rw [← mul_sub, abs_mul]; norm_num)
  refine ⟨r, h1, ?_⟩
  norm_num at h2 ⊢
  exact h2

/-- Non-vacuity of the level theorem: cells with different tables, one of them at rest. -/
example : ∃ r, mipBin 2 (0, 1) [⟨0, 1, [⟨1, 1⟩, ⟨2, 2⟩]⟩, ⟨0, 0, [⟨1, 1⟩, ⟨1, 1⟩]⟩, ⟨5, 1, [⟨1, 2⟩, ⟨2, 2⟩]⟩, ⟨-5, 1, [⟨1, 1⟩, ⟨2, 1⟩]⟩] 1 = .ok r ∧
    Within ⟨1, 1⟩ ⟨2, 2⟩ r :=
  C84_mip 2 (by norm_num) (by norm_num) (0, 1) _ rfl (by simp) ⟨1, 1⟩ ⟨2, 2⟩ (by simp [Within]) 1

end DexRT.VelInterp
