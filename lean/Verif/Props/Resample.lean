import Verif.Lemmas.Boundary
import Verif.Props.Interp
/-!
C59: putting the boundary table on the wavelength grid of the run.
-/
namespace DexRT
open Boundary
variable {K : Type} [Field K] [LinearOrder K] [IsStrictOrderedRing K]

/-- C59 (each bin): for all strictly increasing wavelength grids of the file and of the run with at least two points, and
all intensities, resampling reads only array elements, and every output value times the width of its bin is the flux
of the input profile in that bin, the profile being continued by its end values in a bin that sticks out of the
tabulated range; a bin completely outside gets zero. -/
theorem C59_bins (wl y wavelength : List K) (h1 : wl.Pairwise (· < ·)) (h2 : 2 ≤ wl.length) (hy : y.length = wl.length)
    (h3 : wavelength.Pairwise (· < ·)) (h4 : 2 ≤ wavelength.length) :
    ∃ inE outE out, IsEdges wl inE ∧ IsEdges wavelength outE ∧ resample wl y wavelength = .ok out ∧ out.length = wavelength.length ∧
      ∀ i, i < out.length →
        (outE.getD (i + 1) 0 ≤ inE.getD 0 0 ∨ inE.getD y.length 0 ≤ outE.getD i 0 → out.getD i 0 = 0) ∧
        (inE.getD 0 0 ≤ outE.getD i 0 → outE.getD (i + 1) 0 ≤ inE.getD y.length 0 →
          out.getD i 0 * (outE.getD (i + 1) 0 - outE.getD i 0) = flux inE y (outE.getD i 0) (outE.getD (i + 1) 0)) ∧
        (inE.getD 0 0 < outE.getD (i + 1) 0 → outE.getD i 0 < inE.getD y.length 0 →
          out.getD i 0 * (outE.getD (i + 1) 0 - outE.getD i 0) =
            flux inE y (max (inE.getD 0 0) (outE.getD i 0)) (min (inE.getD y.length 0) (outE.getD (i + 1) 0)) +
            (max (inE.getD 0 0) (outE.getD i 0) - outE.getD i 0) * y.getD 0 0 +
            (outE.getD (i + 1) 0 - min (inE.getD y.length 0) (outE.getD (i + 1) 0)) * y.getD (y.length - 1) 0) := by
  obtain ⟨inE, e1, hin⟩ := computeEdges_spec wl h2
  obtain ⟨outE, e2, hout⟩ := computeEdges_spec wavelength h4
  have si := hin.sorted _ _ h1 h2
  have so := hout.sorted _ _ h3 h4
  have hl : inE.length = y.length + 1 := by rw [hin.length, hy]
  obtain ⟨out, o1, o2, o3⟩ := resampleLoop_spec inE y si hl (by omega) outE 0 0 so
    ⟨by omega, fun k hk => absurd hk (by omega)⟩ ⟨by omega, fun k hk => absurd hk (by omega)⟩
  have hlen : out.length = wavelength.length := by rw [o2, hout.length]; omega
  refine ⟨inE, outE, out, hin, hout, ?_, hlen, fun i hi => ?_⟩
  · simp only [resample, e1, e2, Outcome.ok_bind, o1]
  · obtain ⟨b1, b2⟩ := o3 i hi
    have hlt : outE.getD i 0 < outE.getD (i + 1) 0 := sorted_lt outE so i (i + 1) (by omega) (by rw [hout.length]; omega)
    refine ⟨b1, fun h5 h6 => ?_, b2⟩
    have h7 := b2 (h5.trans_lt hlt) (hlt.trans_le h6)
    rw [max_eq_right h5, min_eq_right h6] at h7
    rw [h7]; ring

/-- C59 (total): if the bins of the run lie inside the tabulated range, the total flux on the grid of the run is exactly the flux
of the tabulated profile over that range. -/
theorem C59_total (wl y wavelength : List K) (h1 : wl.Pairwise (· < ·)) (h2 : 2 ≤ wl.length) (hy : y.length = wl.length)
    (h3 : wavelength.Pairwise (· < ·)) (h4 : 2 ≤ wavelength.length) :
    ∃ inE outE out, IsEdges wl inE ∧ IsEdges wavelength outE ∧ resample wl y wavelength = .ok out ∧
      (inE.getD 0 0 ≤ outE.getD 0 0 → outE.getD wavelength.length 0 ≤ inE.getD wl.length 0 →
        ∑ i ∈ Finset.range wavelength.length, out.getD i 0 * (outE.getD (i + 1) 0 - outE.getD i 0) =
          flux inE y (outE.getD 0 0) (outE.getD wavelength.length 0)) := by
  obtain ⟨inE, outE, out, hin, hout, hr, hlen, hb⟩ := C59_bins wl y wavelength h1 h2 hy h3 h4
  refine ⟨inE, outE, out, hin, hout, hr, fun hlo hhi => ?_⟩
  have si := hin.sorted _ _ h1 h2
  have so := hout.sorted _ _ h3 h4
  have hl : inE.length = y.length + 1 := by rw [hin.length, hy]
  have key : ∀ n, n ≤ wavelength.length →
      ∑ i ∈ Finset.range n, out.getD i 0 * (outE.getD (i + 1) 0 - outE.getD i 0) = flux inE y (outE.getD 0 0) (outE.getD n 0) := by
    intro n
    induction n with
    | zero =>
      intro _
      rw [Finset.sum_range_zero, flux, Finset.sum_eq_zero]
      intro k _
      have : min (outE.getD 0 0) (inE.getD (k + 1) 0) - max (outE.getD 0 0) (inE.getD k 0) ≤ 0 := by
        have := min_le_left (outE.getD 0 0) (inE.getD (k + 1) 0)
        have := le_max_left (outE.getD 0 0) (inE.getD k 0)
        linarith
      rw [overlap, max_eq_left this, mul_zero]
    | succ n ih =>
      intro hn
      have g1 : outE.getD 0 0 ≤ outE.getD n 0 := sorted_le outE so 0 n (by omega) (by rw [hout.length]; omega)
      have g2 : outE.getD n 0 ≤ outE.getD (n + 1) 0 := sorted_le outE so n (n + 1) (by omega) (by rw [hout.length]; omega)
      have g3 : outE.getD (n + 1) 0 ≤ outE.getD wavelength.length 0 := sorted_le outE so (n + 1) _ hn (by rw [hout.length]; omega)
      rw [Finset.sum_range_succ, ih (by omega), (hb n (by omega)).2.1 (hlo.trans g1) (by rw [hy]; exact g3.trans hhi),
        flux_add inE y si hl _ _ _ g1 g2]
  exact key wavelength.length (le_refl _)

/-- C59 (bounds): no output value of a bin that overlaps the tabulated range is outside the range of the tabulated intensities. In
particular intensities stay non-negative and a flat spectrum stays as it is. -/
theorem C59_bounds (wl y wavelength : List K) (h1 : wl.Pairwise (· < ·)) (h2 : 2 ≤ wl.length) (hy : y.length = wl.length)
    (h3 : wavelength.Pairwise (· < ·)) (h4 : 2 ≤ wavelength.length) (m M : K) (hm : ∀ v ∈ y, m ≤ v ∧ v ≤ M) :
    ∃ inE outE out, IsEdges wl inE ∧ IsEdges wavelength outE ∧ resample wl y wavelength = .ok out ∧
      ∀ i, i < wavelength.length → inE.getD 0 0 < outE.getD (i + 1) 0 → outE.getD i 0 < inE.getD y.length 0 →
        m ≤ out.getD i 0 ∧ out.getD i 0 ≤ M := by
  obtain ⟨inE, outE, out, hin, hout, hr, hlen, hb⟩ := C59_bins wl y wavelength h1 h2 hy h3 h4
  refine ⟨inE, outE, out, hin, hout, hr, fun i hi ha hc => ?_⟩
  have si := hin.sorted _ _ h1 h2
  have so := hout.sorted _ _ h3 h4
  have hl : inE.length = y.length + 1 := by rw [hin.length, hy]
  have hlt : outE.getD i 0 < outE.getD (i + 1) 0 := sorted_lt outE so i (i + 1) (by omega) (by rw [hout.length]; omega)
  have hel : inE.getD 0 0 < inE.getD y.length 0 := sorted_lt inE si 0 y.length (by omega) (by omega)
  have hv := (hb i (by omega)).2.2 ha hc
  have hab : max (inE.getD 0 0) (outE.getD i 0) ≤ min (inE.getD y.length 0) (outE.getD (i + 1) 0) :=
    max_le (le_min hel.le ha.le) (le_min hc.le hlt.le)
  obtain ⟨f1, f2⟩ := flux_bounds inE y si hl _ _ hab (le_max_left _ _) (min_le_left _ _) m M hm
  have hy0 : m ≤ y.getD 0 0 ∧ y.getD 0 0 ≤ M := by
    rw [List.getD_eq_getElem?_getD, List.getElem?_eq_getElem (show 0 < y.length by omega), Option.getD_some]
    exact hm _ (List.getElem_mem _)
  have hyl : m ≤ y.getD (y.length - 1) 0 ∧ y.getD (y.length - 1) 0 ≤ M := by
    rw [List.getD_eq_getElem?_getD, List.getElem?_eq_getElem (show y.length - 1 < y.length by omega), Option.getD_some]
    exact hm _ (List.getElem_mem _)
  have p1 : 0 ≤ max (inE.getD 0 0) (outE.getD i 0) - outE.getD i 0 := sub_nonneg.mpr (le_max_right _ _)
  have p2 : 0 ≤ outE.getD (i + 1) 0 - min (inE.getD y.length 0) (outE.getD (i + 1) 0) := sub_nonneg.mpr (min_le_right _ _)
  have q1 := mul_le_mul_of_nonneg_left hy0.1 p1
  have q2 := mul_le_mul_of_nonneg_left hy0.2 p1
  have q3 := mul_le_mul_of_nonneg_left hyl.1 p2
  have q4 := mul_le_mul_of_nonneg_left hyl.2 p2
  have hpos : 0 < outE.getD (i + 1) 0 - outE.getD i 0 := sub_pos.mpr hlt
  constructor
  · refine le_of_mul_le_mul_right ?_ hpos
    rw [hv]; nlinarith
  · refine le_of_mul_le_mul_right ?_ hpos
    rw [hv]; nlinarith

/-- C59 (interpolation): the other way of loading the table gives the piecewise linear curve through the tabulated points, for every
strictly increasing table and every wavelength. -/
theorem C59_interp_partial (wl y : List K) (hl : wl.length = y.length) (hw : wl.Pairwise (· < ·)) (hn : 0 < wl.length) (a : K) :
    ∃ v, interpBc wl y a = .ok v ∧ PiecewiseLinear wl y hl a v := by
  obtain ⟨v, h1, h2⟩ := C37_interp_partial wl y hl hw hn a
  refine ⟨v, ?_, h2⟩
  rw [← h1]
  unfold interpBc interp
  rw [Boundary.readAt_ok wl 0 hn, Boundary.readAt_ok wl (wl.length - 1) (by omega), Boundary.readAt_ok y 0 (by omega)]
  simp only [Outcome.ok_bind, decide_eq_true_eq]
  by_cases c1 : a ≤ wl.getD 0 0
  · rw [if_pos c1, if_pos c1]; simp
  · rw [if_neg c1, if_neg c1]
    by_cases c2 : a ≥ wl.getD (wl.length - 1) 0
    · rw [if_pos c2, if_pos c2, Boundary.readAt_ok y (wl.length - 1) (by omega), Boundary.readAt_ok y (y.length - 1) (by omega), hl]
      simp
    · rw [if_neg c2, if_neg c2]

/-- C59 fails for a run with a single wavelength: the flux-conserving resampling needs a neighbour and reads past the array. -/
theorem C59_single_refuted (wl y : List K) (a : K) (h2 : 2 ≤ wl.length) : resample wl y [a] = .ub := by
  obtain ⟨e, he, _⟩ := computeEdges_spec wl h2
  simp only [resample, he, Outcome.ok_bind]
  rfl

/-- Non-vacuity: five wavelengths in the run, four in the file; the first and fourth bin stick out, the last is outside. -/
example : ([1, 2, 4, 8] : List ℚ).Pairwise (· < ·) ∧ ([1, 3, 5, 7, 30] : List ℚ).Pairwise (· < ·) ∧
    resample [1, 2, 4, 8] [10, 20, 40, 80] ([1, 3, 5, 7, 30] : List ℚ) = .ok [25 / 2, 30, 40, 80, 0] := by
  refine ⟨by decide +kernel, by decide +kernel, by decide +kernel⟩

/-- Non-vacuity of `C59_total`: bins of the run inside the table. Flux 20·1 + 40·3 over [2, 6]. -/
example : resample [1, 2, 4, 8] [10, 20, 40, 80] ([3, 5] : List ℚ) = .ok [30, 40] ∧
    flux [1 / 2, 3 / 2, 3, 6, 10] [10, 20, 40, 80] (2 : ℚ) 6 = 140 := by
  refine ⟨by decide +kernel, by decide +kernel⟩

end DexRT
