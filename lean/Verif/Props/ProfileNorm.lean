import Verif.Lemmas.Emis
import Verif.Model.Gamma
import Verif.Props.Lte
/-!
# C55, C56: normalisation of line profiles, populations without radiation
-/
namespace DexRT
open Emis

variable (k : Consts) (phi : ℝ → ℝ → ℝ)

/-! ### C55 -/

/-- The line's profile at wavelength `w` for a ray with projected velocity `vel`, as the rates use it
(source/EmisOpac.hpp:199-202). -/
noncomputable def profileAt (lambda0 dop gamma w vel : ℝ) : ℝ :=
  phi (gamma * w ^ 2 / (10 ^ 9 * k.fourPi * k.c * dop)) ((w - lambda0 * (1 - vel / k.c)) / dop) / (k.sqrtPi * dop)

/-- Quadrature over the line's wavelengths and over the directions of a quantity. -/
noncomputable def quad (grid : List (ℝ × ℝ)) (rays : List Ray) (f : ℝ → Ray → ℝ) : ℝ :=
  (grid.map fun g => (rays.map fun r => f g.1 r * g.2 * r.weight).sum).sum

theorem profileEntry_eq (lambda0 dop gamma : ℝ) (grid : List (ℝ × ℝ)) (rays : List Ray) :
    profileEntry k phi lambda0 dop gamma grid rays =
      quad grid rays fun w r => profileAt k phi lambda0 dop gamma w r.vel := by
  unfold profileEntry quad
  have h : ∀ (e : ℝ) (g : ℝ × ℝ), rays.foldl (fun e r =>
      e + phi (dampingFromGamma k gamma g.1 dop) (((g.1 - lambda0) + (r.vel * lambda0) / k.c) / dop) /
        (k.sqrtPi * dop) * g.2 * r.weight) e =
      e + (rays.map fun r => profileAt k phi lambda0 dop gamma g.1 r.vel * g.2 * r.weight).sum := by
    intro e g
    rw [foldl_add]
    congr 2
    refine List.map_congr_left fun r _ => ?_
    congr 2
    unfold profileAt dampingFromGamma
    congr 2
    · rw [show (10 : ℝ) ^ 9 = 1000000000 by norm_num]
      simp only [div_eq_mul_inv, mul_inv]; ring
    · congr 1; ring
  simp only [h]
  rw [foldl_add, _root_.zero_add]

/-- C55 (normalisation): for every line, cell, wavelength grid, set of directions and Voigt function, the factor makes the
profile integrate to one over exactly the quadrature the rates use, unless the profile integrates to zero there, when
the factor is one. -/
theorem C55_normalised (lambda0 dop gamma : ℝ) (grid : List (ℝ × ℝ)) (rays : List Ray) :
    let I := quad grid rays fun w r => profileAt k phi lambda0 dop gamma w r.vel
    let f := wphi (profileEntry k phi lambda0 dop gamma grid rays)
    (I ≠ 0 → f * I = 1) ∧ (I = 0 → f = 1) := by
  simp only [profileEntry_eq]
  unfold wphi
  constructor
  · intro h; rw [if_pos h, one_div, inv_mul_cancel₀ h]
  · intro h; rw [if_neg (by simpa using h)]

theorem quad_mul (grid : List (ℝ × ℝ)) (rays : List Ray) (f : ℝ → Ray → ℝ) (x : ℝ) :
    quad grid rays (fun w r => x * f w r) = x * quad grid rays f := by
  unfold quad
  have h : ∀ g : ℝ × ℝ, (rays.map fun r => x * f g.1 r * g.2 * r.weight).sum =
      x * (rays.map fun r => f g.1 r * g.2 * r.weight).sum := by
    intro g
    rw [← List.sum_map_mul_left]
    congr 1
    exact List.map_congr_left fun r _ => by ring
  simp only [h]
  rw [List.sum_map_mul_left]

/-- The three line rates summed over the quadrature with the weight the program uses, source/DynamicFormalSolution.cpp:
217, 218, 321, for an intensity that is the same everywhere and no approximate operator. `g` is one of `U`, `V`. -/
noncomputable def summedRate (l : Line) (dop gamma : ℝ) (grid : List (ℝ × ℝ)) (rays : List Ray) (g : UV → ℝ) : ℝ :=
  (grid.map fun x => (rays.map fun r => g (uvLine k phi l dop gamma r.vel x.1 true) *
    wlamuLine x.1 x.2 r.weight (wphi (profileEntry k phi l.lambda0 dop gamma grid rays))).sum).sum

theorem summedRate_eq (l : Line) (dop gamma : ℝ) (grid : List (ℝ × ℝ)) (rays : List Ray) (hpos : ∀ x ∈ grid, x.1 ≠ 0)
    (g : UV → ℝ) (coef : ℝ)
    (hg : ∀ w vel, g (uvLine k phi l dop gamma vel w true) = 1 / w * coef * profileAt k phi l.lambda0 dop gamma w vel) :
    summedRate k phi l dop gamma grid rays g =
      coef * (wphi (profileEntry k phi l.lambda0 dop gamma grid rays) *
        quad grid rays fun w r => profileAt k phi l.lambda0 dop gamma w r.vel) := by
  rw [← mul_assoc, ← quad_mul]
  unfold summedRate quad
  congr 1
  refine List.map_congr_left fun x hx => ?_
  congr 1
  refine List.map_congr_left fun r _ => ?_
  rw [hg]
  unfold wlamuLine
  have := hpos x hx
  field_simp

theorem uvLine_profile (l : Line) (dop gamma w vel : ℝ) :
    uvLine k phi l dop gamma vel w true = ⟨1 / w * l.aji * profileAt k phi l.lambda0 dop gamma w vel,
      1 / w * l.bji * profileAt k phi l.lambda0 dop gamma w vel, 1 / w * l.bij * profileAt k phi l.lambda0 dop gamma w vel⟩ := by
  have e : phi (dampingFromGamma k gamma w dop) (((w - l.lambda0) + (vel * l.lambda0) / k.c) / dop) / (k.sqrtPi * dop) =
      profileAt k phi l.lambda0 dop gamma w vel := by
    unfold profileAt dampingFromGamma
    congr 2
    · rw [show (10 : ℝ) ^ 9 = 1000000000 by norm_num]
      simp only [div_eq_mul_inv, mul_inv]; ring
    · congr 1; ring
  unfold uvLine
  simp only [if_true, e]

/-- C55 (rates): for every line, cell, grid of nonzero wavelengths and set of directions on which the profile does not
integrate to zero, the spontaneous rate summed over the quadrature is exactly Einstein's `A`, and in a uniform intensity
the absorption and stimulated rates are exactly `B` times the intensity: no error of the wavelength or angle quadrature
is left in the total rates. -/
theorem C55_rates (l : Line) (dop gamma : ℝ) (grid : List (ℝ × ℝ)) (rays : List Ray) (hpos : ∀ x ∈ grid, x.1 ≠ 0)
    (hI : quad grid rays (fun w r => profileAt k phi l.lambda0 dop gamma w r.vel) ≠ 0) :
    summedRate k phi l dop gamma grid rays UV.uji = l.aji ∧ summedRate k phi l dop gamma grid rays UV.vji = l.bji ∧
      summedRate k phi l dop gamma grid rays UV.vij = l.bij := by
  have h1 := (C55_normalised k phi l.lambda0 dop gamma grid rays).1 hI
  refine ⟨?_, ?_, ?_⟩
  · rw [summedRate_eq k phi l dop gamma grid rays hpos UV.uji l.aji fun w vel => by rw [uvLine_profile], h1, mul_one]
  · rw [summedRate_eq k phi l dop gamma grid rays hpos UV.vji l.bji fun w vel => by rw [uvLine_profile], h1, mul_one]
  · rw [summedRate_eq k phi l dop gamma grid rays hpos UV.vij l.bij fun w vel => by rw [uvLine_profile], h1, mul_one]

/-- The hypothesis holds: a flat profile on two wavelengths and two directions. -/
example : quad [(1, 1), (2, 1)] [⟨0, 1 / 2⟩, ⟨1, 1 / 2⟩]
    (fun w r => profileAt ⟨1, 1, 1, 1, 1, 1, 1, 1, 1, 1⟩ (fun _ _ => 1) 1 1 1 w r.vel) = 2 := by
  simp [quad, profileAt]; norm_num

/-! ### C56 -/

/-- The rate out of the upper level of a continuum at one wavelength in the formal solution when there is no radiation
(`G_ij` of source/GammaMatrix.hpp:29 with intensity and approximate operator zero), weight included:
source/DynamicFormalSolution.cpp:77-80, 164 with all directions added up (their weights sum to one). -/
noncomputable def formalRecombination (nStarI nStarJ temperature lambda bin sigma : ℝ) : ℝ :=
  let u := uvContOf k sigma (nStarI / nStarJ * Real.exp (-k.hck / (lambda * temperature))) lambda
  Rates.Accum.gij (⟨0, 0, u.uji, u.vji, u.vij, 0, 0, 1 / (k.hc / (k.fourPi * lambda)) * bin⟩ : Rates.Accum ℝ)

/-- C56 (lines): the rate set for a line without radiation, `A`, is the one the formal solution gives when there is no
radiation. -/
theorem C56_lines_partial (l : Line) (dop gamma : ℝ) (grid : List (ℝ × ℝ)) (rays : List Ray) (hpos : ∀ x ∈ grid, x.1 ≠ 0)
    (hI : quad grid rays (fun w r => profileAt k phi l.lambda0 dop gamma w r.vel) ≠ 0) :
    (grid.map fun x => (rays.map fun r =>
      let u := uvLine k phi l dop gamma r.vel x.1 true
      Rates.Accum.gij (⟨0, 0, u.uji, u.vji, u.vij, 0, 0,
        wlamuLine x.1 x.2 r.weight (wphi (profileEntry k phi l.lambda0 dop gamma grid rays))⟩ : Rates.Accum ℝ)).sum).sum =
      l.aji := by
  rw [← (C55_rates k phi l dop gamma grid rays hpos hI).1]
  unfold summedRate
  congr 1
  refine List.map_congr_left fun x _ => ?_
  congr 1
  refine List.map_congr_left fun r _ => ?_
  simp [Rates.Accum.gij, Rates.Accum.iEff]

/-- C56 (continua, refuted): for every continuum between levels of successive stages, every cell and wavelength, the
recombination rate set for populations without radiation is `2 exp(hc / λ k T)` times the one the formal solution
uses with LTE populations: the factor `exp(-hc / λ k T)` and the `1/2` of the Saha equation are missing. -/
theorem C56_continua_refuted (gi gj dE T ne lambda bin sigma nStarI nStarJ : ℝ)
    (hs : nStarI / nStarJ = gi / gj * Real.exp (dE / (T * k.kB)) * (ne / 2 * (k.dbc / T) ^ (3 / 2 : ℝ))) :
    zeroRadCont k gi gj dE T ne lambda bin sigma =
      2 * Real.exp (k.hck / (lambda * T)) * formalRecombination k nStarI nStarJ T lambda bin sigma := by
  unfold zeroRadCont formalRecombination uvContOf Rates.Accum.gij Rates.Accum.iEff
  rw [hs]
  simp only
  have he : Real.exp (k.hck / (lambda * T)) * Real.exp (-k.hck / (lambda * T)) = 1 := by
    rw [← Real.exp_add, neg_div, add_neg_cancel, Real.exp_zero]
  rw [mul_comm T k.kB]
  generalize Real.exp (k.hck / (lambda * T)) = E at *
  generalize Real.exp (-k.hck / (lambda * T)) = F at *
  generalize 1 / (k.hc / (k.fourPi * lambda)) * bin = W
  generalize lambda ^ 3 * lambda ^ 2 * (1 / 1000000000000000000) = Q
  generalize Real.exp (dE / (k.kB * T)) = X
  generalize (k.dbc / T) ^ (3 / 2 : ℝ) = Y
  simp only [mul_zero, sub_zero, one_mul, add_zero, div_eq_mul_inv]
  calc _ = (E * F) * (ne * (gi * gj⁻¹ * Y * X) * k.twohc2 * Q⁻¹ * sigma * W) := by rw [he]; ring
    _ = _ := by ring

/-- C56 (continua, size of the error): in a physical cell the rate is more than twice what it should be. -/
theorem C56_too_large (gi gj dE T ne lambda bin sigma nStarI nStarJ : ℝ)
    (hs : nStarI / nStarJ = gi / gj * Real.exp (dE / (T * k.kB)) * (ne / 2 * (k.dbc / T) ^ (3 / 2 : ℝ)))
    (hT : 0 < T) (hl : 0 < lambda) (hk : 0 < k.hck) (hpos : 0 < formalRecombination k nStarI nStarJ T lambda bin sigma) :
    2 * formalRecombination k nStarI nStarJ T lambda bin sigma < zeroRadCont k gi gj dE T ne lambda bin sigma := by
  rw [C56_continua_refuted k gi gj dE T ne lambda bin sigma nStarI nStarJ hs]
  have h1 : 1 < Real.exp (k.hck / (lambda * T)) := Real.one_lt_exp_iff.mpr (by positivity)
  nlinarith

/-- The hypothesis holds for LTE populations of an atom with two stages (`C27_saha_boltzmann_partial`). -/
theorem C56_hypothesis_from_lte {kB dbc fmin T ne ntot : ℝ} {lv : Fin 2 → Lte.Level}
    (h : LteInput kB dbc fmin lv T ne ntot) (h0 : (lv 1).stage = (lv 0).stage + 1)
    (hc : fmin < Lte.ltePops kB dbc fmin lv T ne ntot 1) :
    Lte.ltePops kB dbc fmin lv T ne ntot 0 / Lte.ltePops kB dbc fmin lv T ne ntot 1 =
      (lv 0).g / (lv 1).g * Real.exp (((lv 1).energy - (lv 0).energy) / (T * kB)) * (ne / 2 * (dbc / T) ^ (3 / 2 : ℝ)) := by
  have hz : ∀ i, (lv 0).stage ≤ (lv i).stage := by
    intro i; fin_cases i <;> simp <;> omega
  have hc' : ∀ i, i ≠ 0 → fmin < Lte.ltePops kB dbc fmin lv T ne ntot i := by
    intro i hi; fin_cases i
    · exact absurd rfl hi
    · exact hc
  rw [(C27_saha_boltzmann_partial h hz hc').1 0 1, h0, show (lv 0).stage + 1 - (lv 0).stage = 1 by omega, zpow_one]
  congr 3
  ring

end DexRT
