import Verif.Model.Basic
import Mathlib.Analysis.SpecialFunctions.Exp
/-!
Model of the accumulation of intensity along a ray (source/RayMarching.hpp:437-602) and of merging intervals
(source/RayMarching.hpp:293-305, source/RadianceCascades.hpp:25-89). Real-number arithmetic.
-/
namespace DexRT
open Real

/-- `RadianceInterval`, source/Types.hpp:157-162; `psiStar` only meaningful when the ALO is computed. -/
structure Interval where
  I : ℝ
  tau : ℝ
  psiStar : ℝ

/-- `merge_intervals`, source/RayMarching.hpp:293-305; `storeTau` is `STORE_TAU_CASCADES`. -/
noncomputable def mergeIntervals (storeTau : Bool) (closer further : Interval) : Interval :=
  let transmission := exp (-closer.tau)
  { I := closer.I + transmission * further.I,
    tau := if storeTau then closer.tau + further.tau else closer.tau,
    psiStar := closer.psiStar }

/-- One step of the grid traversal as the march sees it: whether `can_sample()`, the emissivity and opacity
gathered for the cell (source/RayMarching.hpp:496-581, before the `1e-15` offset of the opacity) and the
length `dt` (in cells). -/
structure Step where
  sample : Bool
  eta : ℝ
  chi : ℝ
  dt : ℝ

/-- Local variables of the loop of `multi_level_dda_raymarch_2d`. -/
structure MarchVars where
  I : ℝ
  tau : ℝ
  chiS : ℝ
  oneMEdt : ℝ

/-- The opacity used: `+ FP(1e-15)` when it is read (source/RayMarching.hpp:513, 520, 556) and the
`EXTRA_SAFE_SOURCE_FN` correction (lines 583-585). -/
noncomputable def chiUsed (extraSafe : Bool) (chi : ℝ) : ℝ :=
  let c := chi + 1e-15
  if extraSafe then c + (if |c| < 1e-15 then 1 else 0) * 1e-15 else c

/-- source/RayMarching.hpp:491-596: one pass of the `do` loop. `scale` is `distance_scale`, `invSin` is
`inv_sin_theta`. -/
noncomputable def marchStep (extraSafe : Bool) (scale invSin : ℝ) (v : MarchVars) (s : Step) : MarchVars :=
  if s.sample then
    let chiS := chiUsed extraSafe s.chi
    let tau := chiS * s.dt * scale
    let sourceFn := s.eta / chiS
    let tauMu := tau * invSin
    let edt := exp (-tauMu)
    let oneMEdt := -(exp (-tauMu) - 1)
    { I := v.I * edt + sourceFn * oneMEdt, tau := v.tau + tauMu, chiS := chiS, oneMEdt := oneMEdt }
  else { v with oneMEdt := 0 }

/-- source/RayMarching.hpp:456-602: the march over all steps, starting from the boundary intensity `I0`
(0 unless the boundary is sampled, lines 463-479); far end first. -/
noncomputable def march (extraSafe : Bool) (scale invSin I0 : ℝ) (steps : List Step) : MarchVars :=
  steps.foldl (marchStep extraSafe scale invSin) { I := I0, tau := 0, chiS := 1e-20, oneMEdt := 0 }

/-- source/RayMarching.hpp:598-601: the returned interval. -/
noncomputable def marchInterval (extraSafe : Bool) (scale invSin I0 : ℝ) (steps : List Step) : Interval :=
  let v := march extraSafe scale invSin I0 steps
  { I := v.I, tau := v.tau, psiStar := max (v.oneMEdt / v.chiS) 0 }

/-- source/RadianceCascades.hpp:61-87: the interpolated upper interval: sum over (bilinear weight × ray
weight, upper intensity, upper tau); `upper_tau` only if stored. -/
noncomputable def interpUpper (storeTau : Bool) (terms : List (ℝ × ℝ × ℝ)) : Interval :=
  terms.foldl (fun (acc : Interval) (t : ℝ × ℝ × ℝ) =>
    { acc with I := acc.I + t.1 * t.2.1, tau := if storeTau then acc.tau + t.1 * t.2.2 else acc.tau })
    { I := 0, tau := 0, psiStar := 0 }

/-- source/MergeToJ.hpp:38-66: mean intensity of a cell: sum over rays of `phi_weight * wmuy * sample`. -/
noncomputable def meanIntensity (terms : List (ℝ × ℝ)) : ℝ :=
  terms.foldl (fun acc t => acc + t.1 * t.2) 0

/-- `INCL_WEIGHTS` for 4, 8 and 16 inclinations, source/Config.hpp:85, 87, 89, 92-105 (as exact decimals). -/
noncomputable def inclWeights : Nat → List ℝ
  | 4 => [0.0625, 0.32884431998005864, 0.38819346884317174, 0.22046221117676768]
  | 8 => [0.015625, 0.09267907740149031, 0.15206531032339413, 0.1882587726945594, 0.19578608372624642, 0.173507397817251, 0.1248239506649343, 0.05725440737209736]
  | 16 => [0.00390625, 0.02385111347384263, 0.041992640722481094, 0.05851017655192987, 0.07277777261010238, 0.08424819892496091, 0.09248089074433263, 0.09715954485578383, 0.09810439411951585, 0.0952791471276767, 0.08879239637637339, 0.07889346090209981, 0.06596284996653853, 0.0504978398108993, 0.0330947543050648, 0.014448569508336421]
  | _ => []

end DexRT
