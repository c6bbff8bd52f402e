import Mathlib.Analysis.SpecialFunctions.Exp
/-!
Specification of radiative transfer along one line of sight: no reference to the code.
-/
namespace DexRT
namespace Ray

/-- A homogeneous slab: source function and optical thickness. -/
structure Slab where
  S : ℝ
  tau : ℝ

/-- Intensity leaving a stack of slabs, the first nearest to the observer, that is lit from behind with `I0`: each slab
attenuates what comes from behind it and adds its own light. -/
noncomputable def emergent : List Slab → ℝ → ℝ
  | [], I0 => I0
  | s :: behind, I0 => emergent behind I0 * Real.exp (-s.tau) + s.S * (1 - Real.exp (-s.tau))

/-- Optical thickness of a stack. -/
def thickness (l : List Slab) : ℝ := (l.map (·.tau)).sum

end Ray
end DexRT
