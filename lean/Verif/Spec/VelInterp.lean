import Verif.Model.VelInterp
import Verif.Model.Dirs
/-!
Specification for the `VelocityInterp` line scheme: what a piecewise linear table means, which rays belong to a direction of
cascade 0, and the velocity a ray sees. Nothing here uses the search of the code.
-/
namespace DexRT.VelInterp
open DexRT DexRT.Dir

/-- `r` is the value at `vel` of the function that is linear between the points `(start + j * step, tab j)` and constant
outside them. -/
def Interpolates (start step : ℝ) (tab : List Pair) (vel : ℝ) (r : Pair) : Prop :=
  (vel ≤ start ∧ tab[0]? = some r) ∨
  (start + (tab.length - 1) * step ≤ vel ∧ tab[tab.length - 1]? = some r) ∨
  ∃ (j : ℕ) (t : ℝ) (a b : Pair), 0 ≤ t ∧ t ≤ 1 ∧ tab[j]? = some a ∧ tab[j + 1]? = some b ∧ vel = start + (j + t) * step ∧
    r = ⟨(1 - t) * a.eta + t * b.eta, (1 - t) * a.chi + t * b.chi⟩

/-- The projected velocity a ray of angle `phi` and inclination `mu` sees in a cell of velocity `v`: the light travels
against the direction of the ray. -/
noncomputable def seen (v : Fin 3 → ℝ) (phi mu : ℝ) : ℝ :=
  - (v 0 * (Real.cos phi * Real.sqrt (1 - mu ^ 2)) + v 1 * mu + v 2 * (Real.sin phi * Real.sqrt (1 - mu ^ 2)))

/-- Length of a velocity. -/
noncomputable def speed (v : Fin 3 → ℝ) : ℝ := Real.sqrt (v 0 ^ 2 + v 1 ^ 2 + v 2 ^ 2)

/-- `f` has slope at most `l` in both components. -/
def Slope (l : ℝ) (f : ℝ → Pair) : Prop :=
  ∀ x y, |(f x).eta - (f y).eta| ≤ l * |x - y| ∧ |(f x).chi - (f y).chi| ≤ l * |x - y|

/-- Both components lie between bounds. -/
def Within (lo hi : Pair) (p : Pair) : Prop := lo.eta ≤ p.eta ∧ p.eta ≤ hi.eta ∧ lo.chi ≤ p.chi ∧ p.chi ≤ hi.chi

end DexRT.VelInterp
