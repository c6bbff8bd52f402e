import Mathlib.Data.Real.Basic
import Mathlib.Data.Fin.VecNotation
/-!
Model of the quadratures of the long-characteristics mode: source/UserConfig3d.hpp:84-114. Generated from the source text.
The tables are literals with eight digits; the rounding to `fp_t` is not modelled. Directions are in units of 1e-8, weights
in units of 1e-10.
-/
namespace DexRT.LcQuad

/-- One entry of `LC_QUAD_X`, `LC_QUAD_Y`, `LC_QUAD_Z`, `LC_WEIGHT`: source/UserConfig3d.hpp:89-92. -/
structure Node where
  x : ℤ
  y : ℤ
  z : ℤ
  w : ℤ
deriving DecidableEq, Repr

/-- `LC_SET == 0`: source/UserConfig3d.hpp:87-92. -/
def set0 : List Node := [
  ⟨57735026, 57735026, 57735029, 1250000000⟩,
  ⟨-57735026, 57735026, 57735029, 1250000000⟩,
  ⟨57735026, -57735026, 57735029, 1250000000⟩,
  ⟨-57735026, -57735026, 57735029, 1250000000⟩,
  ⟨57735026, 57735026, -57735029, 1250000000⟩,
  ⟨-57735026, 57735026, -57735029, 1250000000⟩,
  ⟨57735026, -57735026, -57735029, 1250000000⟩,
  ⟨-57735026, -57735026, -57735029, 1250000000⟩]

/-- `LC_SET == 1`: source/UserConfig3d.hpp:93-99. -/
def set1 : List Node := [
  ⟨88191710, 33333333, 33333335, 416666670⟩,
  ⟨33333333, 88191710, 33333335, 416666670⟩,
  ⟨33333333, 33333333, 88191711, 416666670⟩,
  ⟨-88191710, 33333333, 33333335, 416666670⟩,
  ⟨-33333333, 88191710, 33333335, 416666670⟩,
  ⟨-33333333, 33333333, 88191711, 416666670⟩,
  ⟨88191710, -33333333, 33333335, 416666670⟩,
  ⟨33333333, -88191710, 33333335, 416666670⟩,
  ⟨33333333, -33333333, 88191711, 416666670⟩,
  ⟨-88191710, -33333333, 33333335, 416666670⟩,
  ⟨-33333333, -88191710, 33333335, 416666670⟩,
  ⟨-33333333, -33333333, 88191711, 416666670⟩,
  ⟨88191710, 33333333, -33333335, 416666670⟩,
  ⟨33333333, 88191710, -33333335, 416666670⟩,
  ⟨33333333, 33333333, -88191711, 416666670⟩,
  ⟨-88191710, 33333333, -33333335, 416666670⟩,
  ⟨-33333333, 88191710, -33333335, 416666670⟩,
  ⟨-33333333, 33333333, -88191711, 416666670⟩,
  ⟨88191710, -33333333, -33333335, 416666670⟩,
  ⟨33333333, -88191710, -33333335, 416666670⟩,
  ⟨33333333, -33333333, -88191711, 416666670⟩,
  ⟨-88191710, -33333333, -33333335, 416666670⟩,
  ⟨-33333333, -88191710, -33333335, 416666670⟩,
  ⟨-33333333, -33333333, -88191711, 416666670⟩]

/-- `LC_SET == 2`: source/UserConfig3d.hpp:100-106. -/
def set2 : List Node := [
  ⟨93094934, 25819889, 25819888, 229166660⟩,
  ⟨68313005, 68313005, 25819890, 187500000⟩,
  ⟨25819889, 93094934, 25819888, 229166660⟩,
  ⟨68313005, 25819889, 68313005, 187500000⟩,
  ⟨25819889, 68313005, 68313005, 187500000⟩,
  ⟨25819889, 25819889, 93094934, 229166660⟩,
  ⟨-93094934, 25819889, 25819888, 229166660⟩,
  ⟨-68313005, 68313005, 25819890, 187500000⟩,
  ⟨-25819889, 93094934, 25819888, 229166660⟩,
  ⟨-68313005, 25819889, 68313005, 187500000⟩,
  ⟨-25819889, 68313005, 68313005, 187500000⟩,
  ⟨-25819889, 25819889, 93094934, 229166660⟩,
  ⟨93094934, -25819889, 25819888, 229166660⟩,
  ⟨68313005, -68313005, 25819890, 187500000⟩,
  ⟨25819889, -93094934, 25819888, 229166660⟩,
  ⟨68313005, -25819889, 68313005, 187500000⟩,
  ⟨25819889, -68313005, 68313005, 187500000⟩,
  ⟨25819889, -25819889, 93094934, 229166660⟩,
  ⟨-93094934, -25819889, 25819888, 229166660⟩,
  ⟨-68313005, -68313005, 25819890, 187500000⟩,
  ⟨-25819889, -93094934, 25819888, 229166660⟩,
  ⟨-68313005, -25819889, 68313005, 187500000⟩,
  ⟨-25819889, -68313005, 68313005, 187500000⟩,
  ⟨-25819889, -25819889, 93094934, 229166660⟩,
  ⟨93094934, 25819889, -25819888, 229166660⟩,
  ⟨68313005, 68313005, -25819890, 187500000⟩,
  ⟨25819889, 93094934, -25819888, 229166660⟩,
  ⟨68313005, 25819889, -68313005, 187500000⟩,
  ⟨25819889, 68313005, -68313005, 187500000⟩,
  ⟨25819889, 25819889, -93094934, 229166660⟩,
  ⟨-93094934, 25819889, -25819888, 229166660⟩,
  ⟨-68313005, 68313005, -25819890, 187500000⟩,
  ⟨-25819889, 93094934, -25819888, 229166660⟩,
  ⟨-68313005, 25819889, -68313005, 187500000⟩,
  ⟨-25819889, 68313005, -68313005, 187500000⟩,
  ⟨-25819889, 25819889, -93094934, 229166660⟩,
  ⟨93094934, -25819889, -25819888, 229166660⟩,
  ⟨68313005, -68313005, -25819890, 187500000⟩,
  ⟨25819889, -93094934, -25819888, 229166660⟩,
  ⟨68313005, -25819889, -68313005, 187500000⟩,
  ⟨25819889, -68313005, -68313005, 187500000⟩,
  ⟨25819889, -25819889, -93094934, 229166660⟩,
  ⟨-93094934, -25819889, -25819888, 229166660⟩,
  ⟨-68313005, -68313005, -25819890, 187500000⟩,
  ⟨-25819889, -93094934, -25819888, 229166660⟩,
  ⟨-68313005, -25819889, -68313005, 187500000⟩,
  ⟨-25819889, -68313005, -68313005, 187500000⟩,
  ⟨-25819889, -25819889, -93094934, 229166660⟩]

/-- `LC_SET == 3`: source/UserConfig3d.hpp:107-113. -/
def set3 : List Node := [
  ⟨95118973, 21821789, 21821790, 158726720⟩,
  ⟨78679579, 57735027, 21821790, 114229410⟩,
  ⟨57735027, 78679579, 21821790, 114229410⟩,
  ⟨21821789, 95118973, 21821790, 158726720⟩,
  ⟨78679579, 21821789, 57735027, 114229410⟩,
  ⟨57735027, 57735027, 57735027, 88443362⟩,
  ⟨21821789, 78679579, 57735027, 114229410⟩,
  ⟨57735027, 21821789, 78679579, 114229410⟩,
  ⟨21821789, 57735027, 78679579, 114229410⟩,
  ⟨21821789, 21821789, 95118973, 158726720⟩,
  ⟨-95118973, 21821789, 21821790, 158726720⟩,
  ⟨-78679579, 57735027, 21821790, 114229410⟩,
  ⟨-57735027, 78679579, 21821790, 114229410⟩,
  ⟨-21821789, 95118973, 21821790, 158726720⟩,
  ⟨-78679579, 21821789, 57735027, 114229410⟩,
  ⟨-57735027, 57735027, 57735027, 88443362⟩,
  ⟨-21821789, 78679579, 57735027, 114229410⟩,
  ⟨-57735027, 21821789, 78679579, 114229410⟩,
  ⟨-21821789, 57735027, 78679579, 114229410⟩,
  ⟨-21821789, 21821789, 95118973, 158726720⟩,
  ⟨95118973, -21821789, 21821790, 158726720⟩,
  ⟨78679579, -57735027, 21821790, 114229410⟩,
  ⟨57735027, -78679579, 21821790, 114229410⟩,
  ⟨21821789, -95118973, 21821790, 158726720⟩,
  ⟨78679579, -21821789, 57735027, 114229410⟩,
  ⟨57735027, -57735027, 57735027, 88443362⟩,
  ⟨21821789, -78679579, 57735027, 114229410⟩,
  ⟨57735027, -21821789, 78679579, 114229410⟩,
  ⟨21821789, -57735027, 78679579, 114229410⟩,
  ⟨21821789, -21821789, 95118973, 158726720⟩,
  ⟨-95118973, -21821789, 21821790, 158726720⟩,
  ⟨-78679579, -57735027, 21821790, 114229410⟩,
  ⟨-57735027, -78679579, 21821790, 114229410⟩,
  ⟨-21821789, -95118973, 21821790, 158726720⟩,
  ⟨-78679579, -21821789, 57735027, 114229410⟩,
  ⟨-57735027, -57735027, 57735027, 88443362⟩,
  ⟨-21821789, -78679579, 57735027, 114229410⟩,
  ⟨-57735027, -21821789, 78679579, 114229410⟩,
  ⟨-21821789, -57735027, 78679579, 114229410⟩,
  ⟨-21821789, -21821789, 95118973, 158726720⟩,
  ⟨95118973, 21821789, -21821790, 158726720⟩,
  ⟨78679579, 57735027, -21821790, 114229410⟩,
  ⟨57735027, 78679579, -21821790, 114229410⟩,
  ⟨21821789, 95118973, -21821790, 158726720⟩,
  ⟨78679579, 21821789, -57735027, 114229410⟩,
  ⟨57735027, 57735027, -57735027, 88443362⟩,
  ⟨21821789, 78679579, -57735027, 114229410⟩,
  ⟨57735027, 21821789, -78679579, 114229410⟩,
  ⟨21821789, 57735027, -78679579, 114229410⟩,
  ⟨21821789, 21821789, -95118973, 158726720⟩,
  ⟨-95118973, 21821789, -21821790, 158726720⟩,
  ⟨-78679579, 57735027, -21821790, 114229410⟩,
  ⟨-57735027, 78679579, -21821790, 114229410⟩,
  ⟨-21821789, 95118973, -21821790, 158726720⟩,
  ⟨-78679579, 21821789, -57735027, 114229410⟩,
  ⟨-57735027, 57735027, -57735027, 88443362⟩,
  ⟨-21821789, 78679579, -57735027, 114229410⟩,
  ⟨-57735027, 21821789, -78679579, 114229410⟩,
  ⟨-21821789, 57735027, -78679579, 114229410⟩,
  ⟨-21821789, 21821789, -95118973, 158726720⟩,
  ⟨95118973, -21821789, -21821790, 158726720⟩,
  ⟨78679579, -57735027, -21821790, 114229410⟩,
  ⟨57735027, -78679579, -21821790, 114229410⟩,
  ⟨21821789, -95118973, -21821790, 158726720⟩,
  ⟨78679579, -21821789, -57735027, 114229410⟩,
  ⟨57735027, -57735027, -57735027, 88443362⟩,
  ⟨21821789, -78679579, -57735027, 114229410⟩,
  ⟨57735027, -21821789, -78679579, 114229410⟩,
  ⟨21821789, -57735027, -78679579, 114229410⟩,
  ⟨21821789, -21821789, -95118973, 158726720⟩,
  ⟨-95118973, -21821789, -21821790, 158726720⟩,
  ⟨-78679579, -57735027, -21821790, 114229410⟩,
  ⟨-57735027, -78679579, -21821790, 114229410⟩,
  ⟨-21821789, -95118973, -21821790, 158726720⟩,
  ⟨-78679579, -21821789, -57735027, 114229410⟩,
  ⟨-57735027, -57735027, -57735027, 88443362⟩,
  ⟨-21821789, -78679579, -57735027, 114229410⟩,
  ⟨-57735027, -21821789, -78679579, 114229410⟩,
  ⟨-21821789, -57735027, -78679579, 114229410⟩,
  ⟨-21821789, -21821789, -95118973, 158726720⟩]

/-- `LC_SET`: source/UserConfig3d.hpp:84-113. -/
def table : Fin 4 → List Node := ![set0, set1, set2, set3]

/-- `NUM_LC_QUAD`: source/UserConfig3d.hpp:88, 95, 102, 109. -/
def num : Fin 4 → Nat := ![8, 24, 48, 80]

/-- The components of a direction, in units of 1e-8: source/StaticFormalSolution3d.cpp:292-295. -/
def Node.c (n : Node) : Fin 3 → ℤ := ![n.x, n.y, n.z]

/-- The direction marched in subset `t`: source/StaticFormalSolution3d.cpp:244-246, 292-295. -/
noncomputable def dir (q : Fin 4) (t : Nat) : Fin 3 → ℝ := fun i => (((table q).getD t ⟨0, 0, 0, 0⟩).c i : ℝ) / 10 ^ 8

/-- The weight of subset `t`: source/StaticFormalSolution3d.cpp:325. -/
noncomputable def weight (q : Fin 4) (t : Nat) : ℝ := (((table q).getD t ⟨0, 0, 0, 0⟩).w : ℝ) / 10 ^ 10

end DexRT.LcQuad
