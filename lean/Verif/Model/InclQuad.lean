import Mathlib.Data.Rat.Defs
/-!
Model of the inclination quadrature tables (source/Config.hpp:84-107), read as exact decimals.
Simplification: the rounding of the decimals to `fp_t` is not modelled.
-/
namespace DexRT

/-- source/Config.hpp:84 `INCL_RAYS_4`. -/
def inclRays4 : List ℚ :=
  [0,
   21234053823915322 / 100000000000000000,
   5905331355592653 / 10000000000000000,
   9114120404872961 / 10000000000000000]

/-- source/Config.hpp:85 `INCL_WEIGHTS_4`. -/
def inclWeights4 : List ℚ :=
  [625 / 10000,
   32884431998005864 / 100000000000000000,
   38819346884317174 / 100000000000000000,
   22046221117676768 / 100000000000000000]

/-- source/Config.hpp:86 `INCL_RAYS_8`. -/
def inclRays8 : List ℚ :=
  [0,
   562625605369218 / 10000000000000000,
   1802406917368919 / 10000000000000000,
   3526247171131696 / 10000000000000000,
   5471536263305554 / 10000000000000000,
   7342101772154105 / 10000000000000000,
   8853209468390957 / 10000000000000000,
   9775206135612882 / 10000000000000000]

/-- source/Config.hpp:87 `INCL_WEIGHTS_8`. -/
def inclWeights8 : List ℚ :=
  [15625 / 1000000,
   9267907740149031 / 100000000000000000,
   15206531032339413 / 100000000000000000,
   1882587726945594 / 10000000000000000,
   19578608372624642 / 100000000000000000,
   173507397817251 / 1000000000000000,
   1248239506649343 / 10000000000000000,
   5725440737209736 / 100000000000000000]

/-- source/Config.hpp:88 `INCL_RAYS_16`. -/
def inclRays16 : List ℚ :=
  [0,
   1426945473682606 / 100000000000000000,
   47299590094167676 / 1000000000000000000,
   9771329932062206 / 100000000000000000,
   16356903939438944 / 100000000000000000,
   24233526096865737 / 100000000000000000,
   3309848049700401 / 10000000000000000,
   42611083909331415 / 100000000000000000,
   5240576915367652 / 10000000000000000,
   6210613113530221 / 10000000000000000,
   7133939137424725 / 10000000000000000,
   7975072449498961 / 10000000000000000,
   8701689744464087 / 10000000000000000,
   9285870468848408 / 10000000000000000,
   9705177013520576 / 10000000000000000,
   9943593110274891 / 10000000000000000]

/-- source/Config.hpp:89 `INCL_WEIGHTS_16`. -/
def inclWeights16 : List ℚ :=
  [390625 / 100000000,
   2385111347384263 / 100000000000000000,
   41992640722481094 / 1000000000000000000,
   5851017655192987 / 100000000000000000,
   7277777261010238 / 100000000000000000,
   8424819892496091 / 100000000000000000,
   9248089074433263 / 100000000000000000,
   9715954485578383 / 100000000000000000,
   9810439411951585 / 100000000000000000,
   952791471276767 / 10000000000000000,
   8879239637637339 / 100000000000000000,
   7889346090209981 / 100000000000000000,
   6596284996653853 / 100000000000000000,
   504978398108993 / 10000000000000000,
   330947543050648 / 10000000000000000,
   14448569508336421 / 1000000000000000000]

/-- source/Config.hpp:92-107: the table used for `NUM_INCL` inclinations: (cosines, weights). -/
def inclTable (n : Nat) : List (ℚ × ℚ) :=
  if n = 4 then inclRays4.zip inclWeights4
  else if n = 8 then inclRays8.zip inclWeights8
  else if n = 16 then inclRays16.zip inclWeights16
  else []

end DexRT
