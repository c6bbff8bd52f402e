import Verif.Model.Basic
import Mathlib.Analysis.SpecialFunctions.Trigonometric.Basic
import Mathlib.Algebra.Order.Floor.Ring
/-!
Model of source/Voigt.hpp. Exact arithmetic; decimal constants are taken as the rationals they denote.
-/
namespace DexRT
namespace Voigt

/-- `DexComplex`, source/Voigt.hpp:16-37. -/
structure Cx (K : Type) where
  re : K
  im : K
deriving DecidableEq

section Arith
variable {K : Type} [Field K] [LinearOrder K]

/-- `operator*(complex, complex)`, source/Voigt.hpp:40-45. -/
def Cx.mul (x y : Cx K) : Cx K := ⟨x.re * y.re - x.im * y.im, x.re * y.im + x.im * y.re⟩

/-- `operator*(complex, real)` and `operator*(real, complex)`, source/Voigt.hpp:46-59. -/
def Cx.smul (y : K) (x : Cx K) : Cx K := ⟨y * x.re, y * x.im⟩

/-- `operator/(complex, complex)`, source/Voigt.hpp:64-86. -/
def Cx.div (x y : Cx K) : Cx K :=
  let s := |y.re| + |y.im|
  let oos := 1 / s
  let ars := x.re * oos
  let ais := x.im * oos
  let brs := y.re * oos
  let bis := y.im * oos
  let s := brs * brs + bis * bis
  let oos := 1 / s
  ⟨(ars * brs + ais * bis) * oos, (ais * brs - ars * bis) * oos⟩

/-- `operator/(real, complex)`, source/Voigt.hpp:87-90. -/
def Cx.rdiv (x : K) (y : Cx K) : Cx K := Cx.div ⟨x, 0⟩ y

/-- `operator+(complex, complex)`, source/Voigt.hpp:91-97. -/
def Cx.add (x y : Cx K) : Cx K := ⟨x.re + y.re, x.im + y.im⟩

/-- `operator+(real, complex)`, source/Voigt.hpp:98-104; `operator+(complex, real)`, 105-111, adds in the other order. -/
def Cx.radd (x : K) (y : Cx K) : Cx K := ⟨x + y.re, y.im⟩

/-- `operator-(complex, complex)`, source/Voigt.hpp:112-118. -/
def Cx.sub (x y : Cx K) : Cx K := ⟨x.re - y.re, x.im - y.im⟩

/-- `operator-(real, complex)`, source/Voigt.hpp:119-125. -/
def Cx.rsub (x : K) (y : Cx K) : Cx K := ⟨x - y.re, -y.im⟩

/-- The constant standing for one over the square root of pi, source/Voigt.hpp:152, 216, 247, 251. -/
def invSqrtPi : ℚ := 5641896 / 10000000

/-- Region I of all three versions, source/Voigt.hpp:150-152, 213-216, 244-247. -/
def regionI (a v : K) : Cx K :=
  let z : Cx K := ⟨a, -v⟩
  Cx.div (Cx.smul (invSqrtPi : K) z) (Cx.radd (1 / 2) (Cx.mul z z))

/-- `l`, source/Voigt.hpp:226. -/
def weiL : ℚ := 41195342878142354 / 10000000000000000

/-- `ac`, source/Voigt.hpp:227-240. -/
def weiCoef : List ℚ :=
  [-15137461654527820 / 10 ^ 26, 49048215867870488 / 10 ^ 25, 13310461806370372 / 10 ^ 25, -30082822811202271 / 10 ^ 24,
   -19122258522976932 / 10 ^ 24, 18738343486619108 / 10 ^ 23, 25682641346701115 / 10 ^ 23, -10856475790698251 / 10 ^ 22,
   -30388931839840047 / 10 ^ 22, 41394617248575527 / 10 ^ 22, 30471066083243790 / 10 ^ 21, 24331415462641969 / 10 ^ 21,
   -20748431511424456 / 10 ^ 20, -78166429956142650 / 10 ^ 20, -49364269012806686 / 10 ^ 20, 62150063629501763 / 10 ^ 19,
   33723366855316413 / 10 ^ 18, 10838723484566792 / 10 ^ 17, 26549639598807689 / 10 ^ 17, 53611395357291292 / 10 ^ 17,
   92570871385886788 / 10 ^ 17, 13948196733791203 / 10 ^ 16, 18562864992055408 / 10 ^ 16, 21978589365315417 / 10 ^ 16]

/-- The nested polynomial `ac[23]+(ac[22]+(...(ac[1]+ac[0]*t)*t...)*t)*t`, source/Voigt.hpp:252-253: from the inside out. -/
def horner (t : Cx K) : List K → Cx K
  | [] => ⟨0, 0⟩
  | c :: cs => cs.foldl (fun p c => Cx.radd c (Cx.mul p t)) ⟨c, 0⟩

/-- `humlicek_wei24_voigt`, source/Voigt.hpp:223-257. -/
def wei24 (a v : K) : Cx K :=
  let s := |v| + a
  if s ≥ 15 then regionI a v
  else
    let recLmZ := Cx.rdiv 1 ⟨(weiL : K) + a, -v⟩
    let t := Cx.mul ⟨(weiL : K) - a, v⟩ recLmZ
    Cx.mul recLmZ (Cx.radd (invSqrtPi : K) (Cx.mul (Cx.smul 2 recLmZ) (horner t (weiCoef.map (fun q : ℚ => (q : K))))))

/-- `VoigtProfile::operator()` without table, real result, source/Voigt.hpp:396-403: the one used everywhere. -/
def profile (a v : K) : K := (wei24 a |v|).re

end Arith

/-- `cexp`, source/Voigt.hpp:131-137. -/
noncomputable def cexp (x : Cx ℝ) : Cx ℝ := Cx.smul (Real.exp x.re) ⟨Real.cos x.im, Real.sin x.im⟩

/-- `humlicek_voigt`, source/Voigt.hpp:139-172. Used to fill the table. -/
noncomputable def humlicek (a v : ℝ) : Cx ℝ :=
  let z : Cx ℝ := ⟨a, -v⟩
  let s := |v| + a
  if s ≥ 15 then regionI a v
  else if s ≥ 5.5 then
    let u := Cx.mul z z
    Cx.div (Cx.mul z (Cx.radd 1.410474 (Cx.smul 0.5641896 u))) (Cx.radd 0.75 (Cx.mul u (Cx.radd 3 u)))
  else if a ≥ 0.195 * |v| - 0.176 then
    Cx.div
      (Cx.radd 16.4955 (Cx.mul z (Cx.radd 20.20933 (Cx.mul z (Cx.radd 11.96482 (Cx.mul z (Cx.radd 3.778987 (Cx.smul 0.5642236 z))))))))
      (Cx.radd 16.4955 (Cx.mul z (Cx.radd 38.82363 (Cx.mul z (Cx.radd 39.27121 (Cx.mul z (Cx.radd 21.69274
        (Cx.mul z (Cx.radd 6.699398 z)))))))))
  else
    let u := Cx.mul z z
    Cx.sub (cexp u) (Cx.div
      (Cx.mul z (Cx.rsub 36183.31 (Cx.mul u (Cx.rsub 3321.99 (Cx.mul u (Cx.rsub 1540.787 (Cx.mul u (Cx.rsub 219.031
        (Cx.mul u (Cx.rsub 35.7668 (Cx.mul u (Cx.rsub 1.320522 (Cx.smul 0.5641896 u)))))))))))))
      (Cx.rsub 32066.6 (Cx.mul u (Cx.rsub 24322.84 (Cx.mul u (Cx.rsub 9022.228 (Cx.mul u (Cx.rsub 2186.181 (Cx.mul u
        (Cx.rsub 364.2191 (Cx.mul u (Cx.rsub 61.57037 (Cx.mul u (Cx.rsub 1.841439 u))))))))))))))

section Table
variable {K : Type} [Field K] [LinearOrder K] [FloorRing K]

/-- `Linspace`, source/Voigt.hpp:262-267. -/
structure Lin (K : Type) where
  min : K
  max : K
  n : Nat

/-- `a_step`, `v_step`, source/Voigt.hpp:309-310. -/
def Lin.step (l : Lin K) : K := (l.max - l.min) / ((l.n : K) - 1)

/-- `int(std::floor(x))`: UB if the value does not fit an `int`. -/
def floorInt (x : K) : Outcome Int :=
  if -2147483648 ≤ ⌊x⌋ ∧ ⌊x⌋ ≤ 2147483647 then .ok ⌊x⌋ else .ub

/-- Index, next index, weight and next weight along one axis, source/Voigt.hpp:354-371 (for a) and 373-388 (for v). -/
def axis (l : Lin K) (x : K) : Outcome (Int × Int × K × K) := do
  let frac := (x - l.min) / l.step
  let i ← floorInt frac
  if frac < 0 ∨ frac ≥ (l.n : K) - 1 then
    let i := min (max i 0) ((l.n : Int) - 1)
    .ok (i, i, 1, 0)
  else .ok (i, i + 1, 1 - (frac - (i : K)), frac - (i : K))

/-- `samples(i, j)`, checked; `S` the table of extents `n`, `m`. -/
def sampleAt (n m : Nat) (S : Nat → Nat → K) (i j : Int) : Outcome K :=
  if 0 ≤ i ∧ i < n ∧ 0 ≤ j ∧ j < m then .ok (S i.toNat j.toNat) else .ub

/-- `VoigtProfile::operator()` with table, real result, source/Voigt.hpp:347-396. -/
def lut (al vl : Lin K) (S : Nat → Nat → K) (a v : K) : Outcome K := do
  let v := |v|
  let (ia, iap, ta, tap) ← axis al a
  let (iv, ivp, tv, tvp) ← axis vl v
  let s00 ← sampleAt al.n vl.n S ia iv
  let s01 ← sampleAt al.n vl.n S ia ivp
  let s10 ← sampleAt al.n vl.n S iap iv
  let s11 ← sampleAt al.n vl.n S iap ivp
  .ok (ta * (tv * s00 + tvp * s01) + tap * (tv * s10 + tvp * s11))

end Table
end Voigt
end DexRT
