import Verif.Model.Interp
import Mathlib.Analysis.SpecialFunctions.Pow.Real
import Mathlib.Analysis.SpecialFunctions.Log.Base
import Mathlib.Analysis.SpecialFunctions.Sqrt
/-!
Model of LTE populations (`lte_pops`, source/Populations.hpp:878-921), of the hydrogen partition function (`HPartFn`,
source/LteHPops.hpp:43-81) and of collisional rates (source/Collisions.hpp). Exact real arithmetic.
-/
namespace DexRT
namespace Lte
open Finset

/-- Level of an atom: `energy` [eV], `g`, `stage`, source/Types.hpp (`CompAtom`). -/
structure Level where
  energy : ℝ
  g : ℝ
  stage : ℤ

/-- `saha_term`, source/Populations.hpp:897; `dbc` is `debroglie_const` (line 892). -/
noncomputable def sahaTerm (dbc temperature ne : ℝ) : ℝ := 1 / 2 * ne * (dbc / temperature) ^ (3 / 2 : ℝ)

/-- source/Populations.hpp:907-909: `for (int _ = 1; _ <= dZ; ++_) pop_i /= saha_term`; no pass for `dZ ≤ 0`. -/
noncomputable def divLoop (saha x : ℝ) (dZ : ℤ) : ℝ := (List.range dZ.toNat).foldl (fun p _ => p / saha) x

/-- source/Populations.hpp:900-911: population of level `i` relative to level 0. -/
noncomputable def relPop {n : Nat} (lv : Fin (n + 1) → Level) (kbT saha : ℝ) (i : Fin (n + 1)) : ℝ :=
  divLoop saha ((lv i).g / (lv 0).g * Real.exp (-(((lv i).energy - (lv 0).energy) / kbT))) ((lv i).stage - (lv 0).stage)

/-- `pop_0`, source/Populations.hpp:898, 910, 913. -/
noncomputable def pop0 {n : Nat} (lv : Fin (n + 1) → Level) (kbT saha ntot : ℝ) : ℝ :=
  ntot / (1 + ∑ i : Fin n, relPop lv kbT saha i.succ)

/-- `lte_pops`, source/Populations.hpp:878-921, for one cell and an atom with `n + 1` levels; `kB` is `k_B_eV`, `fmin`
is `std::numeric_limits<FPT>::min()`. Simplification: `stage` is an integer (it is stored as a float and the difference
converted to `int`). -/
noncomputable def ltePops {n : Nat} (kB dbc fmin : ℝ) (lv : Fin (n + 1) → Level) (temperature ne ntot : ℝ)
    (i : Fin (n + 1)) : ℝ :=
  let kbT := temperature * kB
  let saha := sahaTerm dbc temperature ne
  if i = 0 then pop0 lv kbT saha ntot else max (relPop lv kbT saha i * pop0 lv kbT saha ntot) fmin

/-- `log_T_data`, source/LteHPops.hpp:40, in units of 1e-6. -/
def logTData : List ℕ := [3000000, 3133333, 3266667, 3400000, 3533333, 3666667, 3800000, 3933333, 4066667, 4200000,
  4333333, 4466667, 4600000, 4733333, 4866667, 5000000, 5133333, 5266667, 5400000, 5533333, 5666667, 5800000, 5933333,
  6066667, 6200000, 6333333, 6466667, 6600000, 6733333, 6866667, 7000000]

/-- `h_partfn_data`, source/LteHPops.hpp:41, in units of 1e-6. -/
def partFnData : List ℕ := [2000000, 2000000, 2000000, 2000000, 2000000, 2000000, 2000000, 2000012, 2000628, 2013445,
  2136720, 2776522, 4825934, 9357075, 16919680, 27137000, 38924520, 51016490, 62386070, 72409220, 80834570, 87672370,
  93079850, 97275380, 100485100, 102915500, 104741700, 106106200, 107121700, 107875000, 108432700]

/-- The tables as numbers. -/
noncomputable def scaled (l : List ℕ) : List ℝ := l.map fun (k : ℕ) => (k : ℝ) / 1000000

/-- `HPartFn::operator()`, source/LteHPops.hpp:66-80: neutral and ionised hydrogen. -/
noncomputable def hPart (sahaConst ionE temperature ne nhTot : ℝ) : Outcome (ℝ × ℝ) := do
  let u ← interp (some (Real.logb 10 temperature)) (scaled logTData) (scaled partFnData)
  let ratio := 2 * 1 / (ne * u) * (sahaConst * temperature) ^ (3 / 2 : ℝ) * Real.exp (-ionE / temperature)
  let result := nhTot / (1 + ratio)
  .ok (result, ratio * result)

/-- `CollRateType`, source/Types.hpp. -/
inductive CollType
  | Omega | CI | CE | CP | CH | ChargeExcH | ChargeExcP
  deriving DecidableEq

/-- `CompColl` with its own temperature and rate table, source/Types.hpp. -/
structure Coll (n : Nat) where
  type : CollType
  i : Fin n
  j : Fin n
  temps : List ℝ
  rates : List ℝ

/-- What the rates read of a cell. -/
structure Cell where
  temperature : ℝ
  ne : ℝ
  nhTot : ℝ
  nh0 : ℝ

/-- Physical constants used by the rates. -/
structure Consts where
  kB : ℝ
  seaton : ℝ
  sahaConst : ℝ
  ionE : ℝ

/-- `store_collision_rates`, source/Collisions.hpp:28-43. -/
def store {n : Nat} (i j : Fin n) (C : Fin n → Fin n → ℝ) (cup cdown : ℝ) : Fin n → Fin n → ℝ := fun a b =>
  C a b + (if a = i ∧ b = j then cdown else 0) + (if a = j ∧ b = i then cup else 0)

/-- `(Cup, Cdown)` of one collisional transition: `collision_omega`, `_ci`, `_ce`, `_cp`, `_ch`, `_charge_exc_h`,
`_charge_exc_p`, source/Collisions.hpp:45-175, with `interp_rates` (8-26). -/
noncomputable def collRates {n : Nat} (k : Consts) (lv : Fin n → Level) (c : Cell) (nStar : Fin n → ℝ) (coll : Coll n) :
    Outcome (ℝ × ℝ) := do
  let rate ← interp (some c.temperature) coll.temps coll.rates
  match coll.type with
  | .Omega =>
    let cdown := k.seaton * c.ne * rate / ((lv coll.j).g * Real.sqrt c.temperature)
    .ok (cdown * nStar coll.j / nStar coll.i, cdown)
  | .CI =>
    let dE := (lv coll.j).energy - (lv coll.i).energy
    let cup := (rate * c.ne) * (Real.exp (-dE / (k.kB * c.temperature)) * Real.sqrt c.temperature)
    .ok (cup, cup * nStar coll.i / nStar coll.j)
  | .CE =>
    let gij := (lv coll.i).g / (lv coll.j).g
    let cdown := (rate * c.ne) * gij * Real.sqrt c.temperature
    .ok (cdown * nStar coll.j / nStar coll.i, cdown)
  | .CP => do
    let h ← hPart k.sahaConst k.ionE c.temperature c.ne c.nhTot
    let cdown := rate * h.2
    .ok (cdown * nStar coll.j / nStar coll.i, cdown)
  | .CH =>
    let cup := rate * c.nh0
    .ok (cup, cup * nStar coll.i / nStar coll.j)
  | .ChargeExcH => .ok (0, rate * c.nh0)
  | .ChargeExcP => do
    let h ← hPart k.sahaConst k.ionE c.temperature c.ne c.nhTot
    .ok (rate * h.2, 0)

/-- `compute_collisions`, source/Collisions.hpp:177-214: adds the rates of all transitions of the atom to `C`. -/
noncomputable def computeCollisions {n : Nat} (k : Consts) (lv : Fin n → Level) (c : Cell) (nStar : Fin n → ℝ)
    (colls : List (Coll n)) (C : Fin n → Fin n → ℝ) : Outcome (Fin n → Fin n → ℝ) :=
  match colls with
  | [] => .ok C
  | coll :: rest => do
    let r ← collRates k lv c nStar coll
    computeCollisions k lv c nStar rest (store coll.i coll.j C r.1 r.2)

/-- `compute_C_ne_pert`, source/Collisions.hpp:219-258: `C`, `C_ne_pert`, and the cell and LTE populations it leaves
behind. `ab` is the abundance. -/
noncomputable def computeCNePert {n : Nat} (k : Consts) (dbc fmin ab pertSize : ℝ) (lv : Fin (n + 1) → Level) (c : Cell)
    (nStar : Fin (n + 1) → ℝ) (colls : List (Coll (n + 1))) (C Cpert : Fin (n + 1) → Fin (n + 1) → ℝ) :
    Outcome ((Fin (n + 1) → Fin (n + 1) → ℝ) × (Fin (n + 1) → Fin (n + 1) → ℝ) × Cell × (Fin (n + 1) → ℝ)) := do
  let C' ← computeCollisions k lv c nStar colls C
  let nePrev := c.ne
  let nePert := nePrev * pertSize
  let c1 := { c with ne := c.ne + nePert }
  let nStar1 := ltePops k.kB dbc fmin lv c1.temperature c1.ne (ab * c1.nhTot)
  let Cpert' ← computeCollisions k lv c1 nStar1 colls Cpert
  let c2 := { c1 with ne := nePrev }
  let nStar2 := ltePops k.kB dbc fmin lv c2.temperature c2.ne (ab * c2.nhTot)
  .ok (C', Cpert', c2, nStar2)

end Lte
end DexRT
