import Verif.Model.StatEq
/-!
Model of charge and pressure conservation for one cell: `nr_post_update_impl`, source/ChargeConservation.cpp:447-962
(default, team version) and `simple_conserve_pressure`, source/PressureConservation.hpp:9-104. Exact arithmetic; division
by zero (NaN or infinity) is `none`.
-/
namespace DexRT
namespace Nr
open Finset Lin StatEq
variable {K : Type} [Field K] [LinearOrder K] {n : Nat}

/-- What the update reads in one cell: `GammaH` (before the diagonal fixup), `C` and `dC/dne` with their diagonals
(source/ChargeConservation.cpp:516-566), bound-free transitions of hydrogen `(i, j)` (line 734), ion stage
of each level (1 for neutral), populations of the `n` hydrogen levels, electron density, total hydrogen density,
`pressure / (k_B * temperature)`, abundance of hydrogen. -/
structure Cell (K : Type) (n : Nat) where
  Gamma : Fin n → Fin n → K
  C : Fin n → Fin n → K
  dC : Fin n → Fin n → K
  continua : List (Fin n × Fin n)
  stage : Fin n → K
  pops : Fin n → K
  ne : K
  nh : K
  pOverKT : K
  abundance : K

/-- The `F(i)` of source/ChargeConservation.cpp:671-707; `ta` is `total_abund`. -/
def residual (consPressure : Bool) (ta : K) (c : Cell K n) (i : Fin (n + 1)) : K :=
  if h : i.val + 1 < n then ∑ j, fixup c.Gamma ⟨i.val, by omega⟩ j * c.pops j
  else if i.val + 1 = n then
    if consPressure then c.pOverKT - (∑ j, ta * c.pops j) - c.ne
    else c.abundance * c.nh - ∑ j, c.pops j
  else (∑ j, (c.stage j - 1) * c.pops j) - c.ne

/-- Derivative of the rate equations with respect to the electron density, source/ChargeConservation.cpp:724-743
(accumulated atomically, so in any order). -/
def neColumn (c : Cell K n) (i : Fin n) : K :=
  ((c.continua.filter fun t => t.1 = i).map fun t =>
      -((fixup c.Gamma t.1 t.2 - c.C t.1 t.2) / c.ne) * c.pops t.2).sum
    + ∑ j, -(c.dC i j) * c.pops j

/-- The matrix `dF` after the conservation equations are put in, source/ChargeConservation.cpp:709-776. -/
def jacobian (consPressure : Bool) (ta : K) (c : Cell K n) (i j : Fin (n + 1)) : K :=
  if i.val + 1 = n then
    if j.val < n then (if consPressure then ta else 1) else (if consPressure then 1 else 0)
  else if h : i.val < n then
    if hj : j.val < n then -(fixup c.Gamma ⟨i.val, h⟩ ⟨j.val, hj⟩) else neColumn c ⟨i.val, h⟩
  else
    if hj : j.val < n then -(c.stage ⟨j.val, hj⟩ - 1) else 1

/-- source/ChargeConservation.cpp:804-870: the Newton step; refinement only updates the first `num_level`
entries (lines 851-860). -/
def newtonStep (consPressure : Bool) (ta : K) (c : Cell K n) : Option (Fin (n + 1) → K) :=
  solveRefined (jacobian consPressure ta c) (residual consPressure ta c) (fun i => decide (i.val < n)) 2

/-- source/ChargeConservation.cpp:893-898, 910-914: step size when the full step would make the quantity
negative. `neSeen` is the value of `ne(ks)` read. `none`: division by a zero `ne_update`. -/
def clampedUpdate (old update neSeen neUpdate : K) : Option K :=
  if old + update < 0 then
    if neUpdate = 0 then none
    else some (update * max ((95 / 100) * neSeen / |neUpdate|) (1 / 10000))
  else some update

/-- source/ChargeConservation.cpp:883-926: populations and electron density after the (clamped) step. The iterations of
this loop run in any order and the one for the electron density overwrites `ne(ks)`, which the others read if they clamp:
`neSeen i` is what level `i` reads. -/
def applyStep (c : Cell K n) (d : Fin (n + 1) → K) (neSeen : Fin n → K) : Option (Cell K n) :=
  let ps : Fin n → Option K := fun i => clampedUpdate (c.pops i) (d i.castSucc) (neSeen i) (d (Fin.last n))
  match clampedUpdate c.ne (d (Fin.last n)) c.ne (d (Fin.last n)) with
  | none => none
  | some dne =>
    if (∀ i, (ps i).isSome) then
      some { c with pops := fun i => c.pops i + (ps i).getD 0, ne := c.ne + dne }
    else none

/-- source/ChargeConservation.cpp:930-949 "Update and rescale pops (pressure)" for the hydrogen levels: `pops` and
`full_pops` are the same array. -/
def rescale (c : Cell K n) : Cell K n :=
  let popsSum := ∑ i, c.pops i
  let ratio := popsSum / c.nh
  { c with nh := popsSum, pops := fun i => c.pops i * ratio }

/-- The populations of other species in the same loop (lines 944-946). -/
def rescaleOther (c : Cell K n) (p : K) : K := p * ((∑ i, c.pops i) / c.nh)

/-- source/ChargeConservation.cpp:447-962 for one cell. -/
def nrCell (consPressure : Bool) (ta : K) (c : Cell K n) (neSeen : Fin n → K) : Option (Cell K n) :=
  (newtonStep consPressure ta c).bind fun d =>
    (applyStep c d neSeen).map fun c' => if consPressure then rescale c' else c'

end Nr

namespace Pressure
variable {K : Type} [Field K] [LinearOrder K]

/-- One cell as seen by `simple_conserve_pressure`. `protons` is the population of the last hydrogen level;
`other` any other population. -/
structure Cell (K : Type) where
  ne : K
  nh : K
  pOverKT : K
  protons : K
  other : K

/-- `total_abund`, source/PressureConservation.hpp:26. -/
def totalAbund : K := 10861550335264554 / 10000000000000000

/-- source/PressureConservation.hpp:38-41: `N_corr`. -/
def correction (c : Cell K) : K :=
  (c.pOverKT - (totalAbund * c.nh + c.ne)) / (totalAbund + c.protons / c.nh)

/-- source/PressureConservation.hpp:42-49: new total hydrogen density, clamped. -/
def newNh (c : Cell K) : K := if c.nh + correction c < 0 then 10000000000 else c.nh + correction c

/-- source/PressureConservation.hpp:50-91: the updates of one cell. -/
def update (c : Cell K) : Cell K :=
  let ratio := newNh c / c.nh
  { ne := c.ne + correction c * c.protons / c.nh,
    nh := c.nh * ratio,
    pOverKT := c.pOverKT,
    protons := c.protons * ratio,
    other := c.other * ratio }

/-- source/PressureConservation.hpp:51: the relative change reported. -/
def relChange (c : Cell K) : K := |1 - newNh c / c.nh|

end Pressure
end DexRT
