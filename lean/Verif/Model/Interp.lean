import Verif.Model.Basic
import Mathlib.Algebra.Order.Field.Basic
/-!
Model of table lookup, source/Utils.hpp:91-139. Exact arithmetic; `none` as sample position is NaN.
-/
namespace DexRT
variable {K : Type} [Field K] [LinearOrder K]

/-- Checked array read `x(i)`: out of bounds is UB. -/
def readAt {α : Type} (xs : List α) (i : Nat) : Outcome α :=
  match xs[i]? with
  | some v => .ok v
  | none => .ub

/-- `value < x` with a possibly-NaN `value`. -/
def nanLt (value : Option K) (x : K) : Bool :=
  match value with
  | some v => decide (v < x)
  | none => false

/-- source/Utils.hpp:98-112: the loop of `upper_bound`; `first` is `first - &x(0)`. -/
def upperBoundLoop (xs : List K) (value : Option K) (first count : Nat) : Outcome Nat :=
  if h : count = 0 then .ok first
  else
    let step := count / 2
    match readAt xs (first + step) with
    | .ok x =>
      if !nanLt value x then upperBoundLoop xs value (first + step + 1) (count - (step + 1))
      else upperBoundLoop xs value first step
    | .throws => .throws
    | .ub => .ub
termination_by count
decreasing_by all_goals omega

/-- `upper_bound`, source/Utils.hpp:91-114 (`&x(0)` is only an address). -/
def upperBound (xs : List K) (value : Option K) : Outcome Nat := upperBoundLoop xs value 0 xs.length

/-- `interp`, source/Utils.hpp:119-139. -/
def interp (alpha : Option K) (x y : List K) : Outcome K := do
  let x0 ← readAt x 0
  if (match alpha with | some a => decide (a ≤ x0) | none => false) then readAt y 0
  else do
    let xl ← readAt x (x.length - 1)
    if (match alpha with | some a => decide (a ≥ xl) | none => false) then readAt y (y.length - 1)
    else do
      let idxp ← upperBound x alpha
      let xp ← readAt x idxp
      let xm ← readAt x (idxp - 1)
      let ym ← readAt y (idxp - 1)
      let yp ← readAt y idxp
      match alpha with
      | some a =>
        let t := (xp - a) / (xp - xm)
        .ok (t * ym + (1 - t) * yp)
      | none => .ub

end DexRT
