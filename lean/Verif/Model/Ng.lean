import Verif.Model.Basic
import Mathlib.Algebra.Order.Field.Basic
import Mathlib.Algebra.BigOperators.Group.List.Basic
/-!
Model of the extrapolation of `NgAccelerator::accelerate`, source/NgAcceleration.cpp:34-104 (when it fires is in
`Model/IterLoop.lean`). Exact arithmetic over a field; a division by zero (which the code turns into NaN or
infinity in every cell of the level) is the outcome `none`.
-/
namespace DexRT
namespace Ng

/-- The five stored iterates of one level in one cell, `pops(l, 0..4, ks)`, source/NgAcceleration.hpp:18. -/
structure Cell (K : Type) where
  x0 : K
  x1 : K
  x2 : K
  x3 : K
  x4 : K

section
variable {K : Type} [Field K]

/-- source/NgAcceleration.cpp:56. -/
def Cell.d0 (c : Cell K) : K := c.x4 - c.x3
/-- source/NgAcceleration.cpp:57. -/
def Cell.d1 (c : Cell K) : K := c.d0 - (c.x3 - c.x2)
/-- source/NgAcceleration.cpp:58. -/
def Cell.d2 (c : Cell K) : K := c.d0 - (c.x2 - c.x1)
/-- source/NgAcceleration.cpp:59. -/
def Cell.d3 (c : Cell K) : K := c.d0 - (c.x1 - c.x0)
/-- source/NgAcceleration.cpp:55. -/
def Cell.weight (c : Cell K) : K := 1 / (c.x4 * c.x4)

/-- The upper triangle of `aa(l, :, :)` and `bb(l, :)`, source/NgAcceleration.cpp:39-40. -/
structure Sys (K : Type) where
  a00 : K
  a01 : K
  a02 : K
  a11 : K
  a12 : K
  a22 : K
  b0 : K
  b1 : K
  b2 : K

/-- One pass of the loop over cells, source/NgAcceleration.cpp:54-70. -/
def accumulate (s : Sys K) (c : Cell K) : Sys K :=
  { a00 := s.a00 + c.weight * c.d1 * c.d1,
    a01 := s.a01 + c.weight * c.d1 * c.d2,
    a02 := s.a02 + c.weight * c.d1 * c.d3,
    a11 := s.a11 + c.weight * c.d2 * c.d2,
    a12 := s.a12 + c.weight * c.d2 * c.d3,
    a22 := s.a22 + c.weight * c.d3 * c.d3,
    b0 := s.b0 + c.weight * c.d0 * c.d1,
    b1 := s.b1 + c.weight * c.d0 * c.d2,
    b2 := s.b2 + c.weight * c.d0 * c.d3 }

/-- source/NgAcceleration.cpp:42-76: the system of one level. -/
def system (cells : List (Cell K)) : Sys K :=
  cells.foldl accumulate
    { a00 := 0, a01 := 0, a02 := 0, a11 := 0, a12 := 0, a22 := 0, b0 := 0, b1 := 0, b2 := 0 }

variable [DecidableEq K]

/-- source/NgAcceleration.cpp:79-90: LU factorisation without pivoting (`KokkosBatched::SerialLU`, unit lower
triangle), forward and backward substitution (`SerialSolveLU`), on the symmetric matrix of lines 72-74.
Simplification: the library routines are written out for 3×3; a zero pivot is `none`. -/
def solveLU (s : Sys K) : Option (K × K × K) :=
  let u00 := s.a00
  let u01 := s.a01
  let u02 := s.a02
  if u00 = 0 then none else
  let l10 := s.a01 / u00
  let l20 := s.a02 / u00
  let u11 := s.a11 - l10 * u01
  let u12 := s.a12 - l10 * u02
  if u11 = 0 then none else
  let l21 := (s.a12 - l20 * u01) / u11
  let u22 := (s.a22 - l20 * u02) - l21 * u12
  if u22 = 0 then none else
  let y0 := s.b0
  let y1 := s.b1 - l10 * y0
  let y2 := s.b2 - l20 * y0 - l21 * y1
  let x2 := y2 / u22
  let x1 := (y1 - u12 * x2) / u11
  let x0 := (y0 - u01 * x1 - u02 * x2) / u00
  some (x0, x1, x2)

/-- source/NgAcceleration.cpp:98-102: the new value of a cell. -/
def newVal (w : K × K × K) (c : Cell K) : K :=
  (1 - w.1 - w.2.1 - w.2.2) * c.x4 + w.1 * c.x3 + w.2.1 * c.x2 + w.2.2 * c.x1

/-- source/NgAcceleration.cpp:42-105 for one level: the extrapolated populations of all cells. `none`: a zero
population (infinite `weight`) or a zero pivot makes every cell of the level NaN or infinite. -/
def level (cells : List (Cell K)) : Option (List K) :=
  if cells.any (fun c => c.x4 == 0) then none else
  (solveLU (system cells)).map fun w => cells.map (newVal w)

/-- source/NgAcceleration.cpp:93-105 for all levels. -/
def extrapolate (levels : List (List (Cell K))) : List (Option (List K)) := levels.map level

end
end Ng
end DexRT
