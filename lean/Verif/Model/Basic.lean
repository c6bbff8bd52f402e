/-!
Basic types shared by all models: coordinates, outcomes and checked machine arithmetic.
-/
namespace DexRT

/-- `Coord2` / `Coord<2>` : source/Types.hpp:65-73 (two `i32`s, default -1).
Simplification: components are unbounded `Int`; i32 range is a hypothesis where it matters. -/
structure Coord2 where
  x : Int := -1
  z : Int := -1
deriving DecidableEq, Repr, Inhabited

/-- `Coord3` / `Coord<3>` : source/Types.hpp:75-84 (three `i32`s, default -1). -/
structure Coord3 where
  x : Int := -1
  y : Int := -1
  z : Int := -1
deriving DecidableEq, Repr, Inhabited

/-- Result of a C++ call: a value, a thrown `std::runtime_error`, or undefined behaviour
(out-of-bounds access, signed overflow). -/
inductive Outcome (α : Type u) where
  | ok (a : α)
  | throws
  | ub
deriving DecidableEq, Repr

namespace Outcome
/-- Sequencing: the first throw or UB wins. -/
def bind {α β} : Outcome α → (α → Outcome β) → Outcome β
  | ok a, f => f a
  | throws, _ => throws
  | ub, _ => ub
instance : Monad Outcome where
  pure := ok
  bind := bind

@[simp] theorem pure_eq {α} (a : α) : (pure a : Outcome α) = ok a := rfl
@[simp] theorem ok_bind {α β} (a : α) (f : α → Outcome β) : (ok a >>= f) = f a := rfl
@[simp] theorem throws_bind {α β} (f : α → Outcome β) : (throws >>= f) = throws := rfl
@[simp] theorem ub_bind {α β} (f : α → Outcome β) : ((ub : Outcome α) >>= f) = ub := rfl
end Outcome

/-- Largest `i32`: `std::numeric_limits<i32>::max()`. -/
def i32Max : Int := 2147483647

/-- Is `v` representable as `i32`? -/
def fitsI32 (v : Int) : Bool := decide (-2147483648 ≤ v ∧ v ≤ 2147483647)

/-- Signed 32-bit multiplication; overflow is UB in C++. -/
def mulI32 (a b : Int) : Outcome Int := if fitsI32 (a * b) then .ok (a * b) else .ub

/-- `u32(i32)` as an integer value in [0, 2^32). -/
def u32 (v : Int) : Int := v % 4294967296

end DexRT
