import Mathlib.Data.Real.Basic
import Mathlib.Data.Fin.VecNotation
/-!
Models of the two ray clippers: `clip_ray_to_box` (source/RayMarching.hpp:26-112) and
`RaySegment::intersects` / `clip` / `update_origin` (source/Types.hpp:186-290).
Arithmetic is exact on finite values; the infinities and NaN that a division by a zero direction component
produces, and the comparisons that involve them, follow IEEE 754.
-/
namespace DexRT
open Classical

/-- A floating point value: finite (exact real), an infinity or NaN. Simplification: no rounding, no overflow. -/
inductive Ext where
  | fin (x : ℝ)
  | pinf
  | ninf
  | nan

namespace Ext
/-- IEEE `<`: false whenever an operand is NaN. -/
def lt : Ext → Ext → Prop
  | fin a, fin b => a < b
  | fin _, pinf => True
  | ninf, fin _ => True
  | ninf, pinf => True
  | _, _ => False

/-- IEEE `<=`: false whenever an operand is NaN. -/
def le (a b : Ext) : Prop := lt a b ∨ (a = b ∧ a ≠ nan)

/-- `if (c > acc) acc = c` (source/RayMarching.hpp:54-56, 67-69; source/Types.hpp:249-251). -/
noncomputable def raise (acc c : Ext) : Ext := if lt acc c then c else acc

/-- `if (c < acc) acc = c` (source/Types.hpp:252-254). -/
noncomputable def lower (acc c : Ext) : Ext := if lt c acc then c else acc

/-- IEEE `+`. -/
noncomputable def add : Ext → Ext → Ext
  | fin a, fin b => fin (a + b)
  | nan, _ => nan
  | _, nan => nan
  | pinf, ninf => nan
  | ninf, pinf => nan
  | pinf, _ => pinf
  | _, pinf => pinf
  | ninf, _ => ninf
  | _, ninf => ninf

/-- IEEE product of a finite value and a value: `0 * inf` is NaN. -/
noncomputable def smul (x : ℝ) : Ext → Ext
  | fin y => fin (x * y)
  | pinf => if 0 < x then pinf else if x < 0 then ninf else nan
  | ninf => if 0 < x then ninf else if x < 0 then pinf else nan
  | nan => nan

/-- IEEE quotient of finite values; `negZero` is the sign of a zero divisor. -/
noncomputable def div (x y : ℝ) (negZero : Bool) : Ext :=
  if y = 0 then smul x (if negZero then ninf else pinf) else fin (x / y)
end Ext

/-- `RayStartEnd` and `Box`, source/RayMarching.hpp:15-22, in `n` dimensions. -/
structure RayStartEnd (n : ℕ) where
  start : Fin n → ℝ
  stop : Fin n → ℝ

/-- The box: per dimension lower and upper limit (source/RayMarching.hpp:20-22). -/
structure ClipBox (n : ℕ) where
  lo : Fin n → ℝ
  hi : Fin n → ℝ

/-- source/RayMarching.hpp:45-57: the new `clip_t_start` after one dimension. `length(d)` is computed as
`end - start`, whose zero is positive. -/
noncomputable def clipStart (lo hi s e : ℝ) (acc : Ext) : Ext :=
  let length := e - s
  if s < lo then acc.raise (Ext.div (lo - s) length false)
  else if hi < s then acc.raise (Ext.div (hi - s) length false)
  else acc

/-- source/RayMarching.hpp:59-71: the new `clip_t_end` after one dimension; the divisor is `-length(d)`, whose
zero is negative. -/
noncomputable def clipEnd (lo hi s e : ℝ) (acc : Ext) : Ext :=
  let length := e - s
  if e < lo then acc.raise (Ext.div (lo - e) (-length) true)
  else if hi < e then acc.raise (Ext.div (hi - e) (-length) true)
  else acc

/-- Result of a successful `clip_ray_to_box`. -/
structure ClipResult (n : ℕ) where
  ray : RayStartEnd n
  startClipped : Bool

/-- The finite value of a number that is finite (used after the test that rejects the others). -/
noncomputable def Ext.toReal : Ext → ℝ
  | .fin x => x
  | _ => 0

/-- `clip_ray_to_box`, source/RayMarching.hpp:34-112. -/
noncomputable def clipRayToBox {n : ℕ} (ray : RayStartEnd n) (box : ClipBox n) : Option (ClipResult n) :=
  let ts := (List.finRange n).foldl (fun a d => clipStart (box.lo d) (box.hi d) (ray.start d) (ray.stop d) a) (.fin 0)
  let te := (List.finRange n).foldl (fun a d => clipEnd (box.lo d) (box.hi d) (ray.start d) (ray.stop d) a) (.fin 0)
  if Ext.lt ts (.fin 0) ∨ Ext.lt te (.fin 0) ∨ Ext.le (.fin 1) (Ext.add ts te) then none
  else
    let length := fun d => ray.stop d - ray.start d
    some
      { ray :=
          { start := if Ext.lt (.fin 0) ts then fun d => ray.start d + ts.toReal * length d else ray.start,
            stop := if Ext.lt (.fin 0) te then fun d => ray.stop d - te.toReal * length d else ray.stop },
        startClipped := if Ext.lt (.fin 0) ts then true else false }

/-- `RaySegment`, source/Types.hpp:186-214. `negZero i` is the sign of `d(i)` when it is zero. -/
structure RaySeg (n : ℕ) where
  o : Fin n → ℝ
  d : Fin n → ℝ
  negZero : Fin n → Bool
  t0 : ℝ
  t1 : ℝ

/-- source/Types.hpp:210-212: `inv_d(i) = 1 / d(i)`. -/
noncomputable def RaySeg.invD {n : ℕ} (r : RaySeg n) (i : Fin n) : Ext := Ext.div 1 (r.d i) (r.negZero i)

/-- `RaySegment::operator()`, source/Types.hpp:216-222. -/
def RaySeg.pt {n : ℕ} (r : RaySeg n) (t : ℝ) (i : Fin n) : ℝ := r.o i + t * r.d i

/-- `GridBbox`, source/Types.hpp:170-177 (integer corners). -/
structure Bbox (n : ℕ) where
  min : Fin n → ℤ
  max : Fin n → ℤ

/-- The loop of `intersects`, source/Types.hpp:231-260: over the axes still to do, with the running `t0_` and
`t1_`. -/
noncomputable def intersectsLoop {n : ℕ} (r : RaySeg n) (bbox : Bbox n) (shrink : ℝ) :
    List (Fin n) → Ext → Ext → Bool × Ext × Ext
  | [], t0, t1 => (true, t0, t1)
  | ax :: rest, t0, t1 =>
    let a : ℝ := bbox.min ax + shrink
    let b : ℝ := bbox.max ax - shrink
    if b ≤ a then (false, t0, t1)
    else
      let a' := Ext.smul (a - r.o ax) (r.invD ax)
      let b' := Ext.smul (b - r.o ax) (r.invD ax)
      let lo := if Ext.lt b' a' then b' else a'
      let hi := if Ext.lt b' a' then a' else b'
      let t0' := t0.raise lo
      let t1' := t1.lower hi
      if Ext.lt t1' t0' then (false, t0', t1') else intersectsLoop r bbox shrink rest t0' t1'

/-- `RaySegment::intersects`, source/Types.hpp:227-266. -/
noncomputable def RaySeg.intersects {n : ℕ} (r : RaySeg n) (bbox : Bbox n) (shrink : ℝ) : Bool × Ext × Ext :=
  intersectsLoop r bbox shrink (List.finRange n) (.fin r.t0) (.fin r.t1)

/-- `RaySegment::clip`, source/Types.hpp:268-284: the clipped ray and `start_clipped`, or `none` for `false`. -/
noncomputable def RaySeg.clip {n : ℕ} (r : RaySeg n) (bbox : Bbox n) (shrink : ℝ) : Option (RaySeg n × Bool) :=
  match r.intersects bbox shrink with
  | (true, a, b) => some ({ r with t0 := a.toReal, t1 := b.toReal }, decide (Ext.lt (.fin r.t0) a))
  | (false, _, _) => none

/-- `RaySegment::update_origin`, source/Types.hpp:286-291. -/
noncomputable def RaySeg.updateOrigin {n : ℕ} (r : RaySeg n) (t : ℝ) : RaySeg n :=
  { r with o := r.pt t, t0 := r.t0 - t, t1 := r.t1 - t }

end DexRT
