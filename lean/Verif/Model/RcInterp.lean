import Verif.Model.Rc
import Mathlib.Data.Rat.Defs
/-!
Model of ray intervals, probe interpolation and cascade buffers: source/RcUtilsModes.hpp,
source/RcUtilsModes3d.hpp, source/CascadeState.{hpp,cpp}, source/CascadeState3d.cpp.
Lengths and weights (`fp_t`) are exact rationals: all constants involved are rationals.
-/
namespace DexRT

/-- Configuration of the ray lengths: `PROBE0_LENGTH`, `LAST_CASCADE_TO_INFTY`, `LAST_CASCADE_MAX_DIST`
(source/UserConfig2d.hpp). -/
structure LenCfg where
  len0 : ℚ
  toInfty : Bool
  maxDist : ℚ

/-- source/RcUtilsModes.hpp:471-486 `cascade_interval_length`: (from, to). `num` is the index of the last
cascade. -/
def intervalLength (c : RcCfg) (l : LenCfg) (num n : Nat) : ℚ × ℚ :=
  let nearExp := if n > 0 then numFlatRaysExponent c (n - 1) else 0
  let farExp := numFlatRaysExponent c n
  let frm := l.len0 * (if n = 0 then 0 else 2 ^ nearExp)
  let far := l.len0 * 2 ^ farExp
  (frm, if l.toInfty ∧ n = num then l.maxDist else far)

/-- 3D ray-length configuration: `C0_LENGTH_3D`, the spatial scale factor
(`SPATIAL_SCALE_FACTOR_3D` if `USE_SCALE_FACTOR_3D`, else `2^SPATIAL_SCALE_EXP_3D`),
`LAST_CASCADE_TO_INFTY_3D`, `LAST_CASCADE_MAX_DIST` (the 2D constant) and `LAST_CASCADE_MAX_DIST_3D`
(source/UserConfig3d.hpp:20-52). -/
structure LenCfg3 where
  len0 : ℚ
  scale : Nat
  toInfty : Bool
  maxDist2 : ℚ
  maxDist3 : ℚ

/-- source/RcUtilsModes3d.hpp:448-466 `cascade_interval_length_3d`; note line 463 uses the 2D constant
`LAST_CASCADE_MAX_DIST`. -/
def intervalLength3 (l : LenCfg3) (num n : Nat) : ℚ × ℚ :=
  let frm := l.len0 * (if n = 0 then 0 else (l.scale : ℚ) ^ (n - 1))
  let far := l.len0 * (l.scale : ℚ) ^ n
  (frm, if l.toInfty ∧ n = num then l.maxDist2 else far)

/-- source/RcUtilsModes.hpp:248-266 `bilinear_corner`, one axis: (corner, frac). The 3D
`trilinear_corner` (source/RcUtilsModes3d.hpp:216-230) does the same on each axis (`& 1` for `% 2`). -/
def cornerAxis (p : Int) : Int × ℚ :=
  (max ((p - 1).tdiv 2) 0, if p = 0 then 1 else 1 / 4 + 1 / 2 * (p.tmod 2 : Int))

/-- source/RcUtilsModes.hpp:268-275 `bilinear_weights`, sample `k`; any `k > 2` is sample 3. -/
def bilinearWeight (fu fv : ℚ) (k : Nat) : ℚ :=
  match k with
  | 0 => fu * fv
  | 1 => (1 - fu) * fv
  | 2 => fu * (1 - fv)
  | _ => (1 - fu) * (1 - fv)

/-- source/RcUtilsModes.hpp:285-326 `bilinear_offset`: offset of sample `k` from the corner. -/
def bilinearOffset (cu cv nu nv : Int) (k : Nat) : Int × Int :=
  let uClamp : Bool := cu == nu - 1
  let vClamp : Bool := cv == nv - 1
  match k with
  | 0 => (0, 0)
  | 1 => if uClamp then (0, 0) else (1, 0)
  | 2 => if vClamp then (0, 0) else (0, 1)
  | _ => if uClamp && vClamp then (0, 0) else if uClamp then (0, 1) else if vClamp then (1, 0) else (1, 1)

/-- The `k`-th upper probe and weight used when probe `(u, v)` is merged with an upper cascade of
`nu x nv` probes: source/RadianceCascades.hpp:64-80. -/
def bilinearSample (u v nu nv : Int) (k : Nat) : (Int × Int) × ℚ :=
  let cu := cornerAxis u
  let cv := cornerAxis v
  let off := bilinearOffset cu.1 cv.1 nu nv k
  ((cu.1 + off.1, cv.1 + off.2), bilinearWeight cu.2 cv.2 k)

/-- source/RcUtilsModes3d.hpp:232-244 `trilinear_weights`, sample `k`. -/
def trilinearWeight (fu fv fw : ℚ) (k : Nat) : ℚ :=
  match k with
  | 0 => fu * fv * fw
  | 1 => (1 - fu) * fv * fw
  | 2 => fu * (1 - fv) * fw
  | 3 => fu * fv * (1 - fw)
  | 4 => (1 - fu) * (1 - fv) * fw
  | 5 => (1 - fu) * fv * (1 - fw)
  | 6 => fu * (1 - fv) * (1 - fw)
  | _ => (1 - fu) * (1 - fv) * (1 - fw)

/-- source/RcUtilsModes3d.hpp:246-300 `trilinear_coord`: clamped coordinate of sample `k`. -/
def trilinearCoord (cu cv cw nu nv nw : Int) (k : Nat) : Int × Int × Int :=
  let c := match k with
    | 0 => (cu, cv, cw)
    | 1 => (cu + 1, cv, cw)
    | 2 => (cu, cv + 1, cw)
    | 3 => (cu, cv, cw + 1)
    | 4 => (cu + 1, cv + 1, cw)
    | 5 => (cu + 1, cv, cw + 1)
    | 6 => (cu, cv + 1, cw + 1)
    | _ => (cu + 1, cv + 1, cw + 1)
  (min c.1 (nu - 1), min c.2.1 (nv - 1), min c.2.2 (nw - 1))

/-- The `k`-th upper probe and weight of a 3D merge: source/DynamicFormalSolution3d.cpp:487-491. -/
def trilinearSample (u v w nu nv nw : Int) (k : Nat) : (Int × Int × Int) × ℚ :=
  let cu := cornerAxis u
  let cv := cornerAxis v
  let cw := cornerAxis w
  (trilinearCoord cu.1 cv.1 cw.1 nu nv nw k, trilinearWeight cu.2 cv.2 cw.2 k)

/-- source/RcUtilsModes.hpp:235-241 (and source/RcUtilsModes3d.hpp:202-209) `probe_pos`, one axis, with
`PROBE0_SPACING = 1` (source/Config.hpp:37). -/
def probePos (p : Int) (n : Nat) : ℚ := ((p : ℚ) + 1 / 2) * 2 ^ n

/-! ### Cascade buffers -/

/-- source/CascadeState.hpp:21-46 `cascade_indices`: (i, ip); `pp` is the compile-time flag tested there,
`PINGPONG_BUFFERS` (for 3D states too). -/
def cascadeIndices (pp : Bool) (num n : Nat) : Nat × Option Nat :=
  let (i, ip) := if pp then (if n % 2 = 1 then (1, 0) else (0, 1)) else (n, n + 1)
  (i, if n = num then none else some ip)

/-- source/CascadeState.cpp:16-52 (2D) and source/CascadeState3d.cpp:16-43 (3D): sizes of the allocated
buffers; `pp` is `PINGPONG_BUFFERS` in 2D and `PINGPONG_BUFFERS_3D` in 3D, `entries i` is
`cascade_entries(cascade_size(c0, i))`. -/
def bufferSizes (pp : Bool) (entries : Nat → Nat) (num : Nat) : List Nat :=
  if pp then
    let m := (List.range (num + 1)).foldl (fun acc i => max acc (entries i)) 0
    [m, m]
  else (List.range (num + 1)).map entries

/-- State of the cascade buffers while a pass runs: for each buffer, the cascade whose data it holds. -/
abbrev BufState := List (Option Nat)

/-- One call of `cascade_i_25d` (source/RadianceCascades.hpp:630-637) or `compute_cascade_i_3d`
(source/DynamicFormalSolution3d.cpp:658-665) for cascade `n`: `ub` if a buffer index is outside the list
of buffers or cascade `n` (or the upper cascade read, `n+1`) does not fit its buffer; otherwise reports
what the upper buffer held and leaves cascade `n` in its buffer. -/
def cascadeStep (ppIdx : Bool) (sizes : List Nat) (entries : Nat → Nat) (num n : Nat) (b : BufState) :
    Outcome (BufState × Option (Option Nat)) :=
  let (i, ip) := cascadeIndices ppIdx num n
  match sizes[i]? with
  | none => .ub
  | some si =>
    if si < entries n then .ub
    else match ip with
      | none => .ok (b.set i (some n), none)
      | some j => match sizes[j]? with
        | none => .ub
        | some sj => if sj < entries (n + 1) then .ub else .ok (b.set i (some n), some (b[j]?.join))

/-- The loop over cascades of one pass, last to first: source/DynamicFormalSolution.cpp (loop over
`casc_idx` in `dynamic_formal_sol_rc`), source/StaticFormalSolution3d.cpp:371. Returns the final buffers
and, for each merged cascade, what its upper buffer held. -/
def cascadePass (ppIdx : Bool) (sizes : List Nat) (entries : Nat → Nat) (num : Nat) :
    Nat → BufState → Outcome (BufState × List (Nat × Option Nat))
  | 0, b => .ok (b, [])
  | k + 1, b => do
    let (b', read) ← cascadeStep ppIdx sizes entries num k b
    let (b'', reads) ← cascadePass ppIdx sizes entries num k b'
    match read with
    | none => .ok (b'', reads)
    | some r => .ok (b'', (k, r) :: reads)

/-- source/DexrtConfig.hpp:234-252: cascades accepted for output; `pp` is `PINGPONG_BUFFERS` in 2D and
`PINGPONG_BUFFERS_3D` in 3D. -/
def outputAccepted (pp : Bool) (num casc : Nat) : Bool :=
  decide (casc ≤ num) && !(pp && decide (casc > 1))

end DexRT
