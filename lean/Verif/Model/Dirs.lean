import Verif.Model.RcInterp
import Verif.Model.Clip
import Verif.Model.Morton
import Mathlib.Analysis.SpecialFunctions.Trigonometric.Basic
/-!
Model of the directions and segments of the rays of the cascades: source/RcUtilsModes.hpp:488-530,
source/RcUtilsModes3d.hpp:468-585, source/RayMarching.hpp:440-444. Angles, positions and lengths (`fp_t`,
and the `f32` of the HEALPix code) are real numbers; `std::cos`, `std::sin`, `std::sqrt` are the real
functions.
-/
namespace DexRT.Dir

/-- source/RcUtilsModes.hpp:491: the angle of direction `k` of `nd`. -/
noncomputable def rayAngle (nd k : Nat) : ℝ := 2 * Real.pi / nd * (k + 1 / 2)

/-- source/RcUtilsModes.hpp:488-496 `ray_dir` (2D). Components x (0) and z (1). -/
noncomputable def rayDir2 (nd k : Nat) : Fin 2 → ℝ := ![Real.cos (rayAngle nd k), Real.sin (rayAngle nd k)]

/-- `RayProps`, source/Types.hpp:165-170. -/
structure RayProps where
  start : Fin 2 → ℝ
  stop : Fin 2 → ℝ
  dir : Fin 2 → ℝ
  centre : Fin 2 → ℝ

/-- source/RcUtilsModes.hpp:498-510 `ray_props` of direction `k` of probe `(u, v)` of cascade `n`; `num` is
the index of the last cascade and `nd` the number of directions of cascade `n`. -/
noncomputable def rayProps (c : RcCfg) (l : LenCfg) (num n nd : Nat) (u v : Int) (k : Nat) : RayProps :=
  let centre : Fin 2 → ℝ := ![(probePos u n : ℝ), (probePos v n : ℝ)]
  let dir := rayDir2 nd k
  let length := intervalLength c l num n
  { start := fun i => centre i + dir i * (length.1 : ℝ), stop := fun i => centre i + dir i * (length.2 : ℝ),
    dir := dir, centre := centre }

/-- source/RcUtilsModes.hpp:512-520 `invert_direction`. -/
def invertDirection (r : RayProps) : RayProps :=
  { start := r.stop, stop := r.start, dir := fun i => - r.dir i, centre := r.centre }

/-- source/RcUtilsModes.hpp:522-530 `inverted_mu`: x, y, z components. -/
noncomputable def invertedMu (r : RayProps) (incl : ℝ) : Fin 3 → ℝ :=
  let s := Real.sqrt (1 - incl ^ 2)
  ![- r.dir 0 * s, - incl, - r.dir 1 * s]

/-- source/RayMarching.hpp:440-444 `ray_seg_from_ray_props`: `none` when the division is by zero (the
result is then infinite or not a number). -/
noncomputable def raySegOfProps (r : RayProps) : Option (RaySeg 2) :=
  if r.dir 0 = 0 then none
  else some { o := r.start, d := r.dir, negZero := fun _ => false, t0 := 0, t1 := (r.stop 0 - r.start 0) / r.dir 0 }

/-- The segment marched for a ray in 2D: source/RadianceCascades.hpp:37 (`invert_direction`) followed by
source/RayMarching.hpp:462. -/
noncomputable def marchSeg2 (c : RcCfg) (l : LenCfg) (num n nd : Nat) (u v : Int) (k : Nat) : Option (RaySeg 2) :=
  raySegOfProps (invertDirection (rayProps c l num n nd u v k))

/-- source/RcUtilsModes3d.hpp:475-482 `ray_dir`, `TrapezoidalProduct`. -/
noncomputable def trapDir (naz npol ph th : Nat) : Fin 3 → ℝ :=
  let phi := 2 * Real.pi / naz * (ph + 1 / 2)
  let cosT : ℝ := 2 / npol * (th + 1 / 2) - 1
  let sinT := Real.sqrt (1 - cosT ^ 2)
  ![Real.cos phi * sinT, Real.sin phi * sinT, cosT]

/-- `std::copysign(a, b)` for real `b` (no negative zero). -/
noncomputable def copysign (a b : ℝ) : ℝ := if b < 0 then -|a| else |a|

/-- source/RcUtilsModes3d.hpp:483-503 `ray_dir`, `ClarbergOctahedral`. -/
noncomputable def clarbergDir (naz npol ph th : Nat) : Fin 3 → ℝ :=
  let u : ℝ := 2 / naz * (ph + 1 / 2) - 1
  let v : ℝ := 2 / npol * (th + 1 / 2) - 1
  let sd := 1 - (|u| + |v|)
  let r := 1 - |sd|
  let phi := (if r = 0 then 1 else (|v| - |u|) / r + 1) * (1 / 4) * Real.pi
  let z := copysign (1 - r ^ 2) sd
  let rr := r * Real.sqrt (max (2 - r ^ 2) 0)
  ![copysign (Real.cos phi) u * rr, copysign (Real.sin phi) v * rr, z]

/-- source/RcUtilsModes3d.hpp:506-508: `nside` of a HEALPix set of `npix` directions. -/
def healNside (npix : Nat) : Nat := Nat.sqrt (npix / 12)

/-- source/RcUtilsModes3d.hpp:510-515 (`nest2hpd`): face, px and py of direction `idx`. -/
def healPix (nside idx : Nat) : Nat × Nat × Nat :=
  let npface := nside * nside
  let p2 := idx &&& (npface - 1)
  (idx / npface, (compact1By1 (BitVec.ofNat 32 p2)).toNat, (compact1By1 (BitVec.ofNat 32 p2 >>> 1)).toNat)

/-- source/RcUtilsModes3d.hpp:524-545, the branch compiled in (`branchless`). -/
def jpll (face : Nat) : Nat :=
  let i := face &&& 7
  let ge4 := (i &&& 4) >>> 2
  ge4 * 2 * (i &&& 3) + (1 - ge4) * (2 * i + 1)

/-- source/RcUtilsModes3d.hpp:517-566 (`hpd2loc` and `loc2vec`): the direction of the point `(x, y)` of a
face. -/
noncomputable def healDir (face : Nat) (x y : ℝ) : Fin 3 → ℝ :=
  let r : ℝ := 1 - ((face / 4 : Nat) : ℝ)
  let h := r - 1 + (x + y)
  let m := 2 - r * h
  let m23 := m ^ 2 * (1 / 3)
  let z := if m < 1 then r * (1 - m23) else h * (2 / 3)
  let s := if m < 1 then Real.sqrt (m23 * (2 - m23)) else Real.sqrt ((1 + z) * (1 - z))
  let phi := if m < 1 then (1 / 4 * Real.pi) * (jpll face + (x - y) / m)
    else (1 / 4 * Real.pi) * (jpll face + (x - y))
  ![Real.cos (phi + 1 / 100) * s, Real.sin (phi + 1 / 100) * s, z]

/-- source/RcUtilsModes3d.hpp:517-518: centre of a pixel on its face. -/
noncomputable def pixPos (nside p : Nat) : ℝ := (p + 1 / 2) / nside

/-- source/RcUtilsModes3d.hpp:504-567 `ray_dir`, `Healpix` (the default), for direction `idx` of `npix`. -/
noncomputable def rayDir3 (npix idx : Nat) : Fin 3 → ℝ :=
  let nside := healNside npix
  let p := healPix nside idx
  healDir p.1 (pixPos nside p.2.1) (pixPos nside p.2.2)

/-- source/RcUtilsModes3d.hpp:573-585 `probe_ray` for direction `idx` of probe `(u, v, w)` of cascade `n`. -/
noncomputable def probeRay3 (l : LenCfg3) (num n npix : Nat) (u v w : Int) (idx : Nat) : RaySeg 3 :=
  let length := intervalLength3 l num n
  { o := ![(probePos u n : ℝ), (probePos v n : ℝ), (probePos w n : ℝ)], d := rayDir3 npix idx,
    negZero := fun _ => false, t0 := - (length.2 : ℝ), t1 := - (length.1 : ℝ) }

/-- source/RcUtilsModes.hpp:534-548 `probe_frac_dir_idx` of a direction whose `std::atan2` is `angle`. -/
noncomputable def fracDirIdx (nd : Nat) (angle : ℝ) : ℝ := angle / (2 * Real.pi) * nd - 1 / 2

end DexRT.Dir
