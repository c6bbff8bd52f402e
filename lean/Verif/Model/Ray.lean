import Verif.Model.Boundary
import Verif.Model.Clip
import Mathlib.Analysis.SpecialFunctions.Trigonometric.Inverse
/-!
Model of the ray tracers for synthetic observations, source/dexrt_ray.cpp and source/dexrt_ray_3d.cpp. Real-number
arithmetic; the signs of zeros are kept where a division could see them.
-/
namespace DexRT
namespace Ray
open Boundary (V3 PwBc samplePw)

/-- `vec2` in the x-z plane. -/
@[ext] structure V2 where
  x : ℝ
  z : ℝ

/-- Direction of the rays (from the observer into the model) for the configured `mux`, `muz`:
source/dexrt_ray.cpp:436-446, and again 461-471. `mu_norm` is the *square* of the norm. -/
noncomputable def viewMu (mux muz : ℝ) : V3 :=
  let x := -mux
  let z := -muz
  let norm := x ^ 2 + z ^ 2
  if norm ≥ 1 then ⟨x / norm, 0, z / norm⟩ else ⟨x, Real.sqrt (1 - x ^ 2 - z ^ 2), z⟩

/-- The variable `mu` of the output file, source/dexrt_ray.cpp:766-771. -/
noncomputable def reportedMu (mux muz : ℝ) : V3 := ⟨mux, Real.sqrt (max 0 (1 - mux ^ 2 - muz ^ 2)), muz⟩

/-- Velocity for the Doppler shift, source/dexrt_ray.cpp:527-531 (and source/dexrt_ray_3d.cpp:324-333). -/
def vProj (mu v : V3) : ℝ := v.x * -mu.x + v.y * -mu.y + v.z * -mu.z

/-- `matvec` with `[[c, -s], [s, c]]`, source/dexrt_ray.cpp:312-317. -/
def rotate (s c : ℝ) (v : V2) : V2 := ⟨c * v.x + -s * v.z, s * v.x + c * v.z⟩

/-- `std::copysign(1, x)`; `neg` is the sign bit if `x` is zero. -/
noncomputable def copysign1 (x : ℝ) (neg : Bool) : ℝ := if x < 0 ∨ (x = 0 ∧ neg = true) then -1 else 1

/-- The four corners of a box (`AabbPoints`, source/dexrt_ray.cpp:82-87), and the reduction over them in the order of lines
380-398. -/
def reduce4 (op : ℝ → ℝ → ℝ) (bl br tl tr : ℝ) : ℝ := op (op (op bl br) tl) tr

/-- Image plane of `compute_ray_set` with `rotate_aabb`, source/dexrt_ray.cpp:319-425: start and end of the segment. -/
noncomputable def imagePlane (nx nz : ℕ) (mux muz : ℝ) (neg : Bool) : V2 × V2 :=
  let norm := Real.sqrt (muz ^ 2 + mux ^ 2)
  let muz := muz / norm
  let mux := mux / norm
  let revAngle := Real.arccos muz * copysign1 mux neg
  let rs := Real.sin revAngle
  let rc := Real.cos revAngle
  let s := Real.sin (-revAngle)
  let c := Real.cos (-revAngle)
  let cx : ℝ := 1 / 2 * (0 + nx)
  let cz : ℝ := 1 / 2 * (0 + nz)
  let turn := fun (s c : ℝ) (p : V2) => let r := rotate s c ⟨p.x - cx, p.z - cz⟩; (⟨r.x + cx, r.z + cz⟩ : V2)
  let bl := turn rs rc ⟨0, 0⟩
  let br := turn rs rc ⟨nx, 0⟩
  let tl := turn rs rc ⟨0, nz⟩
  let tr := turn rs rc ⟨nx, nz⟩
  let minX := reduce4 min bl.x br.x tl.x tr.x - 1
  let maxX := reduce4 max bl.x br.x tl.x tr.x + 1
  let maxZ := reduce4 max bl.z br.z tl.z tr.z + 1
  (turn s c ⟨minX, maxZ⟩, turn s c ⟨maxX, maxZ⟩)

/-- `seg_length`, source/dexrt_ray.cpp:427. -/
noncomputable def segLength (p : V2 × V2) : ℝ := Real.sqrt ((p.2.x - p.1.x) ^ 2 + (p.2.z - p.1.z) ^ 2)

/-- `num_rays` with `rotate_aabb`, source/dexrt_ray.cpp:430 (a positive number, so `int(ceil)` is a natural number). -/
noncomputable def numRaysRot (nx nz : ℕ) (mux muz : ℝ) (neg : Bool) : ℕ := ⌈segLength (imagePlane nx nz mux muz neg)⌉₊

/-- Start of ray `i` with `rotate_aabb`, source/dexrt_ray.cpp:428, 432-435. -/
noncomputable def startRot (nx nz : ℕ) (mux muz : ℝ) (neg : Bool) (i : ℕ) : V2 :=
  let p := imagePlane nx nz mux muz neg
  let l := segLength p
  ⟨p.1.x + (1 / 2 + i) * ((p.2.x - p.1.x) / l), p.1.z + (1 / 2 + i) * ((p.2.z - p.1.z) / l)⟩

/-- Start of ray `i < num_x` without `rotate_aabb`, source/dexrt_ray.cpp:455-460. -/
noncomputable def startFixed (nz : ℕ) (i : ℕ) : V2 := ⟨i + 1 / 2, nz⟩

/-- `flatland_mu`, source/dexrt_ray.cpp:678-681 (and 580-583). -/
noncomputable def flatMu (mu : V3) : V2 :=
  ⟨mu.x / Real.sqrt (mu.x ^ 2 + mu.z ^ 2), mu.z / Real.sqrt (mu.x ^ 2 + mu.z ^ 2)⟩

/-- `ray_seg`, source/dexrt_ray.cpp:683-685 (and 585-587). -/
noncomputable def raySeg (nx nz : ℕ) (start d : V2) (negZero : Fin 2 → Bool) : RaySeg 2 :=
  { o := ![start.x, start.z], d := ![d.x, d.z], negZero := negZero, t0 := 0, t1 := max (nz : ℝ) nx }

/-- Grid of `nx` by `nz` cells, as `MultiLevelDDA::init` clips to it. -/
def grid2 (nx nz : ℕ) : Bbox 2 := { min := ![0, 0], max := ![(nx : ℤ), (nz : ℤ)] }

/-- `boundary_I` in 2D, source/dexrt_ray.cpp:494-505 and 690-696. -/
noncomputable def boundaryI2 (bc : PwBc) (scale offX offZ : ℝ) (start d : V2) : Outcome ℝ :=
  if d.z < 0 then samplePw true true bc ⟨start.x * scale + offX, 0, start.z * scale + offZ⟩ ⟨d.x, 0, d.z⟩ else .ok 0

/-- `boundary_I` in 3D, source/dexrt_ray_3d.cpp:381-394. -/
noncomputable def boundaryI3 (bc : PwBc) (scale : ℝ) (off start view : V3) : Outcome ℝ :=
  if view.z < 0 then
    samplePw true true bc ⟨start.x * scale + off.x, start.y * scale + off.y, start.z * scale + off.z⟩
      ⟨-view.x, -view.y, -view.z⟩
  else .ok 0

/-- `distance_factor`, source/dexrt_ray.cpp:706. -/
noncomputable def distanceFactor (scale : ℝ) (mu : V3) : ℝ := scale / Real.sqrt (1 - mu.y ^ 2)

/-- One cell crossed by a ray: whether it can be sampled, emissivity and opacity there, length and start of the step. -/
structure Cell where
  sample : Bool
  eta : ℝ
  chi : ℝ
  dt : ℝ
  t : ℝ

/-- `I` and `cumulative_tau`, source/dexrt_ray.cpp:703-704. -/
structure Acc where
  I : ℝ
  tau : ℝ

/-- One pass of the loop, source/dexrt_ray.cpp:710-724 (source/dexrt_ray_3d.cpp:405-421 with `scale` the voxel size). -/
noncomputable def traceStep (scale : ℝ) (v : Acc) (c : Cell) : Acc :=
  if c.sample then
    let chiS := c.chi + 1e-20
    let tau := chiS * c.dt * scale
    let src := c.eta / chiS
    let oneMEdt := -(Real.exp (-tau) - 1)
    let trans := Real.exp (-v.tau)
    let localI := oneMEdt * src
    { I := v.I + trans * localI, tau := v.tau + tau }
  else v

/-- The ray: `none` if the ray does not meet the grid. `(ray_I, ray_tau)`, source/dexrt_ray.cpp:697-748
(source/dexrt_ray_3d.cpp:395-428). -/
noncomputable def traceRay (scale bI : ℝ) : Option (List Cell) → ℝ × ℝ
  | none => (bI, 0)
  | some cells =>
    let v := cells.foldl (traceStep scale) { I := 0, tau := 0 }
    (v.I + Real.exp (-v.tau) * bI, v.tau)

/-- What is stored for one step of one ray, source/dexrt_ray.cpp:725-740 (all outputs switched on). -/
structure DepthRec where
  pos : ℝ
  source : ℝ
  tau : ℝ
  contFn : ℝ
  chiTau : ℝ
  eta : ℝ
  chi : ℝ

/-- `num_steps` of a ray, source/dexrt_ray.cpp:592-605: 0 without marcher. -/
def numSteps : Option (List Cell) → ℕ
  | none => 0
  | some cells => cells.foldl (fun n c => if c.sample then n + 1 else n) 0

/-- `max_steps`, source/dexrt_ray.cpp:609. -/
def maxSteps (rays : List (Option (List Cell))) : ℕ := (rays.map numSteps).foldl max 0

/-- Depth arrays, indexed (step, ray); `none` is the NaN they are filled with (source/dexrt_ray.cpp:616-664). -/
abbrev Depth := ℕ → ℕ → Option DepthRec

/-- Checked write `arr(step, ray) = v`. -/
def Depth.write (steps rays : ℕ) (arr : Depth) (s r : ℕ) (v : DepthRec) : Outcome Depth :=
  if s < steps ∧ r < rays then .ok (fun s' r' => if s' = s ∧ r' = r then some v else arr s' r') else .ub

/-- The loop over the cells with the depth outputs, source/dexrt_ray.cpp:708-743. -/
noncomputable def depthCells (scale : ℝ) (steps rays r : ℕ) : List Cell → Acc → ℕ → Depth → Outcome Depth
  | [], _, _, arr => .ok arr
  | c :: cs, v, idx, arr =>
    if c.sample then do
      let v' := traceStep scale v c
      let chiS := c.chi + 1e-20
      let arr ← arr.write steps rays idx r
        { pos := c.t, source := c.eta / chiS, tau := v'.tau, contFn := c.eta * Real.exp (-v.tau), chiTau := chiS / v'.tau,
          eta := c.eta, chi := chiS }
      depthCells scale steps rays r cs v' (idx + 1) arr
    else depthCells scale steps rays r cs v idx arr

/-- One ray of the kernel, source/dexrt_ray.cpp:670-750, for the depth outputs: a ray without marcher returns early (697-701). -/
noncomputable def depthRay (scale : ℝ) (steps : ℕ) (all : List (Option (List Cell))) (arr : Depth) (r : ℕ) : Outcome Depth :=
  match all[r]? with
  | none => .ub
  | some none => .ok arr
  | some (some cells) => depthCells scale steps all.length r cells { I := 0, tau := 0 } 0 arr

/-- The kernel over the rays in the order `sched`, source/dexrt_ray.cpp:670-750, for the depth outputs. -/
noncomputable def depthKernel (scale : ℝ) (steps : ℕ) (all : List (Option (List Cell))) (sched : List ℕ) (arr : Depth) :
    Outcome Depth :=
  sched.foldlM (depthRay scale steps all) arr

/-! ### 3D -/

/-- `view_ray` after normalisation, source/dexrt_ray_3d.cpp:277-281. -/
noncomputable def viewRay3 (v : V3) : V3 :=
  let s := Real.sqrt (v.x ^ 2 + v.y ^ 2 + v.z ^ 2)
  ⟨v.x / s, v.y / s, v.z / s⟩

/-- `start_coord(y, x, .)`, source/dexrt_ray_3d.cpp:282-291. -/
noncomputable def start3 (ss : ℕ) (corner up right : V3) (y x : ℕ) : V3 :=
  ⟨corner.x + up.x * (y + 1 / 2) / ss + right.x * (x + 1 / 2) / ss,
   corner.y + up.y * (y + 1 / 2) / ss + right.y * (x + 1 / 2) / ss,
   corner.z + up.z * (y + 1 / 2) / ss + right.z * (x + 1 / 2) / ss⟩

/-- `pixel_scale`, source/dexrt_ray_3d.cpp:469. -/
noncomputable def pixelScale (voxelScale : ℝ) (ss : ℕ) : ℝ := voxelScale / ss

/-- `ray_seg`, source/dexrt_ray_3d.cpp:375. -/
noncomputable def raySeg3 (start d : V3) (negZero : Fin 3 → Bool) : RaySeg 3 :=
  { o := ![start.x, start.y, start.z], d := ![d.x, d.y, d.z], negZero := negZero, t0 := 0, t1 := 8192 }

/-- Grid of `nx * ny * nz` cells. -/
def grid3 (nx ny nz : ℕ) : Bbox 3 := { min := ![0, 0, 0], max := ![(nx : ℤ), (ny : ℤ), (nz : ℤ)] }

/-- The check of the view lists, source/dexrt_ray_3d.cpp:162-164, on their lengths; `image_corner` is not looked at. -/
def checkViews (view up right : ℕ) : Bool := !((view != up) || (up != right) || view == 0)

/-- `compute_ray_set` for view `mu`, source/dexrt_ray_3d.cpp:274-277: the four vectors it reads. -/
def readView (view up right corner : List V3) (mu : ℕ) : Outcome (V3 × V3 × V3 × V3) := do
  let rd := fun (l : List V3) => (match l[mu]? with | some v => Outcome.ok v | none => Outcome.ub : Outcome V3)
  let c ← rd corner
  let u ← rd up
  let r ← rd right
  let v ← rd view
  .ok (v, u, r, c)

/-- The whole of 3D view handling: the check, then one ray set per view (source/dexrt_ray_3d.cpp:548-549). -/
def readViews (view up right corner : List V3) : Outcome (List (V3 × V3 × V3 × V3)) :=
  if checkViews view.length up.length right.length then (List.range view.length).mapM (readView view up right corner)
  else .throws

end Ray
end DexRT
