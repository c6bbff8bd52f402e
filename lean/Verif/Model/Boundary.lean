import Verif.Model.Interp
import Mathlib.Analysis.SpecialFunctions.Pow.Real
/-!
Model of the boundary conditions: source/PromweaverBoundary.hpp, source/PromweaverBoundary.cpp, source/ZeroBoundary.hpp and
the test in source/RayMarching.hpp:471-485. Exact arithmetic.
-/
namespace DexRT
namespace Boundary

section Resample
variable {K : Type} [Field K] [LinearOrder K]

/-- `compute_edges`, source/PromweaverBoundary.cpp:42-49. The loop over `la` (lines 44-46) is a `zipWith` of neighbours. -/
def computeEdges (arr : List K) : Outcome (List K) := do
  let a0 ← readAt arr 0
  let a1 ← readAt arr 1
  let l1 ← readAt arr (arr.length - 1)
  let l2 ← readAt arr (arr.length - 2)
  .ok ((a0 - 1 / 2 * (a1 - a0)) :: (arr.zipWith (fun x y => 1 / 2 * (x + y)) arr.tail ++ [l1 + 1 / 2 * (l1 - l2)]))

/-- `while (p(in_edges(i + 1))) i++`, source/PromweaverBoundary.cpp:75-81. Reading past the edges is UB. -/
def advance (edges : List K) (p : K → Bool) (i : Nat) : Outcome Nat :=
  match edges[i + 1]? with
  | none => .ub
  | some e => if h : p e ∧ i < edges.length then advance edges p (i + 1) else .ok i
termination_by edges.length - i
decreasing_by omega

/-- The loop over the input bins in between, source/PromweaverBoundary.cpp:98-102: `(int_flux, int_lambda)`; `count` is
the number of bins left. -/
def midLoop (inE y : List K) : (count ll : Nat) → K × K → Outcome (K × K)
  | 0, _, acc => .ok acc
  | count + 1, ll, acc => do
    let e1 ← readAt inE (ll + 1)
    let e0 ← readAt inE ll
    let v ← readAt y ll
    midLoop inE y count (ll + 1) (acc.1 + (e1 - e0) * v, acc.2 + (e1 - e0))

/-- One output bin `[lo, hi]`, source/PromweaverBoundary.cpp:62-105: the value and the moved `start`, `stop`. -/
def resampleBin (inE y : List K) (lo hi : K) (start stop : Nat) : Outcome (K × Nat × Nat) := do
  let e0 ← readAt inE 0
  let el ← readAt inE (inE.length - 1)
  if hi ≤ e0 ∨ lo ≥ el then .ok (0, start, stop)
  else do
    let startEdge := max e0 lo
    let endEdge := min el hi
    let start ← advance inE (fun e => decide (e ≤ startEdge)) start
    let stop ← advance inE (fun e => decide (e < endEdge)) stop
    if start = stop then do
      let v ← readAt y start
      .ok (v, start, stop)
    else do
      let es ← readAt inE (start + 1)
      let ee ← readAt inE stop
      let ys ← readAt y start
      let m ← midLoop inE y (stop - (start + 1)) (start + 1) ((es - lo) * ys, es - lo)
      let ye ← readAt y stop
      .ok ((m.1 + (hi - ee) * ye) / (m.2 + (hi - ee)), start, stop)

/-- The loop over the output wavelengths, source/PromweaverBoundary.cpp:59-106, given the list of output edges. -/
def resampleLoop (inE y : List K) : List K → Nat → Nat → Outcome (List K)
  | lo :: hi :: rest, start, stop => do
    let r ← resampleBin inE y lo hi start stop
    let tl ← resampleLoop inE y (hi :: rest) r.2.1 r.2.2
    .ok (r.1 :: tl)
  | _, _, _ => .ok []

/-- `load_bc` with flux-conserving resampling, for one `mu`, source/PromweaverBoundary.cpp:36-107: `wl`, `y` are wavelengths
and intensities of the file, `wavelength` those of the run. -/
def resample (wl y wavelength : List K) : Outcome (List K) := do
  let inE ← computeEdges wl
  let outE ← computeEdges wavelength
  resampleLoop inE y outE 0 0

/-- `load_bc` with interpolation, for one `mu` and one wavelength, source/PromweaverBoundary.cpp:125-141. -/
def interpBc (wl y : List K) (sought : K) : Outcome K := do
  let w0 ← readAt wl 0
  if sought ≤ w0 then do
    let a ← readAt y 0
    let b ← readAt y 0
    .ok (0 * a + (1 - 0) * b)
  else do
    let wlast ← readAt wl (wl.length - 1)
    if sought ≥ wlast then do
      let a ← readAt y (wl.length - 1)
      let b ← readAt y (wl.length - 1)
      .ok (0 * a + (1 - 0) * b)
    else do
      let idxp ← upperBound wl (some sought)
      let xp ← readAt wl idxp
      let xm ← readAt wl (idxp - 1)
      let t := (xp - sought) / (xp - xm)
      let a ← readAt y (idxp - 1)
      let b ← readAt y idxp
      .ok (t * a + (1 - t) * b)

end Resample

/-- `vec3`. -/
structure V3 where
  x : ℝ
  y : ℝ
  z : ℝ

/-- Solar radius `Rs`, source/PromweaverBoundary.hpp:37, 58. -/
def rs : ℝ := 695700000

/-- `chromo_ray_mu`, source/PromweaverBoundary.hpp:36-47. -/
noncomputable def chromoRayMu (mu alt : ℝ) : ℝ :=
  let m2 := 1 - mu ^ 2
  let m2 := m2 * (1 + 2 * alt / rs + (alt / rs) ^ 2)
  let m2 := 1 - m2
  if m2 < 0 then -1 else Real.sqrt m2

/-- `vector_chromo_ray_mu`, source/PromweaverBoundary.hpp:57-87. -/
noncomputable def vectorChromoRayMu (pos dir : V3) : ℝ :=
  let p : V3 := ⟨pos.x / rs, pos.y / rs, pos.z / rs + 1⟩
  let a : ℝ := 1
  let b := 2 * (p.x * dir.x + p.y * dir.y + p.z * dir.z)
  let c := p.x ^ 2 + p.y ^ 2 + p.z ^ 2 - 1
  let delta := b ^ 2 - 4 * a * c
  if delta < 0 then -1
  else
    let t := (-b - Real.sqrt delta) / (2 * a)
    let q : V3 := ⟨p.x + t * dir.x, p.y + t * dir.y, p.z + t * dir.z⟩;
    -(dir.x * q.x + dir.y * q.y + dir.z * q.z)

/-- `PwBc` for one wavelength, source/PromweaverBoundary.hpp:13-19; `mu_step` as set in
source/PromweaverBoundary.cpp:26. -/
structure PwBc where
  muMin : ℝ
  muMax : ℝ
  I : List ℝ

/-- `mu_step`, source/PromweaverBoundary.cpp:26. -/
noncomputable def PwBc.muStep (bc : PwBc) : ℝ := (bc.muMax - bc.muMin) / ((bc.I.length : ℝ) - 1)

/-- Looking up the table, source/PromweaverBoundary.hpp:112-126. `int(frac_idx)` of a non-negative number is its floor. -/
noncomputable def PwBc.lookup (bc : PwBc) (mu : ℝ) : Outcome ℝ :=
  if mu < 0 then .ok 0
  else if mu ≤ bc.muMin then readAt bc.I 0
  else if mu ≥ bc.muMax then readAt bc.I (bc.I.length - 1)
  else do
    let frac := (mu - bc.muMin) / bc.muStep
    let idx := ⌊frac⌋₊
    let t := frac - (idx : ℝ)
    let a ← readAt bc.I idx
    let b ← readAt bc.I (idx + 1)
    .ok ((1 - t) * a + t * b)

/-- `sample_boundary`, source/PromweaverBoundary.hpp:94-127, with `PWBC_USE_VECTOR_FORM` and
`PWBC_CONSIDER_HORIZONTAL_OFFSET` (source/Config.hpp:111, 112). -/
noncomputable def samplePw (vectorForm horizontal : Bool) (bc : PwBc) (pos dir : V3) : Outcome ℝ :=
  let mu := if vectorForm then vectorChromoRayMu (if horizontal then pos else { pos with x := 0 }) dir
    else chromoRayMu dir.z pos.z
  bc.lookup mu

/-- Intensity a ray starts with, source/RayMarching.hpp:474-485 (with `sampled` for
`always_sample_bc || ray_starts_outside`, and `la ≠ -1`): only rays going up along z see the boundary. `dir2z` is
`ray.dir(1)`. -/
noncomputable def startIntensity (sampled : Bool) (bc : PwBc) (dir2z : ℝ) (pos mu : V3) : Outcome ℝ :=
  if sampled then if dir2z > 0 then samplePw true true bc pos mu else .ok 0 else .ok 0

end Boundary
end DexRT
