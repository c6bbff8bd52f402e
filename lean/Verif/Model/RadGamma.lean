import Verif.Model.Gamma
import Verif.Model.Emis
import Verif.Model.Dirs
import Verif.Model.MeanJ
/-!
Model of the assembly of the radiative part of the rate matrices: `dynamic_compute_gamma`, the variant compiled in
(`dynamic_compute_gamma_nonatomic`, source/DynamicFormalSolution.cpp:170-394, 396-408), its calls from
`dynamic_formal_sol_rc` (source/DynamicFormalSolution.cpp:410-512), the 3D version
(source/DynamicFormalSolution3d.cpp:122-299), and `compute_profile_normalisation`
(source/ProfileNormalisation.cpp:26-143).

The result of a kernel is the list of additions it makes to elements `(atom, row, column, cell)` of the rate matrices;
`C26` proves that adding them in parallel gives their sum. Exact real arithmetic; the Voigt function is any function.
Simplifications: the active sets are the lists of active transitions (`scan`; C32 relates the stored sets to them);
populations are indexed by atom and level within the atom (C33).
-/
namespace DexRT.RadGamma
open DexRT Emis Rates Dir

/-- What is read of a cell: storage index, probe coordinate (`w` is used in 3D only), atmosphere, populations,
`lte_scratch`. -/
structure Cell where
  ks : Nat
  u : Nat
  v : Nat
  w : Nat
  temperature : ℝ
  ne : ℝ
  vturb : ℝ
  nhtot : ℝ
  nh0 : ℝ
  vx : ℝ
  vy : ℝ
  vz : ℝ
  n : Pops
  nStar : Pops

/-- `local_atmos`, source/DynamicFormalSolution.cpp:241-246, 280-284. -/
def Cell.point (c : Cell) (vel : ℝ) : Point := ⟨c.temperature, c.ne, c.vturb, c.nhtot, vel, c.nh0⟩

/-- Velocity projected on the direction of travel, source/DynamicFormalSolution.cpp:280-284. -/
def Cell.vel (c : Cell) (mu : Fin 3 → ℝ) : ℝ := c.vx * mu 0 + c.vy * mu 1 + c.vz * mu 2

/-- What does not depend on the cell: constants, `FP(1e-20)`, Voigt function, atomic data, `wavelength_bin`,
`(line_start, num_line)`, `(cont_start, num_cont)` and `num_level` of the atoms. -/
structure Env where
  k : Consts
  eps : ℝ
  phi : ℝ → ℝ → ℝ
  ad : AData
  bin : List ℝ
  lineRange : List (Nat × Nat)
  contRange : List (Nat × Nat)
  numLevel : List Nat

/-- One ray through a cell at one wavelength: wavelength index, projected velocity, `wl_ray_weight` (times `wmuy` in
2D), intensity, approximate operator. -/
structure Sample where
  la : Nat
  vel : ℝ
  wt : ℝ
  I : ℝ
  psi : ℝ

/-- Element of the rate matrices: atom, row, column, cell. -/
abbrev Elem := Nat × Nat × Nat × Nat

/-- `GammaAccumState` with `include_4pi_hc = false`, source/DynamicFormalSolution.cpp:309-333, 362-385;
source/DynamicFormalSolution3d.cpp:221-246, 268-293. -/
noncomputable def gammaAccum (k : Consts) (eps ni nj : ℝ) (uv : UV) (s : Sample) (w : ℝ) : Accum ℝ :=
  let hc4pi := k.hc / k.fourPi
  ⟨nj * uv.uji * hc4pi, (ni * uv.vij - nj * uv.vji) * hc4pi + eps, uv.uji, uv.vji, uv.vij, s.I, s.psi, w⟩

/-- The additions of `add_to_gamma`, source/GammaMatrix.hpp:22-41; outside `Gamma(num_level, num_level, cells)` is UB. -/
noncomputable def addTo (nl ia i j ks : Nat) (a : Accum ℝ) : Outcome (List (AddOp Elem ℝ)) :=
  if i < nl ∧ j < nl then .ok [((ia, i, j, ks), a.gij), ((ia, j, i, ks), a.gji)] else .ub

/-- Body of the loop over lines, source/DynamicFormalSolution.cpp:292-333; source/DynamicFormalSolution3d.cpp:199-246.
`wphi` is `wphi(., ks)`. -/
noncomputable def lineOps (e : Env) (c : Cell) (wphi : Nat → ℝ) (ia : Nat) (s : Sample) (kr : Nat) :
    Outcome (List (AddOp Elem ℝ)) := do
  let l ← readAt e.ad.lines kr
  let lambda ← readAt e.ad.wavelength s.la
  let uv ← uvLineAt e.k e.phi e.ad (c.point s.vel) l lambda true
  let nl ← readAt e.numLevel ia
  addTo nl ia l.i l.j c.ks (gammaAccum e.k e.eps (c.n ia l.i) (c.n ia l.j) uv s (s.wt * wphi kr))

/-- Body of the loop over continua, source/DynamicFormalSolution.cpp:342-386; source/DynamicFormalSolution3d.cpp:249-293. -/
noncomputable def contOps (e : Env) (c : Cell) (ia : Nat) (s : Sample) (kr : Nat) : Outcome (List (AddOp Elem ℝ)) := do
  let t ← readAt e.ad.conts kr
  let lambda ← readAt e.ad.wavelength s.la
  let uv ← uvCont e.k t (thermalRatio e.k c.nStar t lambda c.temperature) s.la lambda true
  let nl ← readAt e.numLevel ia
  addTo nl ia t.i t.j c.ks (gammaAccum e.k e.eps (c.n ia t.i) (c.n ia t.j) uv s s.wt)

/-- A loop whose iterations make additions. -/
def opsLoop {ι β : Type} (f : ι → Outcome (List β)) : List ι → Outcome (List β)
  | [] => .ok []
  | x :: xs => do
    let a ← f x
    let b ← opsLoop f xs
    .ok (a ++ b)

/-- `!(kr >= kr_base && kr < max_line)` negated, source/DynamicFormalSolution.cpp:287-294, 334-341. -/
def inRange (r : Nat × Nat) (kr : Nat) : Bool := decide (kr ≥ r.1) && decide (kr < r.1 + r.2)

/-- One ray, one atom in 2D: source/DynamicFormalSolution.cpp:286-387. -/
noncomputable def atomOps2 (e : Env) (c : Cell) (wphi : Nat → ℝ) (ia : Nat) (s : Sample) : Outcome (List (AddOp Elem ℝ)) := do
  let rl ← readAt e.lineRange ia
  let a ← opsLoop (lineOps e c wphi ia s) ((scan Line.isActive e.ad.lines s.la).filter (inRange rl))
  let rc ← readAt e.contRange ia
  let b ← opsLoop (contOps e c ia s) ((scan Cont.isActive e.ad.conts s.la).filter (inRange rc))
  .ok (a ++ b)

/-- `!l.is_active(la)`: the loop over the atom's own lines skips it, source/DynamicFormalSolution3d.cpp:198-205. -/
noncomputable def lineOps3 (e : Env) (c : Cell) (wphi : Nat → ℝ) (ia : Nat) (s : Sample) (kr : Nat) :
    Outcome (List (AddOp Elem ℝ)) := do
  let l ← readAt e.ad.lines kr
  if l.isActive s.la then lineOps e c wphi ia s kr else .ok []

/-- The same for continua, source/DynamicFormalSolution3d.cpp:248-254. -/
noncomputable def contOps3 (e : Env) (c : Cell) (ia : Nat) (s : Sample) (kr : Nat) : Outcome (List (AddOp Elem ℝ)) := do
  let t ← readAt e.ad.conts kr
  if t.isActive s.la then contOps e c ia s kr else .ok []

/-- One ray, one atom in 3D: source/DynamicFormalSolution3d.cpp:197-294. -/
noncomputable def atomOps3 (e : Env) (c : Cell) (wphi : Nat → ℝ) (ia : Nat) (s : Sample) : Outcome (List (AddOp Elem ℝ)) := do
  let rl ← readAt e.lineRange ia
  let a ← opsLoop (lineOps3 e c wphi ia s) ((List.range rl.2).map (rl.1 + ·))
  let rc ← readAt e.contRange ia
  let b ← opsLoop (contOps3 e c ia s) ((List.range rc.2).map (rc.1 + ·))
  .ok (a ++ b)

/-! ### The rays in 2D -/

/-- Ray set and angular quadrature in 2D: configuration, `state.c0_size`, interval lengths, `num_cascades`, `incl_quad`. -/
structure Quad2 where
  cfg : RcCfg
  c0 : Casc2
  len : LenCfg
  num : Nat
  muy : List ℝ
  wmuy : List ℝ

/-- `ray_set`, source/DynamicFormalSolution.cpp:187. -/
def Quad2.rays (g : Quad2) : Casc2 := cascadeComputeSize g.cfg g.c0 0

/-- `mu`, source/DynamicFormalSolution.cpp:274, 279; source/ProfileNormalisation.cpp:96, 97. -/
noncomputable def Quad2.mu (g : Quad2) (c : Cell) (dir : Nat) (muy : ℝ) : Fin 3 → ℝ :=
  invertedMu (rayProps g.cfg g.len g.num 0 g.rays.dirs c.u c.v dir) muy

/-- What is read for one ray, source/DynamicFormalSolution.cpp:207-220, 268-284: `i`, `ps` are cascade 0 and
`psi_star`. -/
noncomputable def sample2 (e : Env) (g : Quad2) (c : Cell) (laStart : Nat) (i ps : List ℝ) (wave dir incl : Nat) : Outcome Sample := do
  let p : ProbeIdx2 := ⟨c.u, c.v, dir, incl, wave⟩
  let lin := probeLinearIndex g.cfg (raysToStorage g.cfg g.rays) p
  let intensity ← readAt i lin
  let psi ← readAt ps lin
  let muy ← readAt g.muy incl
  let wmuy ← readAt g.wmuy incl
  let la := laStart + wave
  let lambda ← readAt e.ad.wavelength la
  let bin ← readAt e.bin la
  .ok ⟨la, c.vel (g.mu c dir muy), lambda / 1 * bin / (c0DirsToAverage g.cfg : ℝ) * wmuy, intensity, psi⟩

/-- The loops over wavelengths, directions and inclinations of pass `t`, source/DynamicFormalSolution.cpp:248-263. -/
def iters2 (g : Quad2) (laStart laEnd t : Nat) : List (Nat × Nat × Nat) :=
  let sub := nthRaysSubset g.cfg g.rays t
  (List.range (min (laEnd - laStart) g.rays.wave)).flatMap fun wave =>
    (List.range sub.2).flatMap fun d => (List.range g.rays.incl).map fun incl => (wave, sub.1 + d, incl)

/-- What a thread (one cell) adds for one atom in one pass, source/DynamicFormalSolution.cpp:234-391. -/
noncomputable def cellOps2 (e : Env) (g : Quad2) (wphi : Nat → ℝ) (laStart laEnd t : Nat) (i ps : List ℝ) (ia : Nat) (c : Cell) :
    Outcome (List (AddOp Elem ℝ)) :=
  opsLoop (fun x => do
    let s ← sample2 e g c laStart i ps x.1 x.2.1 x.2.2
    atomOps2 e c wphi ia s) (iters2 g laStart laEnd t)

/-- `dynamic_compute_gamma` of pass `t`, source/DynamicFormalSolution.cpp:170-394: atoms one after the other, cells in
parallel. `wphi c` is `wphi(., c.ks)`. With `PREAVERAGE` it throws (line 183). -/
noncomputable def computeGamma2 (e : Env) (g : Quad2) (wphi : Cell → Nat → ℝ) (cells : List Cell) (laStart laEnd t : Nat)
    (i ps : List ℝ) : Outcome (List (AddOp Elem ℝ)) :=
  if g.cfg.mode = .preaverage then .throws
  else opsLoop (fun ia => opsLoop (fun c => cellOps2 e g (wphi c) laStart laEnd t i ps ia c) cells) (List.range e.numLevel.length)

/-- The calls of one formal solution of a batch, source/DynamicFormalSolution.cpp:452-502: `i t`, `ps t` are cascade 0 and
`psi_star` at the end of pass `t`. -/
noncomputable def batchGamma2 (e : Env) (g : Quad2) (wphi : Cell → Nat → ℝ) (cells : List Cell) (laStart laEnd : Nat)
    (i ps : Nat → List ℝ) : Outcome (List (AddOp Elem ℝ)) :=
  opsLoop (fun t => computeGamma2 e g wphi cells laStart laEnd t (i t) (ps t)) (List.range (subsetTasks g.cfg))

/-- All batches of an iteration, source/main.cpp:1003-1016: `(la_start, la_end)` with the contents of the cascades. -/
noncomputable def iterGamma2 (e : Env) (g : Quad2) (wphi : Cell → Nat → ℝ) (cells : List Cell)
    (batches : List ((Nat × Nat) × (Nat → List ℝ) × (Nat → List ℝ))) : Outcome (List (AddOp Elem ℝ)) :=
  opsLoop (fun b => batchGamma2 e g wphi cells b.1.1 b.1.2 b.2.1 b.2.2) batches

/-! ### The rays in 3D -/

/-- Ray set in 3D. -/
structure Quad3 where
  cfg : RcCfg3
  c0 : Casc3
  len : LenCfg3
  num : Nat

/-- `ray_set`, source/DynamicFormalSolution3d.cpp:134. -/
def Quad3.rays (g : Quad3) : Casc3 := cascadeComputeSize3 g.cfg g.c0 0

/-- What is read for one ray, source/DynamicFormalSolution3d.cpp:152-196, default HEALPix directions. -/
noncomputable def sample3 (e : Env) (g : Quad3) (c : Cell) (la : Nat) (i ps : List ℝ) (polar az : Nat) : Outcome Sample := do
  let p : ProbeIdx3 := ⟨c.u, c.v, c.w, polar, az⟩
  let lin := probeLinearIndex3 g.cfg (raysToStorage3 g.cfg g.rays) p
  let intensity ← readAt i lin
  let psi ← readAt ps lin
  let lambda ← readAt e.ad.wavelength la
  let bin ← readAt e.bin la
  .ok ⟨la, c.vel (probeRay3 g.len g.num 0 g.rays.az c.u c.v c.w az).d,
    lambda / 1 * bin / ((g.rays.az * g.rays.polar : Nat) : ℝ), intensity, psi⟩

/-- The loop over directions of pass `t`, source/DynamicFormalSolution3d.cpp:142-163. -/
def iters3 (g : Quad3) (t : Nat) : List (Nat × Nat) :=
  let sub := nthRaysSubset3 g.cfg g.rays t
  (List.range sub.numPolar).flatMap fun p => (List.range sub.numAz).map fun a => (sub.startPolar + p, sub.startAz + a)

/-- `dynamic_compute_gamma` in 3D, source/DynamicFormalSolution3d.cpp:122-299; all iterations of the loop are separate
threads, which add atomically. -/
noncomputable def computeGamma3 (e : Env) (g : Quad3) (wphi : Cell → Nat → ℝ) (cells : List Cell) (la t : Nat)
    (i ps : List ℝ) : Outcome (List (AddOp Elem ℝ)) :=
  opsLoop (fun ia => opsLoop (fun c => opsLoop (fun x => do
    let s ← sample3 e g c la i ps x.1 x.2
    atomOps3 e c (wphi c) ia s) (iters3 g t)) cells) (List.range e.numLevel.length)

/-- The calls of one formal solution, source/DynamicFormalSolution3d.cpp:844-884 (one wavelength). -/
noncomputable def waveGamma3 (e : Env) (g : Quad3) (wphi : Cell → Nat → ℝ) (cells : List Cell) (la : Nat)
    (i ps : Nat → List ℝ) : Outcome (List (AddOp Elem ℝ)) :=
  opsLoop (fun t => computeGamma3 e g wphi cells la t (i t) (ps t)) (List.range (subsetTasks3 g.cfg))

/-- All wavelengths of an iteration in 3D. -/
noncomputable def iterGamma3 (e : Env) (g : Quad3) (wphi : Cell → Nat → ℝ) (cells : List Cell)
    (waves : List (Nat × (Nat → List ℝ) × (Nat → List ℝ))) : Outcome (List (AddOp Elem ℝ)) :=
  opsLoop (fun b => waveGamma3 e g wphi cells b.1 b.2.1 b.2.2) waves

/-! ### Profile normalisation -/

/-- Rays of the 2D normalisation: projected velocity and weight, source/ProfileNormalisation.cpp:87-110. -/
noncomputable def normRays2 (g : Quad2) (c : Cell) : Outcome (List Ray) :=
  opsLoop (fun x : Nat × Nat => do
    let muy ← readAt g.muy x.2
    let wmuy ← readAt g.wmuy x.2
    .ok [⟨c.vel (g.mu c x.1 muy), 1 / (g.rays.dirs : ℝ) * wmuy⟩])
    ((List.range g.rays.dirs).flatMap fun d => (List.range g.rays.incl).map fun m => (d, m))

/-- Rays of the 3D normalisation, source/ProfileNormalisation.cpp:112-130. -/
noncomputable def normRays3 (g : Quad3) (c : Cell) : List Ray :=
  (List.range g.rays.az).flatMap fun az => (List.range g.rays.polar).map fun _ =>
    ⟨c.vel (probeRay3 g.len g.num 0 g.rays.az c.u c.v c.w az).d, 1 / ((g.rays.az * g.rays.polar : Nat) : ℝ)⟩

/-- The wavelengths of a line with their bins, source/ProfileNormalisation.cpp:72-74. -/
def lineGrid (e : Env) (l : Line) : Outcome (List (ℝ × ℝ)) :=
  opsLoop (fun la => do
    let lambda ← readAt e.ad.wavelength la
    let bin ← readAt e.bin la
    .ok [(lambda, bin)]) ((List.range (l.red - l.blue)).map (l.blue + ·))

/-- `wphi(kr, ks)`, source/ProfileNormalisation.cpp:48-141, for the given rays. -/
noncomputable def wphiOf (e : Env) (c : Cell) (rays : List Ray) (kr : Nat) : Outcome ℝ := do
  let l ← readAt e.ad.lines kr
  let atom ← readAt e.ad.atoms l.atom
  let dop := dopplerWidth e.k l.lambda0 atom.mass c.temperature c.vturb
  let gamma := gammaFromBroadening l c.temperature c.ne c.nh0
  let grid ← lineGrid e l
  .ok (wphi (profileEntry e.k e.phi l.lambda0 dop gamma grid rays))

end DexRT.RadGamma
