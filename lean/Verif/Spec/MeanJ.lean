import Verif.Model.MeanJ
import Verif.Spec.Grid
import Verif.Props.RcStorage
import Verif.Props.IndexGen
import Mathlib.Algebra.BigOperators.Group.Finset.Basic
/-!
Specification of the mean intensity, independent of how it is accumulated.
-/
namespace DexRT

variable {K : Type} [Field K]

/-- The angular average at cell `(u, v)` for wavelength `wave` of the batch: the mean over `nrays`
azimuths of the inclination-weighted intensity `I`. -/
def meanIntensity2 (nrays nincl : Nat) (w : List K) (I : ProbeIdx2 → K) (u v wave : Nat) : K :=
  (∑ d ∈ Finset.range nrays, ∑ th ∈ Finset.range nincl, w.getD th 0 * I ⟨u, v, d, th, wave⟩) / nrays

/-- The angular average at cell `(u, v, w)`: the mean over all `naz * npolar` directions of `I`. -/
def meanIntensity3 (naz npolar : Nat) (I : ProbeIdx3 → K) (u v w : Nat) : K :=
  (∑ p ∈ Finset.range npolar, ∑ a ∈ Finset.range naz, I ⟨u, v, w, p, a⟩) / ((naz * npolar : Nat) : K)

/-- A run on `nx` by `nz` tiles of side `2^k`: cascade 0 has one probe per cell and `p0rays` directions
(source/main.cpp:120-140), the probe list of a sparse run is that of `compute_active_probe_lists`, and
there is one weight per inclination. -/
structure Run2 (e : MergeEnv K) (k nx nz : Nat) (Active : Coord2 → Prop) : Prop where
  valid : e.cfg.Valid
  mode : e.cfg.mode ≠ .preaverage
  block : e.B = 2 ^ k
  axes : FitsI32Axis k nx ∧ FitsI32Axis k nz
  cells : ((nx * 2 ^ k : Nat) : Int) * ((nz * 2 ^ k : Nat) : Int) ≤ i32Max
  map : MapFor2 (2 ^ k) nx nz Active e.bm
  probes : e.P.np = { x := (nx * 2 ^ k : Nat), z := (nz * 2 ^ k : Nat) }
  storage : ∃ waves incls, e.s = raysToStorage e.cfg ⟨nx * 2 ^ k, nz * 2 ^ k, e.cfg.p0rays, waves, incls⟩
  active : e.P.sparse = true → c0List2 (2 ^ k) e.bm = .ok e.P.active
  weights : e.wmuy.length = e.s.incl

/-- The cells whose J is computed: all of the grid, or those with data in a sparse run. -/
def Computed2 (e : MergeEnv K) (k nx nz : Nat) (Active : Coord2 → Prop) (c : Coord2) : Prop :=
  if e.P.sparse then HasData2 (2 ^ k) nx nz Active c
  else 0 ≤ c.x ∧ c.x < ((nx * 2 ^ k : Nat) : Int) ∧ 0 ≤ c.z ∧ c.z < ((nz * 2 ^ k : Nat) : Int)

/-- Number of columns `allocate_J` (source/main.cpp:40-63) gives J. -/
def jCols2 (e : MergeEnv K) (k nx nz : Nat) : Int :=
  if e.P.sparse then e.bm.numActive * ((2 ^ k : Nat) * (2 ^ k : Nat)) else nx * nz * ((2 ^ k : Nat) * (2 ^ k : Nat))

/-- Column `a` of J is where cell `c` lives: its sparse address, or `z * nx + x` in a dense run. -/
def JAddr2 (e : MergeEnv K) (c : Coord2) (a : Nat) : Prop :=
  if e.P.sparse then ∃ s', (geo2 e.B).idx e.bm (geo2 e.B).fresh c = .ok ((a : Int), s')
  else (a : Int) = c.z * e.P.np.x + c.x

/-- Cascade 0 of pass `t` holds the intensities `I` of the rays of that pass at every computed cell, where
`probe_linear_index` puts them. -/
def CascadeHolds2 (e : MergeEnv K) (k nx nz : Nat) (Active : Coord2 → Prop) (waves : Nat) (I : ProbeIdx2 → K)
    (t : Nat) (c0 : List K) : Prop :=
  ∀ c p, Computed2 e k nx nz Active c → p.u = c.x.toNat → p.v = c.z.toNat → p.wave < waves →
    InPass2 e.cfg (storageToRays e.cfg e.s) t p → c0[probeLinearIndex e.cfg e.s p]? = some (I p)

/-- 3D version of `Run2`. -/
structure Run3 (e : MergeEnv3) (k nx ny nz : Nat) (Active : Coord3 → Prop) : Prop where
  rays : 0 < e.cfg.c0az ∧ 0 < e.cfg.c0polar
  block : e.B = 2 ^ k
  axes : FitsI32Axis k nx ∧ FitsI32Axis k ny ∧ FitsI32Axis k nz
  cells : ((nx * 2 ^ k : Nat) : Int) * ((ny * 2 ^ k : Nat) : Int) * ((nz * 2 ^ k : Nat) : Int) ≤ i32Max
  some_cells : 0 < nx ∧ 0 < ny ∧ 0 < nz
  map : MapFor3 (2 ^ k) nx ny nz Active e.bm
  probes : e.P.np = { x := (nx * 2 ^ k : Nat), y := (ny * 2 ^ k : Nat), z := (nz * 2 ^ k : Nat) }
  storage : e.s = raysToStorage3 e.cfg ⟨nx * 2 ^ k, ny * 2 ^ k, nz * 2 ^ k, e.cfg.c0az, e.cfg.c0polar⟩
  active : e.P.sparse = true → c0List3 (2 ^ k) e.bm = .ok e.P.active

/-- The cells whose J is computed (3D). -/
def Computed3 (e : MergeEnv3) (k nx ny nz : Nat) (Active : Coord3 → Prop) (c : Coord3) : Prop :=
  if e.P.sparse then HasData3 (2 ^ k) nx ny nz Active c
  else 0 ≤ c.x ∧ c.x < ((nx * 2 ^ k : Nat) : Int) ∧ 0 ≤ c.y ∧ c.y < ((ny * 2 ^ k : Nat) : Int) ∧
    0 ≤ c.z ∧ c.z < ((nz * 2 ^ k : Nat) : Int)

/-- Number of columns `allocate_J` (source/main_3d.cpp:30-53) gives J. -/
def jCols3 (e : MergeEnv3) (k nx ny nz : Nat) : Int :=
  if e.P.sparse then e.bm.numActive * ((2 ^ k : Nat) * (2 ^ k : Nat) * (2 ^ k : Nat))
  else nx * ny * nz * ((2 ^ k : Nat) * (2 ^ k : Nat) * (2 ^ k : Nat))

/-- Column `a` of J is where cell `c` lives (3D). -/
def JAddr3 (e : MergeEnv3) (c : Coord3) (a : Nat) : Prop :=
  if e.P.sparse then ∃ s', (geo3 e.B).idx e.bm (geo3 e.B).fresh c = .ok ((a : Int), s')
  else (a : Int) = (c.z * e.P.np.y + c.y) * e.P.np.x + c.x

/-- Cascade 0 of pass `t` holds the intensities `I` of the rays of that pass (3D). -/
def CascadeHolds3 (e : MergeEnv3) (k nx ny nz : Nat) (Active : Coord3 → Prop) (I : ProbeIdx3 → K)
    (t : Nat) (c0 : List K) : Prop :=
  ∀ c p, Computed3 e k nx ny nz Active c → p.u = c.x.toNat → p.v = c.y.toNat → p.w = c.z.toNat →
    InPass3 e.cfg (storageToRays3 e.cfg e.s) t p → c0[probeLinearIndex3 e.cfg e.s p]? = some (I p)

end DexRT
