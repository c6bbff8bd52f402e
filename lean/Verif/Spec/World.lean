import Verif.Model.World
import Verif.Spec.FormalSol
/-!
Vocabulary for C79: the rays that a formal solution marches, and media.
-/
namespace DexRT.Fs
open DexRT DexRT.Dir

/-- The ray of probe `p` of cascade `n` exists. -/
structure Ray2 (e : Env2 ℝ) (waves n : Nat) (p : ProbeIdx2) : Prop where
  u : p.u < probesOn e.c0.np0 n
  v : p.v < probesOn e.c0.np1 n
  dir : p.dir < (cascadeComputeSize e.cfg e.c0 n).dirs
  wave : p.wave < waves
  incl : p.incl < e.c0.incl

/-- Every ray of the formal solution is marched through the world `w`: with the boundary in the last cascade, without
it below. (That the marches end, when they do, is C39, C78; see `C79_dense2`.) -/
def Marches2 (w : World .two) (e : Env2 ℝ) (g : Rays2) (waves : Nat) : Prop :=
  (∀ n p, n < e.num → Ray2 e waves n p → MarchRay2 w e g false n p (e.march false n p)) ∧
  ∀ p, Ray2 e waves e.num p → MarchRay2 w e g true e.num p (e.march true e.num p)

/-- The ray of probe `p` of cascade `n` exists (3D). -/
structure Ray3 (e : Env3 ℝ) (n : Nat) (p : ProbeIdx3) : Prop where
  u : p.u < probesOn e.c0.np0 n
  v : p.v < probesOn e.c0.np1 n
  w : p.w < probesOn e.c0.np2 n
  az : p.az < (cascadeComputeSize3 e.cfg e.c0 n).az
  polar : p.polar < (cascadeComputeSize3 e.cfg e.c0 n).polar

/-- 3D version of `Marches2`. -/
def Marches3 (w : World .three) (e : Env3 ℝ) (l : LenCfg3) (la : ℤ) : Prop :=
  (∀ n p, n < e.num → Ray3 e n p → MarchRay3 w e l la false n p (e.march false n p)) ∧
  ∀ p, Ray3 e e.num p → MarchRay3 w e l la true e.num p (e.march true e.num p)

/-- The source function (with the offset of the opacity that the march adds) is within `[lo, hi]` everywhere. -/
def World.SourceIn {dim : DdaDim} (w : World dim) (lo hi : ℝ) : Prop :=
  ∀ la mu m c, 0 ≤ w.chi la mu m c ∧ lo * (w.chi la mu m c + 1e-15) ≤ w.eta la mu m c ∧
    w.eta la mu m c ≤ hi * (w.chi la mu m c + 1e-15)

/-- The world that emits as `w1` and `w2` together, with the opacity (and everything else) of `w1`. -/
noncomputable def World.plus {dim : DdaDim} (w1 w2 : World dim) : World dim :=
  { w1 with eta := fun la mu m c => w1.eta la mu m c + w2.eta la mu m c, bc := fun la x mu => w1.bc la x mu + w2.bc la x mu }

/-- `w2` differs from `w1` only in what it emits. -/
def World.SameOpacity {dim : DdaDim} (w1 w2 : World dim) : Prop :=
  w2 = { w1 with eta := w2.eta, bc := w2.bc }

/-- The point at distance `x` from `c` along `d` is on the interval `[a, b]` of the ray and in the grid (at least 1e-4
from its surface). -/
def OnRay {k : ℕ} (c d : Fin k → ℝ) (max : Fin k → ℤ) (a b x : ℝ) : Prop :=
  a ≤ x ∧ x ≤ b ∧ ∀ i, 1 / 10000 ≤ c i + x * d i ∧ c i + x * d i ≤ (max i : ℝ) - 1 / 10000

/-- `L` is the length of the part of a ray described by `P` (an interval of distances), to within 1e-4. -/
def LengthOf (P : ℝ → Prop) (L : ℝ) : Prop :=
  0 ≤ L ∧ (∀ x x', P x → P x' → x' - x ≤ L + 1 / 10000) ∧ (0 < L → ∃ x x', P x ∧ P x' ∧ L ≤ x' - x)

end DexRT.Fs
