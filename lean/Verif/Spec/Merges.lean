import Verif.Model.Merges
import Verif.Props.RcStorage
/-! Specification for the selectable merges: bounds on what a march and a cascade hold. -/
namespace DexRT.Merges
open DexRT DexRT.Fs

/-- What a stretch of medium with source function between `m` and `M` gives: a transmission in [0, 1], and an intensity between
that of constant source functions `m` and `M`. -/
def SourceIn (m M : ℝ) (s : Seg ℝ) : Prop :=
  0 ≤ s.T ∧ s.T ≤ 1 ∧ m * (1 - s.T) ≤ s.I ∧ s.I ≤ M * (1 - s.T)

/-- The cascade above holds, for the inclination and wavelength of `p` and the rays of pass `t`, intensities between `m`
and `M`. Nothing is said of other entries. -/
def UpperIn (e : Env) (n t : Nat) (p : ProbeIdx2) (upper : List ℝ) (m M : ℝ) : Prop :=
  ∀ q : ProbeIdx2, InPass2 e.cfg (e.rays (n + 1)) t q → q.incl = p.incl → q.wave = p.wave →
    ∃ x, upper[probeLinearIndex e.cfg (cascadeSize e.cfg e.c0 (n + 1)) q]? = some x ∧ m ≤ x ∧ x ≤ M

/-- The buffers of this cascade hold, for every direction of the probe, inclination and wavelength of `p`, the intensity and
optical depth of a medium with source function between `m` and `M`. -/
def CurrentIn (e : Env) (n : Nat) (p : ProbeIdx2) (curI curTau : List ℝ) (m M : ℝ) : Prop :=
  ∀ d, d < (e.rays n).dirs → ∃ I tau, curI[probeLinearIndex e.cfg (e.rays n) { p with dir := d }]? = some I ∧
    curTau[probeLinearIndex e.cfg (e.rays n) { p with dir := d }]? = some tau ∧ 0 ≤ tau ∧
    m * (1 - Real.exp (-tau)) ≤ I ∧ I ≤ M * (1 - Real.exp (-tau))

/-- The builds that compile (source/Config.hpp:44-58): no pre-averaging, and the reprojecting merges only without
`DIR_BY_DIR`. -/
def Compiles (c : Conf) (cfg : RcCfg) : Prop :=
  cfg.Valid ∧ cfg.mode ≠ .preaverage ∧ ((∃ a, c = .parallax a ∨ c = .inner a) → cfg.mode = .all)

end DexRT.Merges
