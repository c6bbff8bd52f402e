import Verif.Model.Merges3
import Verif.Spec.Merges
import Verif.Spec.FormalSol
/-! Specification for the trilinear-fix merge: what the cascade above holds. -/
namespace DexRT.Merges3
open DexRT DexRT.Fs

/-- The cascade above holds, for the rays of pass `t`, intensities between `m` and `M`. Nothing is said of other entries. -/
def UpperIn (e : Env) (n t : Nat) (upper : List ℝ) (m M : ℝ) : Prop :=
  ∀ q : ProbeIdx3, InPass3 e.cfg (cascadeComputeSize3 e.cfg e.c0 (n + 1)) t q →
    ∃ x, upper[probeLinearIndex3 e.cfg (cascadeSize3 e.cfg.branch e.c0 (n + 1)) q]? = some x ∧ m ≤ x ∧ x ≤ M

/-- At least one direction per axis in cascade 0, positive branching factors, and the products computed in 32 bits for the first
upper ray fit. -/
structure Ok (e : Env) : Prop where
  az : 0 < e.cfg.c0az
  polar : 0 < e.cfg.c0polar
  texAz : 0 < (upperTexels3 e.cfg.branch).1
  texPolar : 0 < (upperTexels3 e.cfg.branch).2
  fits : ∀ n, n < e.num →
    (cascadeComputeSize3 e.cfg e.c0 n).az * (cascadeSize3 e.cfg.branch e.c0 (n + 1)).az ≤ 2147483647 ∧
    (cascadeComputeSize3 e.cfg e.c0 n).polar * (cascadeSize3 e.cfg.branch e.c0 (n + 1)).polar ≤ 2147483647

/-- The weighted average over the cascade above that the trilinear fix is meant to compute: for every probe of the cascade above,
weighted by the trilinear hat function on each axis (`axisWeight`), the march of the ray that joins the two probes' intervals,
entered with the mean of `X` over the rays that continue `p`. -/
noncomputable def value (e : Env) (n : Nat) (p : ProbeIdx3) (X : ProbeIdx3 → ℝ) : ℝ :=
  ∑ U ∈ Finset.range (probesOn e.c0.np0 (n + 1)), ∑ V ∈ Finset.range (probesOn e.c0.np1 (n + 1)),
    ∑ W ∈ Finset.range (probesOn e.c0.np2 (n + 1)),
      (axisWeight (probesOn e.c0.np0 (n + 1)) p.u U : ℝ) * ((axisWeight (probesOn e.c0.np1 (n + 1)) p.v V : ℝ) *
        ((axisWeight (probesOn e.c0.np2 (n + 1)) p.w W : ℝ) *
        ((e.march (triRay e n p U V W)).I + (e.march (triRay e n p U V W)).T *
          ((∑ i ∈ Finset.range (upperTexels3 e.cfg.branch).2, ∑ j ∈ Finset.range (upperTexels3 e.cfg.branch).1,
            X { u := U, v := V, w := W, polar := p.polar * (upperTexels3 e.cfg.branch).2 + i,
                az := p.az * (upperTexels3 e.cfg.branch).1 + j }) /
            (((upperTexels3 e.cfg.branch).1 * (upperTexels3 e.cfg.branch).2 : Nat) : ℝ)))))

end DexRT.Merges3
