import Verif.Model.FormalSol
import Mathlib.Algebra.BigOperators.Group.Finset.Basic
/-!
Specification of the intensity a radiance-cascade solution stands for, independent of buffers, storage order,
kernels and schedules: a recursion from the last cascade down.
-/
namespace DexRT.Fs
open DexRT

/-- Number of probes along an axis of `N` cells in cascade `n`: halved at every cascade, at least one. -/
def probesOn (N n : Nat) : Nat := max 1 (N / 2 ^ n)

/-- Linear interpolation along an axis: the weight of probe `U` of a cascade with `N` probes at the position of
probe `u` of the cascade below. Probe `u` sits at `u/2 - 1/4` in units of the upper spacing (probe centres are
at half-integers times the spacing); positions beyond the first or last upper probe use that probe alone. -/
def axisWeight (N u U : Nat) : ℚ :=
  max 0 (1 - |max 0 (min ((u : ℚ) / 2 - 1 / 4) ((N : ℚ) - 1)) - (U : ℚ)|)

variable {K : Type} [Field K]

/-- The intensity of ray `p` of cascade `num - m` in a grid of `Nx` by `Nz` cells: in the last cascade (`m = 0`)
that of its own interval, entered with the boundary condition; below, that of its interval, entered with the
radiation of the cascade above, interpolated between the four nearest probes and averaged over the
`b (num - m)` directions `p.dir * b, ..., p.dir * b + b - 1` into which the direction splits. -/
def radiance2 (march : Bool → Nat → ProbeIdx2 → Seg K) (Nx Nz : Nat) (b : Nat → Nat) (num : Nat) :
    Nat → ProbeIdx2 → K
  | 0, p => (march true num p).I
  | m + 1, p =>
    let n := num - (m + 1)
    (march false n p).I + (march false n p).T *
      ∑ U ∈ Finset.range (probesOn Nx (n + 1)), ∑ V ∈ Finset.range (probesOn Nz (n + 1)),
        ((axisWeight (probesOn Nx (n + 1)) p.u U * axisWeight (probesOn Nz (n + 1)) p.v V : ℚ) : K) *
          ((∑ r ∈ Finset.range (b n), radiance2 march Nx Nz b num m
            { p with u := U, v := V, dir := p.dir * b n + r }) / (b n : K))

/-- 3D version of `radiance2`: interpolation between the eight nearest probes; a direction splits into
`bp` polar by `ba` azimuthal ones. -/
def radiance3 (march : Bool → Nat → ProbeIdx3 → Seg K) (Nx Ny Nz : Nat) (ba bp : Nat) (num : Nat) :
    Nat → ProbeIdx3 → K
  | 0, p => (march true num p).I
  | m + 1, p =>
    let n := num - (m + 1)
    (march false n p).I + (march false n p).T *
      ∑ U ∈ Finset.range (probesOn Nx (n + 1)), ∑ V ∈ Finset.range (probesOn Ny (n + 1)),
        ∑ W ∈ Finset.range (probesOn Nz (n + 1)),
        ((axisWeight (probesOn Nx (n + 1)) p.u U * axisWeight (probesOn Ny (n + 1)) p.v V *
          axisWeight (probesOn Nz (n + 1)) p.w W : ℚ) : K) *
          ((∑ i ∈ Finset.range bp, ∑ j ∈ Finset.range ba, radiance3 march Nx Ny Nz ba bp num m
            { u := U, v := V, w := W, polar := p.polar * bp + i, az := p.az * ba + j }) / ((ba * bp : Nat) : K))

/-- Probe `(u, v)` of cascade `n` is computed: some index of the probe loop leads to it. -/
def Listed2 (e : Env2 K) (n u v : Nat) : Prop :=
  ∃ (k : Nat) (N : Int), (e.probes n).num = .ok N ∧ (k : Int) < N ∧
    (e.probes n).coord k = .ok { x := u, z := v }

/-- Probe `(u, v, w)` of cascade `n` is computed. -/
def Listed3 (e : Env3 K) (n u v w : Nat) : Prop :=
  ∃ (k : Nat) (N : Int), (e.probes n).num = .ok N ∧ (k : Int) < N ∧
    (e.probes n).coord k = .ok { x := u, y := v, z := w }

/-- The probe loops are usable: each cascade's loop runs over existing probes, and the upper probes with
non-zero interpolation weight of a computed probe are computed too (C20, C21). -/
structure Probes2Ok (e : Env2 K) : Prop where
  coords : ∀ n, n ≤ e.num → ∃ N : Nat, (e.probes n).num = .ok (N : Int) ∧ ∀ k, k < N →
    ∃ u v : Nat, (e.probes n).coord k = .ok { x := u, z := v } ∧ u < probesOn e.c0.np0 n ∧
      v < probesOn e.c0.np1 n
  closed : ∀ n, n < e.num → ∀ u v, Listed2 e n u v → ∀ U V, U < probesOn e.c0.np0 (n + 1) →
    V < probesOn e.c0.np1 (n + 1) → axisWeight (probesOn e.c0.np0 (n + 1)) u U ≠ 0 →
    axisWeight (probesOn e.c0.np1 (n + 1)) v V ≠ 0 → Listed2 e (n + 1) U V

/-- 3D version of `Probes2Ok`. -/
structure Probes3Ok (e : Env3 K) : Prop where
  coords : ∀ n, n ≤ e.num → ∃ N : Nat, (e.probes n).num = .ok (N : Int) ∧ ∀ k, k < N →
    ∃ u v w : Nat, (e.probes n).coord k = .ok { x := u, y := v, z := w } ∧ u < probesOn e.c0.np0 n ∧
      v < probesOn e.c0.np1 n ∧ w < probesOn e.c0.np2 n
  closed : ∀ n, n < e.num → ∀ u v w, Listed3 e n u v w → ∀ U V W, U < probesOn e.c0.np0 (n + 1) →
    V < probesOn e.c0.np1 (n + 1) → W < probesOn e.c0.np2 (n + 1) →
    axisWeight (probesOn e.c0.np0 (n + 1)) u U ≠ 0 → axisWeight (probesOn e.c0.np1 (n + 1)) v V ≠ 0 →
    axisWeight (probesOn e.c0.np2 (n + 1)) w W ≠ 0 → Listed3 e (n + 1) U V W

/-- The buffers have the sizes given; `psi_star`, if initialised, that of buffer 0
(source/CascadeState.cpp:55-57). -/
def MemShape (sizes : List Nat) (m : Mem K) : Prop :=
  m.bufs.map List.length = sizes ∧ ∀ ps, m.psi = some ps → sizes[0]? = some ps.length

/-- The iterations of every kernel call of pass `t` are exactly those of its loop, in some order. -/
def Sched2 (e : Env2 K) (t waves : Nat) (sched : Task → List JIter) : Prop :=
  ∀ k N, k.n ≤ e.num → (e.probes k.n).num = .ok ((N : Nat) : Int) → (sched k).Perm (iters2 e k.n t waves N)

/-- 3D version of `Sched2`. -/
def Sched3 (e : Env3 K) (t : Nat) (sched : Task → List JIter3) : Prop :=
  ∀ k N, k.n ≤ e.num → (e.probes k.n).num = .ok ((N : Nat) : Int) → (sched k).Perm (iters3 e k.n t N)

/-- No product of direction counts formed by the merge (source/DynamicFormalSolution3d.cpp:483-484) exceeds an `int`. -/
def NoOverflow3 (e : Env3 K) : Prop :=
  ∀ n, n < e.num →
    (cascadeComputeSize3 e.cfg e.c0 n).az * (cascadeSize3 e.cfg.branch e.c0 (n + 1)).az ≤ 2147483647 ∧
    (cascadeComputeSize3 e.cfg e.c0 n).polar * (cascadeSize3 e.cfg.branch e.c0 (n + 1)).polar ≤ 2147483647

/-- The buffer each cascade is written to (`cascade_indices`) is large enough for it (C17). -/
def BuffersFit3 (e : Env3 K) (sizes : List Nat) : Prop :=
  ∀ n, n ≤ e.num → ∃ s, sizes[(cascadeIndices e.pp e.num n).1]? = some s ∧
    cascadeEntries3 (cascadeSize3 e.cfg.branch e.c0 n) ≤ s

end DexRT.Fs
