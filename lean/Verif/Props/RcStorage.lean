import Verif.Lemmas.Rc
import Mathlib.Tactic.IntervalCases
/-!
# C12-C15, C42: cascade storage, passes over directions, and ray merging
-/
namespace DexRT

/-- Specification: ray `p` of a 2D cascade is computed in pass `t` (all probes, inclinations and
wavelengths of the batch; the directions of the pass). -/
def InPass2 (c : RcCfg) (rays : Casc2) (t : Nat) (p : ProbeIdx2) : Prop :=
  p.u < rays.np0 ∧ p.v < rays.np1 ∧ p.incl < rays.incl ∧ p.wave < rays.wave ∧
  (nthRaysSubset c rays t).1 ≤ p.dir ∧ p.dir < (nthRaysSubset c rays t).1 + (nthRaysSubset c rays t).2

/-- Specification: ray `p` of a 3D cascade is computed in pass `t`. -/
def InPass3 (c : RcCfg3) (rays : Casc3) (t : Nat) (p : ProbeIdx3) : Prop :=
  p.u < rays.np0 ∧ p.v < rays.np1 ∧ p.w < rays.np2 ∧
  (nthRaysSubset3 c rays t).startAz ≤ p.az ∧
  p.az < (nthRaysSubset3 c rays t).startAz + (nthRaysSubset3 c rays t).numAz ∧
  (nthRaysSubset3 c rays t).startPolar ≤ p.polar ∧
  p.polar < (nthRaysSubset3 c rays t).startPolar + (nthRaysSubset3 c rays t).numPolar

/-- **C12** In the all-directions and direction-by-direction modes, for every cascade shape and every
pass: each ray of the pass is stored inside the allocated cascade, and each address of the cascade holds
exactly one ray of the pass (so no two rays share an address and nothing stays unwritten). -/
theorem C12_storage (c : RcCfg) (hv : c.Valid) (hm : c.mode ≠ .preaverage) (s : Casc2) (t : Nat) :
    (∀ p, InPass2 c (storageToRays c s) t p → probeLinearIndex c s p < cascadeEntries s) ∧
    (∀ a, a < cascadeEntries s → ∃ p, InPass2 c (storageToRays c s) t p ∧ probeLinearIndex c s p = a ∧
      ∀ q, InPass2 c (storageToRays c s) t q → probeLinearIndex c s q = a → q = p) := by
  have hp0 := hv.1
  cases hmode : c.mode with
  | preaverage => exact absurd hmode hm
  | all =>
    have key : ∀ p, InPass2 c (storageToRays c s) t p ↔ InStore2 s p := by
      intro p; simp only [InPass2, InStore2, storageToRays, nthRaysSubset, hmode]; omega
    have hidx : ∀ p, probeLinearIndex c s p = storageLinearIndex s p := by
      intro p; rw [probeLinearIndex_eq, hmode]
    constructor
    · intro p hp; rw [hidx]; exact storageLinearIndex_lt ((key p).1 hp)
    · intro a ha
      obtain ⟨p, hp, he⟩ := storageLinearIndex_surj ha
      refine ⟨p, (key p).2 hp, by rw [hidx]; exact he, ?_⟩
      intro q hq hqe
      rw [hidx] at hqe
      exact storageLinearIndex_inj ((key q).1 hq) hp (hqe.trans he.symm)
  | dirByDir =>
    have hdiv : s.dirs * c.p0rays / c.p0rays = s.dirs := Nat.mul_div_cancel _ hp0
    have key : ∀ p, InPass2 c (storageToRays c s) t p →
        InStore2 s { p with dir := p.dir - t * s.dirs } ∧ t * s.dirs ≤ p.dir ∧
        probeLinearIndex c s p = storageLinearIndex s { p with dir := p.dir - t * s.dirs } := by
      intro p hp
      simp only [InPass2, storageToRays, nthRaysSubset, hmode, hdiv] at hp
      obtain ⟨h1, h2, h3, h4, h5, h6⟩ := hp
      refine ⟨⟨h1, h2, by show p.dir - t * s.dirs < s.dirs; omega, h3, h4⟩, h5, ?_⟩
      rw [probeLinearIndex_eq]
      simp only [hmode, seg_mod h5 h6]
    constructor
    · intro p hp
      obtain ⟨h1, _, h3⟩ := key p hp
      rw [h3]; exact storageLinearIndex_lt h1
    · intro a ha
      obtain ⟨p, hp, he⟩ := storageLinearIndex_surj ha
      have hin : InPass2 c (storageToRays c s) t { p with dir := p.dir + t * s.dirs } := by
        obtain ⟨h1, h2, h3, h4, h5⟩ := hp
        simp only [InPass2, storageToRays, nthRaysSubset, hmode, hdiv]
        exact ⟨h1, h2, h4, h5, by omega, by omega⟩
      refine ⟨_, hin, ?_, ?_⟩
      · rw [(key _ hin).2.2]; simp only [Nat.add_sub_cancel]; exact he
      · intro q hq hqe
        obtain ⟨k1, k2, k3⟩ := key q hq
        rw [k3] at hqe
        have := storageLinearIndex_inj k1 hp (hqe.trans he.symm)
        rw [← this]
        obtain ⟨u, v, d, i, w⟩ := q
        have k2' : t * s.dirs ≤ d := k2
        simp only [ProbeIdx2.mk.injEq, true_and, and_true]
        omega

/-- **C12** In the pre-averaged mode each stored entry is shared by exactly one group of `2^branching`
consecutive directions of one probe, inclination and wavelength. -/
theorem C12_preaverage (c : RcCfg) (hm : c.mode = .preaverage) (s : Casc2) :
    (∀ p, InPass2 c (storageToRays c s) 0 p → probeLinearIndex c s p < cascadeEntries s) ∧
    (∀ p q, InPass2 c (storageToRays c s) 0 p → InPass2 c (storageToRays c s) 0 q →
      (probeLinearIndex c s p = probeLinearIndex c s q ↔
        p.u = q.u ∧ p.v = q.v ∧ p.incl = q.incl ∧ p.wave = q.wave ∧ p.dir / 2 ^ c.cbf = q.dir / 2 ^ c.cbf)) ∧
    (∀ a, a < cascadeEntries s → ∃ p, InPass2 c (storageToRays c s) 0 p ∧ probeLinearIndex c s p = a) := by
  have hk : 0 < 2 ^ c.cbf := by positivity
  have key : ∀ p, InPass2 c (storageToRays c s) 0 p → InStore2 s { p with dir := p.dir / 2 ^ c.cbf } := by
    intro p hp
    simp only [InPass2, storageToRays, nthRaysSubset, hm] at hp
    obtain ⟨h1, h2, h3, h4, h5, h6⟩ := hp
    exact ⟨h1, h2, (Nat.div_lt_iff_lt_mul hk).2 (by omega), h3, h4⟩
  have hidx : ∀ p, probeLinearIndex c s p = storageLinearIndex s { p with dir := p.dir / 2 ^ c.cbf } := by
    intro p; rw [probeLinearIndex_eq, hm]
  refine ⟨?_, ?_, ?_⟩
  · intro p hp; rw [hidx]; exact storageLinearIndex_lt (key p hp)
  · intro p q hp hq
    rw [hidx, hidx]
    constructor
    · intro h
      have := storageLinearIndex_inj (key p hp) (key q hq) h
      simp only [ProbeIdx2.mk.injEq] at this
      tauto
    · rintro ⟨h1, h2, h3, h4, h5⟩
      simp [h1, h2, h3, h4, h5]
  · intro a ha
    obtain ⟨p, hp, he⟩ := storageLinearIndex_surj ha
    refine ⟨{ p with dir := p.dir * 2 ^ c.cbf }, ?_, ?_⟩
    · obtain ⟨h1, h2, h3, h4, h5⟩ := hp
      simp only [InPass2, storageToRays, nthRaysSubset, hm]
      refine ⟨h1, h2, h4, h5, by omega, ?_⟩
      have := (Nat.mul_lt_mul_right hk).2 h3
      omega
    · rw [hidx]; simp only [Nat.mul_div_cancel _ hk]; exact he

/-- **C12** The ray shape used to compute a cascade and the storage shape used to allocate it agree in
every mode: converting the stored shape of cascade `n` to rays gives the computed shape, and converting
back loses nothing. -/
theorem C12_shapes_agree (c : RcCfg) (hv : c.Valid) (c0 : Casc2) (n : Nat) :
    cascadeComputeSize c c0 n = storageToRays c (cascadeSize c c0 n) ∧
    raysToStorage c (cascadeComputeSize c c0 n) = cascadeSize c c0 n := by
  obtain ⟨hp0, hnv⟩ := hv
  have h1 : cascadeComputeSize c c0 n = storageToRays c (cascadeSize c c0 n) := by
    cases hmode : c.mode <;> by_cases hvar : c.vary = true <;>
      simp_all [cascadeComputeSize, storageToRays, cascadeSize, numFlatRaysExponent]
    · ring
    · rw [mul_assoc, ← pow_add]; ring_nf
  refine ⟨h1, ?_⟩
  rw [h1]
  cases hmode : c.mode <;> simp [raysToStorage, storageToRays, hmode]
  rw [Nat.mul_div_cancel _ hp0]

/-- Non-vacuity: DexRT's default 2D configuration (4 rays, branching 2, direction by direction), cascade 1
of a 64x32 grid with 4 inclinations and batches of 8. -/
example : (⟨2, 1, 0, 4, .dirByDir⟩ : RcCfg).Valid ∧
    InPass2 ⟨2, 1, 0, 4, .dirByDir⟩ (storageToRays ⟨2, 1, 0, 4, .dirByDir⟩ ⟨32, 16, 4, 8, 4⟩) 2
      ⟨31, 15, 11, 3, 7⟩ := by
  refine ⟨⟨by decide, by decide⟩, by simp only [InPass2]; decide⟩

private theorem entries3_pos {s : Casc3} {a : Nat} (h : a < cascadeEntries3 s) :
    0 < s.az ∧ 0 < s.polar ∧ 0 < s.np0 ∧ 0 < s.np1 := by
  simp only [cascadeEntries3] at h
  refine ⟨?_, ?_, ?_, ?_⟩ <;> (apply Nat.pos_of_ne_zero; intro h0; simp [h0] at h)

/-- **C13** 3D cascades: for every cascade shape and pass, each ray of the pass is stored inside the
allocated cascade and each address holds exactly one ray of the pass. -/
theorem C13_storage (c : RcCfg3) (haz : 0 < c.c0az) (hpol : 0 < c.c0polar) (s : Casc3) (t : Nat) :
    (∀ p, InPass3 c (storageToRays3 c s) t p → probeLinearIndex3 c s p < cascadeEntries3 s) ∧
    (∀ a, a < cascadeEntries3 s → ∃ p, InPass3 c (storageToRays3 c s) t p ∧ probeLinearIndex3 c s p = a ∧
      ∀ q, InPass3 c (storageToRays3 c s) t q → probeLinearIndex3 c s q = a → q = p) := by
  -- start of the pass
  obtain ⟨A, P, hA⟩ : ∃ A P, ∀ p, InPass3 c (storageToRays3 c s) t p ↔
      (p.u < s.np0 ∧ p.v < s.np1 ∧ p.w < s.np2 ∧ A * s.az ≤ p.az ∧ p.az < A * s.az + s.az ∧
        P * s.polar ≤ p.polar ∧ p.polar < P * s.polar + s.polar) ∧ (c.dirByDir = false → A = 0 ∧ P = 0) := by
    by_cases hd : c.dirByDir = true
    · refine ⟨t - t / c.c0az * c.c0az, t / c.c0az, fun p => ?_⟩
      simp only [InPass3, storageToRays3, nthRaysSubset3, hd, if_true, Nat.mul_div_cancel _ haz,
        Nat.mul_div_cancel _ hpol]
      simp
    · refine ⟨0, 0, fun p => ?_⟩
      simp only [InPass3, storageToRays3, nthRaysSubset3, hd]
      simp
  have hidx : ∀ p, InPass3 c (storageToRays3 c s) t p → probeLinearIndex3 c s p =
      (p.az - A * s.az) + s.az * ((p.polar - P * s.polar) + s.polar * (p.u + s.np0 * (p.v + s.np1 * p.w))) := by
    intro p hp
    obtain ⟨⟨h1, h2, h3, h4, h5, h6, h7⟩, h8⟩ := (hA p).1 hp
    rw [probeLinearIndex3_nest]
    by_cases hd : c.dirByDir = true
    · simp only [hd, if_true, sub_div_mul, seg_mod h4 h5, seg_mod h6 h7]
    · obtain ⟨ha, hp⟩ := h8 (by simpa using hd)
      simp [hd, ha, hp]
  constructor
  · intro p hp
    rw [hidx p hp]
    obtain ⟨⟨h1, h2, h3, h4, h5, h6, h7⟩, h8⟩ := (hA p).1 hp
    refine lt_of_lt_of_eq (mix_lt (by omega) (mix_lt (by omega) (mix_lt h1 (mix_lt h2 h3)))) ?_
    simp only [cascadeEntries3]; ring
  · intro a ha
    obtain ⟨ha1, ha2, ha3, ha4⟩ := entries3_pos ha
    have hmem : InPass3 c (storageToRays3 c s) t
        ⟨a / s.az / s.polar % s.np0, a / s.az / s.polar / s.np0 % s.np1, a / s.az / s.polar / s.np0 / s.np1,
          a / s.az % s.polar + P * s.polar, a % s.az + A * s.az⟩ := by
      refine (hA _).2 ⟨⟨Nat.mod_lt _ ha3, Nat.mod_lt _ ha4, ?_, by simp, ?_, by simp, ?_⟩, ?_⟩
      · show a / s.az / s.polar / s.np0 / s.np1 < s.np2
        rw [Nat.div_div_eq_div_mul, Nat.div_div_eq_div_mul, Nat.div_div_eq_div_mul,
          Nat.div_lt_iff_lt_mul (by positivity)]
        calc a < _ := ha
          _ = _ := by simp only [cascadeEntries3]; ring
      · have := Nat.mod_lt a ha1; show a % s.az + A * s.az < _; omega
      · have := Nat.mod_lt (a / s.az) ha2; show a / s.az % s.polar + P * s.polar < _; omega
      · intro hd
        by_contra hcon
        apply hcon
        have := (hA ⟨0, 0, 0, P * s.polar, A * s.az⟩)
        have h0 : InPass3 c (storageToRays3 c s) t ⟨0, 0, 0, 0, 0⟩ := by
          have hnp2 : 0 < s.np2 := by
            apply Nat.pos_of_ne_zero; intro h0; simp [cascadeEntries3, h0] at ha
          simp [InPass3, storageToRays3, nthRaysSubset3, hd, ha1, ha2, ha3, ha4, hnp2]
        exact ((hA _).1 h0).2 hd
    refine ⟨_, hmem, ?_, ?_⟩
    · rw [hidx _ hmem]
      simp only [Nat.add_sub_cancel, Nat.mod_add_div]
    · intro q hq hqe
      rw [hidx q hq] at hqe
      obtain ⟨⟨h1, h2, h3, h4, h5, h6, h7⟩, _⟩ := (hA q).1 hq
      have e1 : a % s.az = q.az - A * s.az := by rw [← hqe, mix_mod (by omega)]
      have r1 : a / s.az = q.polar - P * s.polar + s.polar * (q.u + s.np0 * (q.v + s.np1 * q.w)) := by rw [← hqe, mix_div (show q.az - A * s.az < s.az by omega)]
      have e2 : a / s.az % s.polar = q.polar - P * s.polar := by rw [r1, mix_mod (by omega)]
      have r2 : a / s.az / s.polar = q.u + s.np0 * (q.v + s.np1 * q.w) := by
        rw [r1, mix_div (show q.polar - P * s.polar < s.polar by omega)]
      have e3 : a / s.az / s.polar % s.np0 = q.u := by rw [r2, mix_mod h1]
      have r3 : a / s.az / s.polar / s.np0 = q.v + s.np1 * q.w := by rw [r2, mix_div h1]
      have e4 : a / s.az / s.polar / s.np0 % s.np1 = q.v := by rw [r3, mix_mod h2]
      have e5 : a / s.az / s.polar / s.np0 / s.np1 = q.w := by rw [r3, mix_div h2]
      cases q
      simp only [ProbeIdx3.mk.injEq] at *
      omega

/-- **C13** The computed and stored shapes agree in 3D. -/
theorem C13_shapes_agree (c : RcCfg3) (haz : 0 < c.c0az) (hpol : 0 < c.c0polar) (c0 : Casc3) (n : Nat) :
    cascadeComputeSize3 c c0 n = storageToRays3 c (cascadeSize3 c.branch c0 n) ∧
    raysToStorage3 c (cascadeComputeSize3 c c0 n) = cascadeSize3 c.branch c0 n := by
  have h1 : cascadeComputeSize3 c c0 n = storageToRays3 c (cascadeSize3 c.branch c0 n) := by
    by_cases hd : c.dirByDir = true <;> simp [cascadeComputeSize3, storageToRays3, cascadeSize3, hd]
    constructor <;> ring
  refine ⟨h1, ?_⟩
  rw [h1]
  by_cases hd : c.dirByDir = true <;>
    simp [raysToStorage3, storageToRays3, hd, Nat.mul_div_cancel _ haz, Nat.mul_div_cancel _ hpol]

/-- Non-vacuity: 4x4 rays, branching exponents 1 and 1, direction by direction; cascade with 2x2
texel directions. -/
example : InPass3 ⟨.exp 1 1, 4, 4, true⟩ (storageToRays3 ⟨.exp 1 1, 4, 4, true⟩ ⟨8, 8, 8, 2, 2⟩) 6
    ⟨7, 0, 3, 3, 5⟩ := by simp only [InPass3]; decide

/-- **C14** 2D: every direction of a cascade is computed in exactly one of the passes. -/
theorem C14_partition2 (c : RcCfg) (hv : c.Valid) (s : Casc2) (d : Nat)
    (hd : d < (storageToRays c s).dirs) :
    ∃ t, (t < subsetTasks c ∧ (nthRaysSubset c (storageToRays c s) t).1 ≤ d ∧
        d < (nthRaysSubset c (storageToRays c s) t).1 + (nthRaysSubset c (storageToRays c s) t).2) ∧
      ∀ t', t' < subsetTasks c → (nthRaysSubset c (storageToRays c s) t').1 ≤ d →
        d < (nthRaysSubset c (storageToRays c s) t').1 + (nthRaysSubset c (storageToRays c s) t').2 → t' = t := by
  have hp0 := hv.1
  cases hmode : c.mode with
  | all =>
    simp only [storageToRays, hmode] at hd
    exact ⟨0, by simp [subsetTasks, nthRaysSubset, storageToRays, hmode, hd],
      by simp [subsetTasks, hmode]⟩
  | preaverage =>
    simp only [storageToRays, hmode] at hd
    exact ⟨0, by simp [subsetTasks, nthRaysSubset, storageToRays, hmode, hd],
      by simp [subsetTasks, hmode]⟩
  | dirByDir =>
    simp only [storageToRays, hmode] at hd
    have hdiv : s.dirs * c.p0rays / c.p0rays = s.dirs := Nat.mul_div_cancel _ hp0
    have hs : 0 < s.dirs := by
      rcases Nat.eq_zero_or_pos s.dirs with h0 | h0
      · simp [h0] at hd
      · exact h0
    simp only [subsetTasks, nthRaysSubset, storageToRays, hmode, hdiv]
    obtain ⟨h1, h2⟩ := seg_div (d := d) hs
    refine ⟨d / s.dirs, ⟨(Nat.div_lt_iff_lt_mul hs).2 (by rw [mul_comm]; exact hd), h1, h2⟩, ?_⟩
    intro t' _ h3 h4
    exact seg_unique h3 h4 h1 h2

/-- **C14** 3D: every (azimuth, polar) direction of a cascade is computed in exactly one pass. -/
theorem C14_partition3 (c : RcCfg3) (haz : 0 < c.c0az) (hpol : 0 < c.c0polar) (s : Casc3) (a p : Nat)
    (ha : a < (storageToRays3 c s).az) (hp : p < (storageToRays3 c s).polar) :
    let inSet := fun t => let r := nthRaysSubset3 c (storageToRays3 c s) t
      r.startAz ≤ a ∧ a < r.startAz + r.numAz ∧ r.startPolar ≤ p ∧ p < r.startPolar + r.numPolar
    ∃ t, (t < subsetTasks3 c ∧ inSet t) ∧ ∀ t', t' < subsetTasks3 c → inSet t' → t' = t := by
  intro inSet
  by_cases hd : c.dirByDir = true
  · simp only [storageToRays3, hd, if_true] at ha hp
    have hin : ∀ t, inSet t ↔ ((t - t / c.c0az * c.c0az) * s.az ≤ a ∧
        a < (t - t / c.c0az * c.c0az) * s.az + s.az ∧ t / c.c0az * s.polar ≤ p ∧
        p < t / c.c0az * s.polar + s.polar) := by
      intro t
      simp only [inSet, nthRaysSubset3, storageToRays3, hd, if_true, Nat.mul_div_cancel _ haz,
        Nat.mul_div_cancel _ hpol]
    have hs1 : 0 < s.az := by
      rcases Nat.eq_zero_or_pos s.az with h0 | h0
      · simp [h0] at ha
      · exact h0
    have hs2 : 0 < s.polar := by
      rcases Nat.eq_zero_or_pos s.polar with h0 | h0
      · simp [h0] at hp
      · exact h0
    obtain ⟨a1, a2⟩ := seg_div (d := a) hs1
    obtain ⟨p1, p2⟩ := seg_div (d := p) hs2
    have ea : a / s.az < c.c0az := (Nat.div_lt_iff_lt_mul hs1).2 (by rw [mul_comm]; exact ha)
    have ep : p / s.polar < c.c0polar := (Nat.div_lt_iff_lt_mul hs2).2 (by rw [mul_comm]; exact hp)
    have em : (a / s.az + c.c0az * (p / s.polar)) / c.c0az = p / s.polar := mix_div ea
    have em2 : (a / s.az + c.c0az * (p / s.polar)) % c.c0az = a / s.az := mix_mod ea
    refine ⟨a / s.az + c.c0az * (p / s.polar), ⟨?_, ?_⟩, ?_⟩
    · simp only [subsetTasks3, hd, if_true]; exact mix_lt ea ep
    · rw [hin, sub_div_mul, em, em2]; exact ⟨a1, a2, p1, p2⟩
    · intro t' _ h
      rw [hin, sub_div_mul] at h
      obtain ⟨h1, h2, h3, h4⟩ := h
      rw [← seg_unique h1 h2 a1 a2, ← seg_unique h3 h4 p1 p2]
      exact (Nat.mod_add_div t' c.c0az).symm
  · have hd' : c.dirByDir = false := by simpa using hd
    simp only [storageToRays3, hd'] at ha hp
    refine ⟨0, ⟨by simp [subsetTasks3, hd'], ?_⟩, ?_⟩
    · simp only [inSet, nthRaysSubset3, storageToRays3, hd']; simp; exact ⟨ha, hp⟩
    · intro t' ht' _; simp [subsetTasks3, hd'] at ht'; exact ht'

/-- Directions of cascade `n` in the ray view. -/
private theorem dirs_eq (c : RcCfg) (hv : c.Valid) (c0 : Casc2) (n : Nat) :
    (cascadeComputeSize c c0 n).dirs = (storageToRays c (cascadeSize c c0 n)).dirs := by
  rw [(C12_shapes_agree c hv c0 n).1]

theorem texels_eq (c : RcCfg) (hm : c.mode ≠ .preaverage) (n : Nat) :
    upperTexelsPerRay c n =
      2 ^ (if c.vary then (if n + 1 < c.switch then c.cbf else c.ubf) else c.cbf) := by
  cases hmode : c.mode with
  | preaverage => exact absurd hmode hm
  | all => simp only [upperTexelsPerRay, hmode]; split <;> (try split) <;> rfl
  | dirByDir => simp only [upperTexelsPerRay, hmode]; split <;> (try split) <;> rfl

theorem upperIdx_eq (c : RcCfg) (d n : Nat) : upperRayIdx c d n =
    d * 2 ^ (if c.vary then (if n + 1 < c.switch then c.cbf else c.ubf) else c.cbf) := by
  simp only [upperRayIdx]; split <;> (try split) <;> rfl

theorem upper_dirs (c : RcCfg) (hv : c.Valid) (hm : c.mode ≠ .preaverage) (c0 : Casc2) (n : Nat) :
    (cascadeComputeSize c c0 (n + 1)).dirs = (cascadeComputeSize c c0 n).dirs * upperTexelsPerRay c n := by
  rw [dirs_eq c hv, dirs_eq c hv, texels_eq c hm]
  cases hmode : c.mode with
  | preaverage => exact absurd hmode hm
  | all => simp only [storageToRays, hmode, cascadeSize, exponent_succ, pow_add]; ring
  | dirByDir => simp only [storageToRays, hmode, cascadeSize, exponent_succ, pow_add]; ring

/-- **C14** 2D: all the upper-cascade rays a ray merges with belong to the same pass as the ray, for every
cascade and configuration (including a change of branching factor). -/
theorem C14_children_in_pass2 (c : RcCfg) (hv : c.Valid) (hm : c.mode ≠ .preaverage) (c0 : Casc2)
    (n t d k : Nat)
    (hd : (nthRaysSubset c (cascadeComputeSize c c0 n) t).1 ≤ d ∧
      d < (nthRaysSubset c (cascadeComputeSize c c0 n) t).1 + (nthRaysSubset c (cascadeComputeSize c c0 n) t).2)
    (hk : k < upperTexelsPerRay c n) :
    (nthRaysSubset c (cascadeComputeSize c c0 (n + 1)) t).1 ≤ upperRayIdx c d n + k ∧
    upperRayIdx c d n + k < (nthRaysSubset c (cascadeComputeSize c c0 (n + 1)) t).1 +
      (nthRaysSubset c (cascadeComputeSize c c0 (n + 1)) t).2 := by
  have hu := upper_dirs c hv hm c0 n
  rw [upperIdx_eq, ← texels_eq c hm]
  generalize upperTexelsPerRay c n = T at *
  cases hmode : c.mode with
  | preaverage => exact absurd hmode hm
  | all =>
    simp only [nthRaysSubset, hmode] at hd ⊢
    rw [hu]
    refine ⟨by omega, ?_⟩
    calc d * T + k < d * T + T := by omega
      _ = (d + 1) * T := by ring
      _ ≤ (cascadeComputeSize c c0 n).dirs * T := Nat.mul_le_mul_right _ (by omega)
      _ = 0 + (cascadeComputeSize c c0 n).dirs * T := by omega
  | dirByDir =>
    have hp0 := hv.1
    have e1 : ∀ m, (cascadeComputeSize c c0 m).dirs = (cascadeSize c c0 m).dirs * c.p0rays := by
      intro m; rw [dirs_eq c hv]; simp only [storageToRays, hmode]
    have e2 : ∀ m, (cascadeComputeSize c c0 m).dirs / c.p0rays = (cascadeSize c c0 m).dirs := by
      intro m; rw [e1, Nat.mul_div_cancel _ hp0]
    have e3 : (cascadeSize c c0 (n + 1)).dirs = (cascadeSize c c0 n).dirs * T := by
      rw [e1, e1] at hu
      apply Nat.eq_of_mul_eq_mul_right hp0
      rw [hu]; ring
    simp only [nthRaysSubset, hmode, e2] at hd ⊢
    rw [e3]
    generalize (cascadeSize c c0 n).dirs = D at *
    obtain ⟨h1, h2⟩ := hd
    constructor
    · calc t * (D * T) = t * D * T := by ring
        _ ≤ d * T := Nat.mul_le_mul_right _ h1
        _ ≤ d * T + k := by omega
    · calc d * T + k < d * T + T := by omega
        _ = (d + 1) * T := by ring
        _ ≤ (t * D + D) * T := Nat.mul_le_mul_right _ h2
        _ = t * (D * T) + D * T := by ring

/-- **C15** 2D: every ray of cascade `n+1` is one of the rays averaged by exactly one ray of cascade `n`,
and the rays averaged by a ray of cascade `n` all exist in cascade `n+1`. -/
theorem C15_children2 (c : RcCfg) (hv : c.Valid) (hm : c.mode ≠ .preaverage) (c0 : Casc2) (n : Nat) :
    (∀ e, e < (cascadeComputeSize c c0 (n + 1)).dirs →
      ∃ d, (d < (cascadeComputeSize c c0 n).dirs ∧ upperRayIdx c d n ≤ e ∧
          e < upperRayIdx c d n + upperTexelsPerRay c n) ∧
        ∀ d', upperRayIdx c d' n ≤ e → e < upperRayIdx c d' n + upperTexelsPerRay c n → d' = d) ∧
    (∀ d k, d < (cascadeComputeSize c c0 n).dirs → k < upperTexelsPerRay c n →
      upperRayIdx c d n + k < (cascadeComputeSize c c0 (n + 1)).dirs) := by
  have hu := upper_dirs c hv hm c0 n
  have hT : 0 < upperTexelsPerRay c n := by rw [texels_eq c hm]; positivity
  have hi : ∀ d, upperRayIdx c d n = d * upperTexelsPerRay c n := by
    intro d; rw [upperIdx_eq, texels_eq c hm]
  simp only [hi]
  generalize upperTexelsPerRay c n = T at *
  rw [hu]
  constructor
  · intro e he
    obtain ⟨h1, h2⟩ := seg_div (d := e) hT
    refine ⟨e / T, ⟨(Nat.div_lt_iff_lt_mul hT).2 he, h1, h2⟩, ?_⟩
    intro d' h3 h4
    exact seg_unique h3 h4 h1 h2
  · intro d k hd hk
    calc d * T + k < d * T + T := by omega
      _ = (d + 1) * T := by ring
      _ ≤ (cascadeComputeSize c c0 n).dirs * T := Nat.mul_le_mul_right _ hd

/-- **C15** In the pre-averaged mode ray `d` of cascade `n` reads exactly stored entry `d` of cascade
`n+1`, and the stored entries of `n+1` are as many as the rays of `n`. -/
theorem C15_preaverage (c : RcCfg) (hv : c.Valid) (hm : c.mode = .preaverage) (c0 : Casc2) (n d : Nat) :
    upperTexelsPerRay c n = 1 ∧ upperRayIdx c d n / 2 ^ c.cbf = d ∧
    (cascadeSize c c0 (n + 1)).dirs = (cascadeComputeSize c c0 n).dirs := by
  have hvar : c.vary = false := by
    have := hv.2; simp [hm] at this; exact this
  refine ⟨by simp [upperTexelsPerRay, hm], ?_, ?_⟩
  · simp only [upperRayIdx, hvar]; simp
  · simp [cascadeSize, cascadeComputeSize, hvar, hm, numFlatRaysExponent]

private theorem upperStart_ok {i D T : Nat} (hD : i < D) (h : i * (D * T) ≤ 2147483647) :
    upperStart3 i (D * T) D = .ok ((i * T : Nat) : Int) := by
  have hf : fitsI32 ((i : Int) * ((D * T : Nat) : Int)) = true := by
    rw [fitsI32_iff]
    have h1 : ((i * (D * T) : Nat) : Int) ≤ 2147483647 := by exact_mod_cast h
    have h2 : (0 : Int) ≤ ((i * (D * T) : Nat) : Int) := Int.natCast_nonneg _
    rw [Nat.cast_mul] at h1 h2
    omega
  simp only [upperStart3, mulI32, hf, if_true, Outcome.ok_bind]
  have e : (i : Int) * ((D * T : Nat) : Int) = ((i * T : Nat) : Int) * (D : Int) := by
    push_cast; ring
  rw [e, Int.mul_tdiv_cancel]
  have : 0 < D := by omega
  omega

/-- **C42** (partial: without the overflow hypotheses it is false, see `C42_overflow3_refuted`) 3D: as long as the 32-bit products of ray indices and upper ray counts do not overflow, ray
(azimuth `a`, polar `p`) of cascade `n` averages the block of upper rays starting at
`(a * texels.az, p * texels.polar)`; these blocks partition the rays of cascade `n+1`. -/
theorem C42_children3_partial (c : RcCfg3) (s0 : Casc3) (n : Nat)
    (hta : 0 < (upperTexels3 c.branch).1) :
    let lo := cascadeSize3 c.branch s0 n
    let up := cascadeSize3 c.branch s0 (n + 1)
    (∀ a, a < lo.az → a * up.az ≤ 2147483647 →
      upperStart3 a up.az lo.az = .ok ((a * (upperTexels3 c.branch).1 : Nat) : Int)) ∧
    (∀ p, p < lo.polar → p * up.polar ≤ 2147483647 →
      upperStart3 p up.polar lo.polar = .ok ((p * (upperTexels3 c.branch).2 : Nat) : Int)) ∧
    (∀ e, e < up.az → ∃ a, (a < lo.az ∧ a * (upperTexels3 c.branch).1 ≤ e ∧
        e < a * (upperTexels3 c.branch).1 + (upperTexels3 c.branch).1) ∧
      ∀ a', a' * (upperTexels3 c.branch).1 ≤ e →
        e < a' * (upperTexels3 c.branch).1 + (upperTexels3 c.branch).1 → a' = a) ∧
    (∀ e, e < up.polar → ∃ p, (p < lo.polar ∧ p * (upperTexels3 c.branch).2 ≤ e ∧
        e < p * (upperTexels3 c.branch).2 + (upperTexels3 c.branch).2) ∧
      ∀ p', p' * (upperTexels3 c.branch).2 ≤ e →
        e < p' * (upperTexels3 c.branch).2 + (upperTexels3 c.branch).2 → p' = p) := by
  intro lo up
  have e1 : up.az = lo.az * (upperTexels3 c.branch).1 := by
    simp only [up, lo, cascadeSize3, azFactor_succ]; ring
  have e2 : up.polar = lo.polar * (upperTexels3 c.branch).2 := by
    simp only [up, lo, cascadeSize3, polarFactor_succ]; ring
  refine ⟨?_, ?_, ?_, ?_⟩
  · intro a ha hb; rw [e1] at hb ⊢; exact upperStart_ok ha hb
  · intro a ha hb; rw [e2] at hb ⊢; exact upperStart_ok ha hb
  · intro e he
    rw [e1] at he
    obtain ⟨h1, h2⟩ := seg_div (d := e) hta
    exact ⟨e / _, ⟨(Nat.div_lt_iff_lt_mul hta).2 he, h1, h2⟩, fun a' h3 h4 => seg_unique h3 h4 h1 h2⟩
  · intro e he
    rw [e2] at he
    have hT : 0 < (upperTexels3 c.branch).2 := by
      rcases Nat.eq_zero_or_pos (upperTexels3 c.branch).2 with h0 | h0
      · rw [h0] at he; omega
      · exact h0
    obtain ⟨h1, h2⟩ := seg_div (d := e) hT
    exact ⟨e / _, ⟨(Nat.div_lt_iff_lt_mul hT).2 he, h1, h2⟩, fun a' h3 h4 => seg_unique h3 h4 h1 h2⟩

/-- **C14** 3D: all the upper-cascade rays a ray merges with belong to the same pass as the ray. -/
theorem C14_children_in_pass3 (c : RcCfg3) (haz : 0 < c.c0az) (hpol : 0 < c.c0polar) (s0 : Casc3)
    (n t a p i j : Nat) (hi : i < (upperTexels3 c.branch).1) (hj : j < (upperTexels3 c.branch).2)
    (h : let r := nthRaysSubset3 c (cascadeComputeSize3 c s0 n) t
      r.startAz ≤ a ∧ a < r.startAz + r.numAz ∧ r.startPolar ≤ p ∧ p < r.startPolar + r.numPolar) :
    let r := nthRaysSubset3 c (cascadeComputeSize3 c s0 (n + 1)) t
    let a' := a * (upperTexels3 c.branch).1 + i
    let p' := p * (upperTexels3 c.branch).2 + j
    r.startAz ≤ a' ∧ a' < r.startAz + r.numAz ∧ r.startPolar ≤ p' ∧ p' < r.startPolar + r.numPolar := by
  have step : ∀ t D T d k : Nat, k < T → t * D ≤ d → d < t * D + D →
      t * (D * T) ≤ d * T + k ∧ d * T + k < t * (D * T) + D * T := by
    intro t D T d k hk h1 h2
    constructor
    · calc t * (D * T) = t * D * T := by ring
        _ ≤ d * T := Nat.mul_le_mul_right _ h1
        _ ≤ d * T + k := by omega
    · calc d * T + k < d * T + T := by omega
        _ = (d + 1) * T := by ring
        _ ≤ (t * D + D) * T := Nat.mul_le_mul_right _ h2
        _ = t * (D * T) + D * T := by ring
  have e1 : (cascadeSize3 c.branch s0 (n + 1)).az = (cascadeSize3 c.branch s0 n).az * (upperTexels3 c.branch).1 := by
    simp only [cascadeSize3, azFactor_succ]; ring
  have e2 : (cascadeSize3 c.branch s0 (n + 1)).polar =
      (cascadeSize3 c.branch s0 n).polar * (upperTexels3 c.branch).2 := by
    simp only [cascadeSize3, polarFactor_succ]; ring
  rw [(C13_shapes_agree c haz hpol s0 n).1] at h
  rw [(C13_shapes_agree c haz hpol s0 (n + 1)).1]
  by_cases hd : c.dirByDir = true
  · simp only [storageToRays3, nthRaysSubset3, hd, if_true, Nat.mul_div_cancel _ haz,
      Nat.mul_div_cancel _ hpol, e1, e2] at h ⊢
    obtain ⟨h1, h2, h3, h4⟩ := h
    obtain ⟨g1, g2⟩ := step _ _ _ _ _ hi h1 h2
    obtain ⟨g3, g4⟩ := step _ _ _ _ _ hj h3 h4
    exact ⟨g1, g2, g3, g4⟩
  · have hd' : c.dirByDir = false := by simpa using hd
    simp only [storageToRays3, nthRaysSubset3, hd', e1, e2] at h ⊢
    simp only [Bool.false_eq_true, if_false] at h ⊢
    obtain ⟨h1, h2, h3, h4⟩ := h
    obtain ⟨g1, g2⟩ := step 0 _ _ a _ hi (by omega) (show a < 0 * (cascadeSize3 c.branch s0 n).az + _ by omega)
    obtain ⟨g3, g4⟩ := step 0 _ _ p _ hj (by omega) (show p < 0 * (cascadeSize3 c.branch s0 n).polar + _ by omega)
    rw [Nat.zero_mul] at g1 g2 g3 g4
    rw [← e1] at g2
    rw [← e2] at g4
    exact ⟨g1, g2, g3, g4⟩

/-- **C42** is false in 3D for deep cascades: with DexRT's default Healpix quadrature (12 rays, order 1)
merging cascade 6 with cascade 7 overflows a 32-bit product for the last ray of cascade 6. -/
theorem C42_overflow3_refuted : let b := Branch3.healpix 1
    let lo := cascadeSize3 b ⟨128, 128, 128, 12, 1⟩ 6
    let up := cascadeSize3 b ⟨128, 128, 128, 12, 1⟩ 7
    lo.az - 1 < lo.az ∧ upperStart3 (lo.az - 1) up.az lo.az = .ub := by
  decide +kernel

/-- Non-vacuity for the 3D theorems: default Healpix configuration, cascades 0 to 6 never overflow. -/
example : ∀ n, n ≤ 5 → ∀ a, a < (cascadeSize3 (.healpix 1) ⟨128, 128, 128, 12, 1⟩ n).az →
    a * (cascadeSize3 (.healpix 1) ⟨128, 128, 128, 12, 1⟩ (n + 1)).az ≤ 2147483647 := by
  intro n hn a ha
  interval_cases n <;> (simp only [cascadeSize3, azFactor] at *; omega)

end DexRT
