import Verif.Lemmas.FormalSol
import Verif.Props.RcStorage
/-! Helper lemmas for the 2D formal solution: one cascade. -/
namespace DexRT.Fs
open DexRT

variable {K : Type} [Field K] [CharZero K]

theorem np_probesOn (c : RcCfg) (c0 : Casc2) (n : Nat) :
    (cascadeSize c c0 n).np0 = probesOn c0.np0 n ∧ (cascadeSize c c0 n).np1 = probesOn c0.np1 n := by
  simp [cascadeSize, probesOn, Nat.shiftRight_eq_div_pow]

theorem upperRayIdx_eq (c : RcCfg) (hm : c.mode ≠ .preaverage) (d n : Nat) :
    upperRayIdx c d n = d * upperTexelsPerRay c n := by
  unfold upperRayIdx upperTexelsPerRay
  cases h : c.mode with
  | preaverage => exact absurd h hm
  | all => simp only; split <;> (try split) <;> rfl
  | dirByDir => simp only; split <;> (try split) <;> rfl

theorem texels_pos (c : RcCfg) (n : Nat) : 0 < upperTexelsPerRay c n := by
  unfold upperTexelsPerRay
  split
  · norm_num
  · split <;> (try split) <;> positivity

/-- the value of ray `p` of cascade `n` -/
def val2 (e : Env2 K) (n : Nat) (p : ProbeIdx2) : K :=
  radiance2 e.march e.c0.np0 e.c0.np1 (upperTexelsPerRay e.cfg) e.num (e.num - n) p

/-- a ray of pass `t` of cascade `n` -/
abbrev Pass2 (e : Env2 K) (t n : Nat) (p : ProbeIdx2) : Prop :=
  InPass2 e.cfg (cascadeComputeSize e.cfg e.c0 n) t p

omit [CharZero K] in
theorem child_pass (e : Env2 K) (hv : e.cfg.Valid) (hm : e.cfg.mode ≠ .preaverage) {t n : Nat} {p : ProbeIdx2}
    (hp : Pass2 e t n p) {U V r : Nat} (hU : U < probesOn e.c0.np0 (n + 1)) (hV : V < probesOn e.c0.np1 (n + 1))
    (hr : r < upperTexelsPerRay e.cfg n) :
    Pass2 e t (n + 1) { u := U, v := V, dir := upperRayIdx e.cfg p.dir n + r, incl := p.incl, wave := p.wave } := by
  obtain ⟨h1, h2, h3, h4, h5, h6⟩ := hp
  have := C14_children_in_pass2 e.cfg hv hm e.c0 n t p.dir r ⟨h5, h6⟩ hr
  have hs := C12_shapes_agree e.cfg hv e.c0 (n + 1)
  have hn := np_probesOn e.cfg e.c0 (n + 1)
  refine ⟨?_, ?_, ?_, ?_, this.1, this.2⟩
  · have : (cascadeComputeSize e.cfg e.c0 (n + 1)).np0 = (cascadeSize e.cfg e.c0 (n + 1)).np0 := by
      rw [hs.1]; rfl
    rw [this, hn.1]; exact hU
  · have : (cascadeComputeSize e.cfg e.c0 (n + 1)).np1 = (cascadeSize e.cfg e.c0 (n + 1)).np1 := by
      rw [hs.1]; rfl
    rw [this, hn.2]; exact hV
  · exact h3
  · exact h4

omit [CharZero K] in
theorem lin_lt (e : Env2 K) (hv : e.cfg.Valid) (hm : e.cfg.mode ≠ .preaverage) {t n : Nat} {p : ProbeIdx2}
    (hp : Pass2 e t n p) : probeLinearIndex e.cfg (cascadeSize e.cfg e.c0 n) p <
      cascadeEntries (cascadeSize e.cfg e.c0 n) := by
  have hs := (C12_shapes_agree e.cfg hv e.c0 n).1
  exact (C12_storage e.cfg hv hm (cascadeSize e.cfg e.c0 n) t).1 p (by rw [← hs]; exact hp)

omit [CharZero K] in
theorem lin_inj (e : Env2 K) (hv : e.cfg.Valid) (hm : e.cfg.mode ≠ .preaverage) {t n : Nat} {p q : ProbeIdx2}
    (hp : Pass2 e t n p) (hq : Pass2 e t n q)
    (h : probeLinearIndex e.cfg (cascadeSize e.cfg e.c0 n) p = probeLinearIndex e.cfg (cascadeSize e.cfg e.c0 n) q) :
    p = q := by
  have hs := (C12_shapes_agree e.cfg hv e.c0 n).1
  obtain ⟨r, -, -, hr⟩ := (C12_storage e.cfg hv hm (cascadeSize e.cfg e.c0 n) t).2 _ (lin_lt e hv hm hp)
  rw [hr p (by rw [← hs]; exact hp) rfl, hr q (by rw [← hs]; exact hq) h.symm]

/-- the upper buffer holds cascade `n` of the pass -/
def Holds2 (e : Env2 K) (t waves n : Nat) (buf : List K) : Prop :=
  ∀ p, Listed2 e n p.u p.v → p.wave < waves → Pass2 e t n p →
    buf[probeLinearIndex e.cfg (cascadeSize e.cfg e.c0 n) p]? = some (val2 e n p)

theorem sum_map_range {M : Type} [AddCommMonoid M] (n : Nat) (f : Nat → M) :
    ((List.range n).map f).sum = ∑ i ∈ Finset.range n, f i := by
  induction n with
  | zero => simp
  | succ n ih => rw [List.range_succ, Finset.sum_range_succ, List.map_append, List.sum_append, ih]; simp

theorem interp2_ok (e : Env2 K) (hv : e.cfg.Valid) (hm : e.cfg.mode ≠ .preaverage) (hp : Probes2Ok e)
    {t waves n : Nat} (hn : n < e.num) {p : ProbeIdx2} (hl : Listed2 e n p.u p.v) (hw : p.wave < waves)
    (hpass : Pass2 e t n p) (upper : List K) (hlen : cascadeEntries (cascadeSize e.cfg e.c0 (n + 1)) ≤ upper.length)
    (hold : Holds2 e t waves (n + 1) upper) :
    interp2 e n p upper = .ok
      (∑ U ∈ Finset.range (probesOn e.c0.np0 (n + 1)), ∑ V ∈ Finset.range (probesOn e.c0.np1 (n + 1)),
        ((axisWeight (probesOn e.c0.np0 (n + 1)) p.u U * axisWeight (probesOn e.c0.np1 (n + 1)) p.v V : ℚ) : K) *
          ((∑ r ∈ Finset.range (upperTexelsPerRay e.cfg n), val2 e (n + 1)
            { p with u := U, v := V, dir := p.dir * upperTexelsPerRay e.cfg n + r }) /
              (upperTexelsPerRay e.cfg n : K))) := by
  have hnp := np_probesOn e.cfg e.c0 (n + 1)
  have hu0 : p.u < probesOn e.c0.np0 n := by
    have := hpass.1
    rw [(C12_shapes_agree e.cfg hv e.c0 n).1] at this
    rw [← (np_probesOn e.cfg e.c0 n).1]; exact this
  have hv0 : p.v < probesOn e.c0.np1 n := by
    have := hpass.2.1
    rw [(C12_shapes_agree e.cfg hv e.c0 n).1] at this
    rw [← (np_probesOn e.cfg e.c0 n).2]; exact this
  have hcu := cornerN_lt hu0
  have hcv := cornerN_lt hv0
  have hcu2 := corner2_lt hcu
  have hcv2 := corner2_lt hcv
  set Nu := probesOn e.c0.np0 (n + 1) with hNu
  set Nv := probesOn e.c0.np1 (n + 1) with hNv
  set T := upperTexelsPerRay e.cfg n with hT
  -- the value and weight of each of the four samples
  let q : Nat → Nat → Nat → ProbeIdx2 := fun U V r =>
    { u := U, v := V, dir := upperRayIdx e.cfg p.dir n + r, incl := p.incl, wave := p.wave }
  have term : ∀ (k : Nat) (U V : Nat) (w : ℚ), bilinearSample (p.u : Int) (p.v : Int) (Nu : Int) (Nv : Int) k =
      (((U : Int), (V : Int)), w) → U < Nu → V < Nv →
      (w ≠ 0 → axisWeight Nu p.u U ≠ 0 ∧ axisWeight Nv p.v V ≠ 0) → ∀ r, r < T →
      upperTerm2 e n p upper k r = .ok (1 / (T : K) * (w : K) * val2 e (n + 1) (q U V r)) := by
    intro k U V w hs hU hV hne r hr
    have hq : Pass2 e t (n + 1) (q U V r) := child_pass e hv hm hpass hU hV hr
    have hlin := lin_lt e hv hm hq
    unfold upperTerm2
    simp only [hnp.1, hnp.2]
    rw [hs]
    simp only
    rw [if_pos ⟨by omega, by omega⟩, Int.toNat_natCast, Int.toNat_natCast]
    have hget : upper[probeLinearIndex e.cfg (cascadeSize e.cfg e.c0 (n + 1)) (q U V r)]? =
        some (upper[probeLinearIndex e.cfg (cascadeSize e.cfg e.c0 (n + 1)) (q U V r)]'(by omega)) :=
      List.getElem?_eq_getElem _
    rw [readAt_ok hget, Outcome.ok_bind]
    by_cases hw0 : w = 0
    · subst hw0; simp
    · obtain ⟨a1, a2⟩ := hne hw0
      have := hold (q U V r) (hp.closed n hn p.u p.v hl U V hU hV a1 a2) hw hq
      rw [hget] at this
      injection this with this
      rw [this]
  have f1 : ∀ (w w' : ℚ), w * w' ≠ 0 → w ≠ 0 ∧ w' ≠ 0 := fun w w' h => ⟨left_ne_zero_of_mul h, right_ne_zero_of_mul h⟩
  have hfu : 1 - fracN p.u ≠ 0 → fracN p.u ≠ 1 := fun h h' => h (by rw [h']; norm_num)
  have hfv : 1 - fracN p.v ≠ 0 → fracN p.v ≠ 1 := fun h h' => h (by rw [h']; norm_num)
  have bil := bilinear_nat p.u p.v Nu Nv hcu hcv
  have t0 := term 0 (cornerN p.u) (cornerN p.v) (fracN p.u * fracN p.v) (bil 0) hcu hcv
    (fun h => ⟨axisWeight_corner hcu, axisWeight_corner hcv⟩)
  have t1 := term 1 (corner2 Nu p.u) (cornerN p.v) ((1 - fracN p.u) * fracN p.v) (bil 1) hcu2 hcv
    (fun h => ⟨axisWeight_corner2 hcu (hfu (f1 _ _ h).1), axisWeight_corner hcv⟩)
  have t2 := term 2 (cornerN p.u) (corner2 Nv p.v) (fracN p.u * (1 - fracN p.v)) (bil 2) hcu hcv2
    (fun h => ⟨axisWeight_corner hcu, axisWeight_corner2 hcv (hfv (f1 _ _ h).2)⟩)
  have t3 := term 3 (corner2 Nu p.u) (corner2 Nv p.v) ((1 - fracN p.u) * (1 - fracN p.v)) (bil 3) hcu2 hcv2
    (fun h => ⟨axisWeight_corner2 hcu (hfu (f1 _ _ h).1), axisWeight_corner2 hcv (hfv (f1 _ _ h).2)⟩)
  let S : Nat → Nat → K := fun U V => (∑ r ∈ Finset.range T, val2 e (n + 1)
    { p with u := U, v := V, dir := p.dir * T + r }) / (T : K)
  have hS : ∀ (U V : Nat) (w : K), ((List.range T).map fun r => 1 / (T : K) * w * val2 e (n + 1) (q U V r)).sum =
      w * S U V := by
    intro U V w
    rw [sum_map_range]
    simp only [S]
    simp only [q, upperRayIdx_eq e.cfg hm]
    rw [← Finset.mul_sum, ← hT]
    ring
  unfold interp2
  rw [sumLoop_ok _ (fun kr : Nat × Nat => match kr.1 with
    | 0 => 1 / (T : K) * ((fracN p.u * fracN p.v : ℚ) : K) * val2 e (n + 1) (q (cornerN p.u) (cornerN p.v) kr.2)
    | 1 => 1 / (T : K) * (((1 - fracN p.u) * fracN p.v : ℚ) : K) *
        val2 e (n + 1) (q (corner2 Nu p.u) (cornerN p.v) kr.2)
    | 2 => 1 / (T : K) * ((fracN p.u * (1 - fracN p.v) : ℚ) : K) *
        val2 e (n + 1) (q (cornerN p.u) (corner2 Nv p.v) kr.2)
    | _ => 1 / (T : K) * (((1 - fracN p.u) * (1 - fracN p.v) : ℚ) : K) *
        val2 e (n + 1) (q (corner2 Nu p.u) (corner2 Nv p.v) kr.2))]
  · congr 1
    have h4 : List.range 4 = [0, 1, 2, 3] := rfl
    rw [h4]
    simp only [List.flatMap_cons, List.flatMap_nil, List.append_nil, List.map_append, List.map_map, List.sum_append,
      Function.comp_def, zero_add]
    rw [hS, hS, hS, hS]
    have inner : ∀ U, ∑ V ∈ Finset.range Nv, ((axisWeight Nu p.u U * axisWeight Nv p.v V : ℚ) : K) * S U V =
        (axisWeight Nu p.u U : K) * ∑ V ∈ Finset.range Nv, (axisWeight Nv p.v V : K) * S U V := by
      intro U
      rw [Finset.mul_sum]
      exact Finset.sum_congr rfl fun V _ => by push_cast; ring
    show _ = ∑ U ∈ Finset.range Nu, ∑ V ∈ Finset.range Nv,
      ((axisWeight Nu p.u U * axisWeight Nv p.v V : ℚ) : K) * S U V
    simp only [inner]
    rw [axis_sum Nu p.u hcu, axis_sum Nv p.v hcv, axis_sum Nv p.v hcv]
    push_cast
    ring
  · intro kr hkr
    simp only [List.mem_flatMap, List.mem_range, List.mem_map] at hkr
    obtain ⟨k, hk, r, hr, rfl⟩ := hkr
    rw [← hT] at hr
    simp only
    match k, hk with
    | 0, _ => exact t0 r hr
    | 1, _ => exact t1 r hr
    | 2, _ => exact t2 r hr
    | 3, _ => exact t3 r hr

/-- the ray an iteration computes -/
def probeOf (e : Env2 K) (n t : Nat) (u v : Nat) (it : JIter) : ProbeIdx2 :=
  { u := u, v := v, dir := it.phi + (nthRaysSubset e.cfg (cascadeComputeSize e.cfg e.c0 n) t).1,
    incl := it.theta, wave := it.wave }

omit [CharZero K] in
theorem rpt_one (c : RcCfg) (hm : c.mode ≠ .preaverage) : raysPerTexel c = 1 := by
  unfold raysPerTexel
  cases h : c.mode with
  | preaverage => exact absurd h hm
  | all => rfl
  | dirByDir => rfl

omit [CharZero K] in
theorem body2_eq (e : Env2 K) (hm : e.cfg.mode ≠ .preaverage) (bc : Bool) (n t : Nat) (ip : Option Nat)
    (bufs : List (List K)) (it : JIter) (u v : Nat) (hc : (e.probes n).coord it.k = .ok { x := u, z := v })
    (upper : Option (List K)) (hup : ∀ j, ip = some j → ∃ b, bufs[j]? = some b ∧ upper = some b)
    (hnone : ip = none → upper = none) (I psi : K)
    (h : marchMerge2 e bc n upper (probeOf e n t u v it) = .ok (I, psi)) :
    body2 e bc n t ip bufs it =
      .ok (probeLinearIndex e.cfg (cascadeSize e.cfg e.c0 n) (probeOf e n t u v it), I, psi) := by
  unfold body2
  rw [hc, Outcome.ok_bind]
  simp only
  rw [if_pos ⟨by omega, by omega⟩]
  have hupper : readUpper bufs ip = .ok upper := by
    unfold readUpper
    cases ip with
    | none => rw [hnone rfl]
    | some j =>
      obtain ⟨b, hb, hu⟩ := hup j rfl
      simp only
      rw [readAt_ok hb, hu]; rfl
  rw [hupper, Outcome.ok_bind, rpt_one e.cfg hm]
  have hr : List.range 1 = [0] := rfl
  rw [hr]
  simp only [Int.toNat_natCast, Nat.mul_one, Nat.add_zero]
  show (do
    let avg ← texelLoop (1 / ((1 : Nat) : K)) (fun i => marchMerge2 e bc n upper
      { u := u, v := v, dir := it.phi + (nthRaysSubset e.cfg (cascadeComputeSize e.cfg e.c0 n) t).1 + i,
        incl := it.theta, wave := it.wave }) [0] (0, 0)
    Outcome.ok (probeLinearIndex e.cfg (cascadeSize e.cfg e.c0 n) (probeOf e n t u v it), avg.1, avg.2)) = _
  unfold texelLoop
  have h' : marchMerge2 e bc n upper
      { u := u, v := v, dir := it.phi + (nthRaysSubset e.cfg (cascadeComputeSize e.cfg e.c0 n) t).1 + 0,
        incl := it.theta, wave := it.wave } = .ok (I, psi) := h
  rw [h', Outcome.ok_bind]
  simp [texelLoop]

end DexRT.Fs
