import Verif.Lemmas.World3
/-!
C79: one ray of a cascade in a uniform medium: which line, length, wavelength, direction and boundary value are used.
-/
namespace DexRT
open Classical
variable {dim : DdaDim}

/-- the march of one ray through a uniform medium, whether or not it meets the grid -/
theorem uniform_any (a : RaymarchArgs dim) (hb : 1 ≤ a.env.block) (hgs : GoodSeg a)
    (m : ℤ) (hm : 0 ≤ m) (hlvl : ∀ c, a.env.inBounds c → a.env.sampleLevel c = m)
    (eta chi : ℝ) (hchi : 0 ≤ chi) (heta' : ∀ m c, a.eta m c = eta) (hchi' : ∀ m c, a.chi m c = chi)
    (hlen : a.seg.t1 - a.seg.t0 ≤ 1e24) (B : ℝ) (hB : ∀ b, startI a b = B)
    (fuel : ℕ) (res : Interval) (h : raymarch a fuel = some res) :
    ∃ L, Fs.LengthOf (fun t => (a.seg.t0 ≤ t ∧ t ≤ a.seg.t1) ∧ Inner a t) L ∧
      res.tau = a.scale * a.invSin * (chi + 1e-15) * L ∧
      res.I = B * Real.exp (-res.tau) + eta / (chi + 1e-15) * (1 - Real.exp (-res.tau)) := by
  have hst := C78_starts a hb hgs
  cases hs : ddaStart a.env a.seg with
  | none =>
    rw [hs] at hst
    simp only at hst
    have hr : res = ⟨startI a false, 0, 0⟩ := by
      unfold raymarch at h; rw [hs] at h; exact (Option.some.inj h).symm
    refine ⟨0, ⟨le_rfl, fun x x' hx hx' => ?_, fun h => absurd h (lt_irrefl _)⟩, by rw [hr]; simp, by rw [hr, hB]; simp⟩
    rcases le_total x x' with hle | hle
    · have := hst x x' hx.1.1 hle hx'.1.2 hx.2 hx'.2
      norm_num at this ⊢
      linarith
    · have : (0 : ℝ) < 1 / 10000 := by norm_num
      linarith
  | some p =>
    obtain ⟨r, s⟩ := p
    rw [hs] at hst
    obtain ⟨t0, -, h1, hr, -⟩ := hst
    have h1' : 0 ≤ r.t1 := le_trans (by norm_num) h1
    have i0 := (hr 0).1 ⟨le_rfl, h1'⟩
    have i1 := (hr r.t1).1 ⟨h1', le_rfl⟩
    obtain ⟨L, l1, l2, l3, l4⟩ := C78_uniform a hb hgs m hm hlvl eta chi hchi heta' hchi' r s hs
      (by linarith [i0.1.1, i1.1.2]) fuel res h
    refine ⟨L, ⟨?_, fun x x' hx hx' => ?_, fun _ => ⟨t0 + 0, t0 + r.t1, i0, i1, by linarith⟩⟩, l3, by rw [l4, hB]⟩
    · norm_num at h1 l1 ⊢; linarith
    · have e : ∀ y, y = t0 + (y - t0) := fun y => by ring
      rw [e x] at hx
      rw [e x'] at hx'
      have j := (hr (x - t0)).2 hx
      have j' := (hr (x' - t0)).2 hx'
      norm_num at l1 ⊢
      linarith [j.1, j'.2]

end DexRT

namespace DexRT.Fs
open DexRT DexRT.Dir Classical

theorem lengthOf_flip {P Q : ℝ → Prop} (c L : ℝ) (h : ∀ t, P t ↔ Q (c - t)) (hP : LengthOf P L) : LengthOf Q L := by
  obtain ⟨h0, h1, h2⟩ := hP
  refine ⟨h0, fun x x' hx hx' => ?_, fun hL => ?_⟩
  · have := h1 (c - x') (c - x) ((h _).2 (by rwa [sub_sub_cancel])) ((h _).2 (by rwa [sub_sub_cancel]))
    linarith
  · obtain ⟨x, x', a, b, l⟩ := h2 hL
    exact ⟨c - x', c - x, (h _).1 b, (h _).1 a, by linarith⟩

theorem startI_infty {dim : DdaDim} (a : RaymarchArgs dim) (h : a.toInfty = true) (hl : 0 ≤ a.la) (b : Bool) :
    startI a b = if a.sampleBc = true ∧ 0 < a.up then a.bc else 0 := by
  have : a.la ≠ -1 := by omega
  unfold startI
  rw [h]
  cases a.sampleBc <;> simp [this]

/-- **C79** (one ray, 2D) In a medium that is uniform at the wavelength and direction of a ray, with cells at one level:
the ray of probe `(u, v)`, direction `k` and inclination of cascade `n` returns what the transfer equation gives along
the straight line from the probe's centre in that direction, over the interval of the cascade: a path of length `L`
(within 1e-4 of the length of that interval that is in the grid) in cells, that is `L * scale / sqrt(1 - muy^2)` in length
units, at the wavelength of the batch that the ray is for, with the direction of travel that of light coming
from there to the probe; the boundary enters for the last cascade only, for light travelling upwards, with the value
for that wavelength, the probe's position in length units and that direction. -/
theorem C79_ray2 (w : World .two) (e : Env2 ℝ) (g : Rays2) (bc : Bool) (n : Nat) (p : ProbeIdx2) (s : Seg ℝ)
    (hs : MarchRay2 w e g bc n p s) (hb : 1 ≤ w.block) (m : ℤ) (hm : 0 ≤ m) (hlvl : ∀ c, (w.env n).inBounds c → (w.env n).sampleLevel c = m)
    (hinf : w.toInfty = true) (hla : 0 ≤ g.laStart)
    (hlen : ((intervalLength e.cfg g.len e.num n).2 : ℝ) - (intervalLength e.cfg g.len e.num n).1 ≤ 1e24) :
    let d := rayDir2 (cascadeComputeSize e.cfg e.c0 n).dirs p.dir
    let y := g.muy p.incl
    let mu : Fin 3 → ℝ := ![-d 0 * Real.sqrt (1 - y ^ 2), -y, -d 1 * Real.sqrt (1 - y ^ 2)]
    let la := g.laStart + p.wave
    let x : Fin 2 → ℝ := ![((p.u : ℝ) + 1 / 2) * 2 ^ n, ((p.v : ℝ) + 1 / 2) * 2 ^ n]
    let B := if bc = true ∧ d 1 < 0 then w.bc la ![x 0 * w.scale + w.offset 0, w.offset 1, x 1 * w.scale + w.offset 2] mu else 0
    ∀ eta chi : ℝ, 0 ≤ chi → (∀ m c, w.eta la mu m c = eta) → (∀ m c, w.chi la mu m c = chi) →
    ∃ L, LengthOf (OnRay x d w.max (intervalLength e.cfg g.len e.num n).1 (intervalLength e.cfg g.len e.num n).2) L ∧
      s.T = Real.exp (-(w.scale / Real.sqrt (1 - y ^ 2) * (chi + 1e-15) * L)) ∧
      s.I = B * s.T + eta / (chi + 1e-15) * (1 - s.T) := by
  intro d y mu la x B eta chi hchi heta hchi'
  obtain ⟨seg, fuel, res, k1, k2, rfl⟩ := hs
  set a := w.args2 e g bc n p seg with ha
  have hx : ∀ i, ![(probePos p.u n : ℝ), (probePos p.v n : ℝ)] i = x i := by
    intro i
    fin_cases i
    · show ((probePos p.u n : ℚ) : ℝ) = ((p.u : ℝ) + 1 / 2) * 2 ^ n; unfold probePos; push_cast; rfl
    · show ((probePos p.v n : ℚ) : ℝ) = ((p.v : ℝ) + 1 / 2) * 2 ^ n; unfold probePos; push_cast; rfl
  obtain ⟨hdir, ht0, hnz⟩ := marchSeg2_d _ _ _ _ _ _ _ _ seg k1
  have hne : ¬ -(d 0) = 0 ∧ (∀ t i, seg.pt t i = x i + ((intervalLength e.cfg g.len e.num n).2 - t) * d i) ∧
      seg.t1 = (intervalLength e.cfg g.len e.num n).2 - (intervalLength e.cfg g.len e.num n).1 := by
    unfold marchSeg2 raySegOfProps at k1
    split at k1
    · simp at k1
    · rename_i hz
      obtain rfl := Option.some.inj k1
      have hz' : ¬ -(d 0) = 0 := hz
      refine ⟨hz', fun t i => ?_, ?_⟩
      · rw [← hx]
        show (![(probePos p.u n : ℝ), (probePos p.v n : ℝ)] i + d i * ((intervalLength e.cfg g.len e.num n).2 : ℝ)) + t * (-(d i)) = _
        ring
      · show ((![(probePos p.u n : ℝ), (probePos p.v n : ℝ)] 0 + d 0 * ((intervalLength e.cfg g.len e.num n).1 : ℝ)) -
          (![(probePos p.u n : ℝ), (probePos p.v n : ℝ)] 0 + d 0 * ((intervalLength e.cfg g.len e.num n).2 : ℝ))) / (-(d 0)) = _
        rw [div_eq_iff hz']; ring
  obtain ⟨-, hpt, ht1⟩ := hne
  have hu := C76_unit2 (cascadeComputeSize e.cfg e.c0 n).dirs p.dir
  have hg : GoodSeg a := by
    refine ⟨fun i => ?_, fun i _ => Or.inl (hnz i)⟩
    show |seg.d i| ≤ 1
    rw [hdir, abs_neg, abs_le_one_iff_mul_self_le_one, ← pow_two, ← hu]
    exact Finset.single_le_sum (f := fun i => rayDir2 (cascadeComputeSize e.cfg e.c0 n).dirs p.dir i ^ 2) (fun j _ => sq_nonneg _) (Finset.mem_univ i)
  have hB : ∀ b, startI a b = B := by
    intro b
    rw [startI_infty a hinf (by show 0 ≤ g.laStart + (p.wave : ℤ); omega) b]
    have hup : a.up = -(d 1) := rfl
    have hbc : a.bc = w.bc la ![x 0 * w.scale + w.offset 0, w.offset 1, x 1 * w.scale + w.offset 2] mu := by
      rw [← hx, ← hx]; rfl
    rw [hup, hbc]
    show (if bc = true ∧ 0 < -(d 1) then _ else _) = _
    simp only [Left.neg_pos_iff]
    rfl
  obtain ⟨L, l1, l2, l3⟩ := uniform_any a hb hg m hm hlvl eta chi hchi (fun m c => heta m c) (fun m c => hchi' m c)
    (by show seg.t1 - seg.t0 ≤ _; rw [ht0, ht1, sub_zero]; exact hlen) B hB fuel res k2
  refine ⟨L, ?_, ?_, ?_⟩
  · refine lengthOf_flip ((intervalLength e.cfg g.len e.num n).2 : ℝ) L (fun t => ?_) l1
    show (seg.t0 ≤ t ∧ t ≤ seg.t1) ∧ (∀ i, 1 / 10000 ≤ seg.pt t i ∧ seg.pt t i ≤ (w.max i : ℝ) - 1 / 10000) ↔ _
    rw [ht0, ht1]
    simp only [hpt]
    unfold OnRay
    constructor
    · rintro ⟨⟨p1, p2⟩, p3⟩; exact ⟨by linarith, by linarith, p3⟩
    · rintro ⟨p1, p2, p3⟩; exact ⟨⟨by linarith, by linarith⟩, p3⟩
  · show Real.exp (-res.tau) = _
    rw [l2]
    have : a.scale * a.invSin = w.scale / Real.sqrt (1 - y ^ 2) := by
      show w.scale * (1 / Real.sqrt (1 - y ^ 2)) = _
      ring
    rw [this]
  · exact l3

/-- **C79** (one ray, 3D) as `C79_ray2`, for the HEALPix directions: light travels along the direction, arriving from
the points behind the probe. -/
theorem C79_ray3 (w : World .three) (e : Env3 ℝ) (l : LenCfg3) (la : ℤ) (bc : Bool) (n : Nat) (p : ProbeIdx3) (s : Seg ℝ)
    (hs : MarchRay3 w e l la bc n p s) (hb : 1 ≤ w.block) (m : ℤ) (hm : 0 ≤ m) (hlvl : ∀ c, (w.env n).inBounds c → (w.env n).sampleLevel c = m)
    (hinf : w.toInfty = true) (hla : 0 ≤ la) (k : Nat) (hk : k ≤ 16) (hnp : npix3 e n = 12 * 4 ^ k) (hp : p.az < npix3 e n)
    (hlen : ((intervalLength3 l e.num n).2 : ℝ) - (intervalLength3 l e.num n).1 ≤ 1e24) :
    let mu := rayDir3 (npix3 e n) p.az
    let x : Fin 3 → ℝ := ![((p.u : ℝ) + 1 / 2) * 2 ^ n, ((p.v : ℝ) + 1 / 2) * 2 ^ n, ((p.w : ℝ) + 1 / 2) * 2 ^ n]
    let B := if bc = true ∧ 0 < mu 2 then w.bc la (fun i => x i * w.scale + w.offset i) mu else 0
    ∀ eta chi : ℝ, 0 ≤ chi → (∀ m c, w.eta la mu m c = eta) → (∀ m c, w.chi la mu m c = chi) →
    ∃ L, LengthOf (OnRay x (fun i => - mu i) w.max (intervalLength3 l e.num n).1 (intervalLength3 l e.num n).2) L ∧
      s.T = Real.exp (-(w.scale * (chi + 1e-15) * L)) ∧
      s.I = B * s.T + eta / (chi + 1e-15) * (1 - s.T) := by
  intro mu x B eta chi hchi heta hchi'
  obtain ⟨fuel, res, k2, rfl⟩ := hs
  set a := w.args3 e l la bc n p with ha
  have hx : ![(probePos p.u n : ℝ), (probePos p.v n : ℝ), (probePos p.w n : ℝ)] = x := by
    funext i
    fin_cases i
    · show ((probePos p.u n : ℚ) : ℝ) = ((p.u : ℝ) + 1 / 2) * 2 ^ n; unfold probePos; push_cast; rfl
    · show ((probePos p.v n : ℚ) : ℝ) = ((p.v : ℝ) + 1 / 2) * 2 ^ n; unfold probePos; push_cast; rfl
    · show ((probePos p.w n : ℚ) : ℝ) = ((p.w : ℝ) + 1 / 2) * 2 ^ n; unfold probePos; push_cast; rfl
  have hpt : ∀ t i, a.seg.pt t i = x i + t * mu i := by
    intro t i
    show ![(probePos p.u n : ℝ), (probePos p.v n : ℝ), (probePos p.w n : ℝ)] i + t * mu i = _
    rw [hx]
  have hg : GoodSeg a := by
    refine ⟨fun i => ?_, fun i _ => Or.inl rfl⟩
    show |mu i| ≤ 1
    have hu := C76_unit3 k p.az hk (by rw [← hnp]; exact hp)
    rw [← hnp] at hu
    rw [abs_le_one_iff_mul_self_le_one, ← pow_two, ← hu]
    exact Finset.single_le_sum (f := fun i => rayDir3 (npix3 e n) p.az i ^ 2) (fun j _ => sq_nonneg _) (Finset.mem_univ i)
  have hB : ∀ b, startI a b = B := by
    intro b
    rw [startI_infty a hinf hla b]
    have hbc : a.bc = w.bc la (fun i => x i * w.scale + w.offset i) mu := by rw [← hx]; rfl
    rw [hbc]
    rfl
  obtain ⟨L, l1, l2, l3⟩ := uniform_any a hb hg m hm hlvl eta chi hchi (fun m c => heta m c) (fun m c => hchi' m c)
    (by show -((intervalLength3 l e.num n).1 : ℝ) - -((intervalLength3 l e.num n).2 : ℝ) ≤ _; linarith) B hB fuel res k2
  refine ⟨L, ?_, ?_, l3⟩
  · refine lengthOf_flip 0 L (fun t => ?_) l1
    show (-((intervalLength3 l e.num n).2 : ℝ) ≤ t ∧ t ≤ -((intervalLength3 l e.num n).1 : ℝ)) ∧
      (∀ i, 1 / 10000 ≤ a.seg.pt t i ∧ a.seg.pt t i ≤ (w.max i : ℝ) - 1 / 10000) ↔ _
    simp only [hpt]
    unfold OnRay
    simp only [show ∀ i, (0 - t) * -mu i = t * mu i from fun i => by ring]
    constructor
    · rintro ⟨⟨p1, p2⟩, p3⟩; exact ⟨by linarith, by linarith, p3⟩
    · rintro ⟨p1, p2, p3⟩; exact ⟨⟨by linarith, by linarith⟩, p3⟩
  · show Real.exp (-res.tau) = _
    rw [l2]
    have : a.scale * a.invSin = w.scale := by
      show w.scale * (1 / Real.sqrt (1 - (0 : ℝ) ^ 2)) = _
      simp
    rw [this]

end DexRT.Fs
