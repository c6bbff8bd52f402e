import Verif.Model.Boundary
import Verif.Props.Interp
import Verif.Lemmas.Emis
import Mathlib.Tactic.Linarith
import Mathlib.Tactic.Ring
import Mathlib.Tactic.FieldSimp
import Mathlib.Tactic.NormNum
import Mathlib.Tactic.Positivity
/-!
# C58: light entering from the Sun below

Specification: the Sun is a sphere of radius `rs` whose top touches the plane `z = 0`; lengths are in metres.
-/
namespace DexRT
open Boundary

/-- The point of the light's path at `t` (metres along the direction of travel `dir`) lies on the Sun's surface. -/
def OnSun (pos dir : V3) (t : ℝ) : Prop :=
  (pos.x + t * dir.x) ^ 2 + (pos.y + t * dir.y) ^ 2 + (pos.z + rs + t * dir.z) ^ 2 = rs ^ 2

/-- Cosine of the angle between the direction of travel and the outward normal at the point `t` of the surface. -/
noncomputable def cosNormal (pos dir : V3) (t : ℝ) : ℝ :=
  (dir.x * (pos.x + t * dir.x) + dir.y * (pos.y + t * dir.y) + dir.z * (pos.z + rs + t * dir.z)) / rs

/-- Unit vector. -/
def IsUnit3 (d : V3) : Prop := d.x ^ 2 + d.y ^ 2 + d.z ^ 2 = 1

theorem rs_pos : 0 < rs := by unfold rs; norm_num

/-- A quarter of the discriminant. -/
noncomputable def disc (pos dir : V3) : ℝ :=
  (pos.x / rs * dir.x + pos.y / rs * dir.y + (pos.z / rs + 1) * dir.z) ^ 2 -
    ((pos.x / rs) ^ 2 + (pos.y / rs) ^ 2 + (pos.z / rs + 1) ^ 2 - 1)

theorem vec_eq (pos dir : V3) (hd : IsUnit3 dir) :
    vectorChromoRayMu pos dir = if disc pos dir < 0 then -1 else Real.sqrt (disc pos dir) := by
  unfold vectorChromoRayMu
  simp only
  have e : (2 * (pos.x / rs * dir.x + pos.y / rs * dir.y + (pos.z / rs + 1) * dir.z)) ^ 2 -
      4 * 1 * ((pos.x / rs) ^ 2 + (pos.y / rs) ^ 2 + (pos.z / rs + 1) ^ 2 - 1) = 2 ^ 2 * disc pos dir := by
    unfold disc; ring
  rw [e]
  by_cases h : disc pos dir < 0
  · rw [if_pos h, if_pos (by linarith)]
  · rw [if_neg h, if_neg (by linarith)]
    rw [Real.sqrt_mul (by norm_num), Real.sqrt_sq (by norm_num)]
    generalize Real.sqrt (disc pos dir) = s
    unfold IsUnit3 at hd
    generalize pos.x / rs = a
    generalize pos.y / rs = b
    generalize pos.z / rs + 1 = c
    linear_combination (a * dir.x + b * dir.y + c * dir.z + s) * hd

theorem onSun_iff (pos dir : V3) (hd : IsUnit3 dir) (t : ℝ) :
    OnSun pos dir t ↔ (cosNormal pos dir t) ^ 2 = disc pos dir := by
  have hr := rs_pos.ne'
  unfold OnSun cosNormal disc IsUnit3 at *
  have e1 : pos.x = pos.x / rs * rs := by field_simp
  have e2 : pos.y = pos.y / rs * rs := by field_simp
  have e3 : pos.z = pos.z / rs * rs := by field_simp
  have e4 : t = t / rs * rs := by field_simp
  generalize pos.x / rs = a at *
  generalize pos.y / rs = b at *
  generalize pos.z / rs = c at *
  generalize t / rs = u at *
  rw [e1, e2, e3, e4]
  have hq : (dir.x * (a * rs + u * rs * dir.x) + dir.y * (b * rs + u * rs * dir.y) +
      dir.z * (c * rs + rs + u * rs * dir.z)) / rs = a * dir.x + b * dir.y + (c + 1) * dir.z + u := by
    rw [div_eq_iff hr]
    linear_combination (u * rs) * hd
  rw [hq]
  constructor
  · intro h
    have h' : rs ^ 2 * ((a + u * dir.x) ^ 2 + (b + u * dir.y) ^ 2 + (c + 1 + u * dir.z) ^ 2 - 1) = 0 := by
      linear_combination h
    have h'' := (mul_eq_zero.mp h').resolve_left (pow_ne_zero 2 hr)
    linear_combination h'' - u ^ 2 * hd
  · intro h
    linear_combination rs ^ 2 * h + rs ^ 2 * u ^ 2 * hd

theorem cosNormal_eq (pos dir : V3) (hd : IsUnit3 dir) (t : ℝ) :
    cosNormal pos dir t = cosNormal pos dir 0 + t / rs := by
  have hr := rs_pos.ne'
  unfold cosNormal IsUnit3 at *
  rw [eq_comm, ← add_div, div_left_inj' hr]
  linear_combination (-t) * hd

/-- C58 (geometry): for every position and direction, the angle cosine used is negative exactly if the light's path
misses the Sun; otherwise it is the cosine, between 0 and 1, of the angle at which the path leaves the Sun, that is at the last of its
points on the surface. -/
theorem C58_geometry (pos dir : V3) (hd : IsUnit3 dir) :
    (vectorChromoRayMu pos dir < 0 ↔ ∀ t, ¬ OnSun pos dir t) ∧
    (0 ≤ vectorChromoRayMu pos dir → ∃ t, OnSun pos dir t ∧ (∀ t', OnSun pos dir t' → t' ≤ t) ∧
      vectorChromoRayMu pos dir = cosNormal pos dir t ∧ vectorChromoRayMu pos dir ≤ 1) := by
  have hr := rs_pos
  rw [vec_eq pos dir hd]
  by_cases h : disc pos dir < 0
  · rw [if_pos h]
    refine ⟨⟨fun _ t ht => ?_, fun _ => by norm_num⟩, fun h1 => absurd h1 (by norm_num)⟩
    rw [onSun_iff pos dir hd] at ht
    nlinarith [sq_nonneg (cosNormal pos dir t)]
  · rw [if_neg h]
    have h0 : 0 ≤ disc pos dir := not_lt.mp h
    let t := (Real.sqrt (disc pos dir) - cosNormal pos dir 0) * rs
    have ht : cosNormal pos dir t = Real.sqrt (disc pos dir) := by
      rw [cosNormal_eq pos dir hd]
      simp only [t, mul_div_assoc, div_self hr.ne']
      ring
    have hs : OnSun pos dir t := by rw [onSun_iff pos dir hd, ht, Real.sq_sqrt h0]
    refine ⟨⟨fun h1 => absurd h1 (not_lt.mpr (Real.sqrt_nonneg _)), fun h1 => absurd hs (h1 t)⟩, fun _ => ⟨t, hs, ?_, ht.symm, ?_⟩⟩
    · intro t' h'
      rw [onSun_iff pos dir hd] at h'
      have h2 : cosNormal pos dir t' ≤ cosNormal pos dir t := by
        rw [ht, ← h']; exact Real.le_sqrt_of_sq_le (le_refl _) |>.trans (le_refl _)
      rw [cosNormal_eq pos dir hd t', cosNormal_eq pos dir hd t] at h2
      have h3 : t' / rs ≤ t / rs := by linarith
      exact (div_le_div_iff_of_pos_right hr).mp h3
    · rw [Real.sqrt_le_iff]
      refine ⟨by norm_num, ?_⟩
      unfold disc IsUnit3 at *
      nlinarith [sq_nonneg (pos.x / rs * dir.y - pos.y / rs * dir.x), sq_nonneg (pos.x / rs * dir.z - (pos.z / rs + 1) * dir.x),
        sq_nonneg (pos.y / rs * dir.z - (pos.z / rs + 1) * dir.y)]

/-- C58 (the point does not matter): the result is the same wherever on the path it is evaluated; sampling at the
probe instead of at the edge of the domain is exact. -/
theorem C58_along_path (pos dir : V3) (hd : IsUnit3 dir) (s : ℝ) :
    vectorChromoRayMu ⟨pos.x + s * dir.x, pos.y + s * dir.y, pos.z + s * dir.z⟩ dir = vectorChromoRayMu pos dir := by
  rw [vec_eq _ dir hd, vec_eq pos dir hd]
  have : disc ⟨pos.x + s * dir.x, pos.y + s * dir.y, pos.z + s * dir.z⟩ dir = disc pos dir := by
    unfold disc IsUnit3 at *
    simp only [add_div, mul_div_right_comm]
    generalize pos.x / rs = a
    generalize pos.y / rs = b
    generalize pos.z / rs = c
    generalize s / rs = u
    linear_combination (u ^ 2 * (dir.x ^ 2 + dir.y ^ 2 + dir.z ^ 2) + 2 * u * (a * dir.x + b * dir.y + (c + 1) * dir.z)) * hd
  rw [this]

/-- C58 (two formulas): above the centre of the domain the formula without horizontal offsets gives the same. -/
theorem C58_forms (dir : V3) (hd : IsUnit3 dir) (alt : ℝ) :
    chromoRayMu dir.z alt = vectorChromoRayMu ⟨0, 0, alt⟩ dir := by
  rw [vec_eq _ dir hd]
  unfold chromoRayMu
  have : 1 - (1 - dir.z ^ 2) * (1 + 2 * alt / rs + (alt / rs) ^ 2) = disc ⟨0, 0, alt⟩ dir := by
    unfold disc; ring
  simp only [this]

/-- C58 (who sees the Sun): for positions not below the top of the Sun and upward rays, all crossings of the surface lie behind:
the light does come from the Sun. -/
theorem C58_up (pos dir : V3) (h0 : 0 ≤ pos.z) (hz : 0 < dir.z) (t : ℝ) (ht : OnSun pos dir t) : t ≤ 0 := by
  by_contra hc
  have hc : 0 < t := not_le.mp hc
  unfold OnSun at ht
  have h1 : rs < pos.z + rs + t * dir.z := by nlinarith
  nlinarith [sq_nonneg (pos.x + t * dir.x), sq_nonneg (pos.y + t * dir.y), rs_pos]

/-- C58 (who does not): for positions above the top of the Sun and rays that do not go up, no crossing lies behind: nothing is lost by
starting them at zero. -/
theorem C58_not_up (pos dir : V3) (h0 : 0 < pos.z) (hz : dir.z ≤ 0) (t : ℝ) (ht : OnSun pos dir t) : 0 < t := by
  by_contra hc
  have hc : t ≤ 0 := not_lt.mp hc
  unfold OnSun at ht
  have h1 : rs < pos.z + rs + t * dir.z := by nlinarith
  nlinarith [sq_nonneg (pos.x + t * dir.x), sq_nonneg (pos.y + t * dir.y), rs_pos]

/-- Table value at angle cosine `mu`: clamped, linear between the equidistant nodes. -/
theorem lookup_mid (bc : PwBc) (hn : 2 ≤ bc.I.length) (hm : bc.muMin < bc.muMax) (i : Nat) (hi : i + 1 < bc.I.length) (t : ℝ) (ht0 : 0 ≤ t)
    (ht1 : t < 1) (hmin : 0 ≤ bc.muMin) :
    bc.lookup (bc.muMin + ((i : ℝ) + t) * bc.muStep) = .ok ((1 - t) * bc.I[i] + t * bc.I[i + 1]) := by
  have hnn : (0 : ℝ) < (bc.I.length : ℝ) - 1 := by
    have : (2 : ℝ) ≤ (bc.I.length : ℝ) := by exact_mod_cast hn
    linarith
  have hst : 0 < bc.muStep := div_pos (by linarith) hnn
  have hi' : (i : ℝ) + 1 ≤ (bc.I.length : ℝ) - 1 := by
    have : ((i + 1 + 1 : ℕ) : ℝ) ≤ (bc.I.length : ℝ) := by exact_mod_cast hi
    push_cast at this; linarith
  have hmax : bc.muMin + ((i : ℝ) + t) * bc.muStep < bc.muMax := by
    have e : bc.muMax = bc.muMin + ((bc.I.length : ℝ) - 1) * bc.muStep := by
      unfold PwBc.muStep; field_simp; ring
    rw [e]
    have : ((i : ℝ) + t) < (bc.I.length : ℝ) - 1 := by linarith
    nlinarith
  have hi0 : (0 : ℝ) ≤ i := Nat.cast_nonneg i
  unfold PwBc.lookup
  rw [if_neg (by nlinarith [mul_nonneg (add_nonneg hi0 ht0) hst.le])]
  by_cases hz : bc.muMin + ((i : ℝ) + t) * bc.muStep ≤ bc.muMin
  · have h00 : ((i : ℝ) + t) = 0 := by
      by_contra hne
      have hp : 0 < (i : ℝ) + t := lt_of_le_of_ne (by linarith) (Ne.symm hne)
      nlinarith [mul_pos hp hst]
    have hi00 : i = 0 := by
      have : (i : ℝ) = 0 := by linarith
      exact_mod_cast this
    have ht00 : t = 0 := by rw [hi00] at h00; simpa using h00
    subst hi00
    rw [if_pos hz, Emis.readAt_some _ _ _ (List.getElem?_eq_getElem (by omega))]
    rw [ht00]; simp
  · rw [if_neg hz, if_neg (not_le.mpr hmax)]
    have hf : (bc.muMin + ((i : ℝ) + t) * bc.muStep - bc.muMin) / bc.muStep = i + t := by
      field_simp; ring
    rw [hf]
    have hfl : ⌊(i : ℝ) + t⌋₊ = i := by
      rw [Nat.floor_eq_iff (by linarith)]
      exact ⟨by linarith, by linarith⟩
    simp only [hfl, Emis.readAt_some _ _ _ (List.getElem?_eq_getElem (show i < bc.I.length by omega)),
      Emis.readAt_some _ _ _ (List.getElem?_eq_getElem hi), Outcome.ok_bind]
    congr 1; ring

/-- C58 (table): for every table with at least two nodes and every angle cosine, no access is out of bounds; paths that miss
get nothing, others the value of the table at their angle cosine: clamped to its ends, and at node `i` plus the
fraction `t` of a step the linear interpolant. -/
theorem C58_table (bc : PwBc) (hn : 2 ≤ bc.I.length) (hm : bc.muMin < bc.muMax) (hmin : 0 ≤ bc.muMin) (mu : ℝ) :
    (mu < 0 → bc.lookup mu = .ok 0) ∧
    (0 ≤ mu → mu ≤ bc.muMin → bc.lookup mu = .ok bc.I[0]) ∧
    (bc.muMax ≤ mu → bc.lookup mu = .ok bc.I[bc.I.length - 1]) ∧
    (bc.muMin ≤ mu → mu < bc.muMax → ∃ i t, ∃ h : i + 1 < bc.I.length, 0 ≤ t ∧ t < 1 ∧
      mu = bc.muMin + ((i : ℝ) + t) * ((bc.muMax - bc.muMin) / ((bc.I.length : ℝ) - 1)) ∧
      bc.lookup mu = .ok ((1 - t) * bc.I[i] + t * bc.I[i + 1])) := by
  have hnn : (0 : ℝ) < (bc.I.length : ℝ) - 1 := by
    have : (2 : ℝ) ≤ (bc.I.length : ℝ) := by exact_mod_cast hn
    linarith
  have hst : 0 < bc.muStep := div_pos (by linarith) hnn
  refine ⟨fun h => by unfold PwBc.lookup; rw [if_pos h], fun h1 h2 => ?_, fun h => ?_, fun h1 h2 => ?_⟩
  · unfold PwBc.lookup
    rw [if_neg (not_lt.mpr h1), if_pos h2, Emis.readAt_some _ _ _ (List.getElem?_eq_getElem (by omega))]
  · unfold PwBc.lookup
    rw [if_neg (by linarith), if_neg (by linarith), if_pos h, Emis.readAt_some _ _ _ (List.getElem?_eq_getElem (by omega))]
  · let f := (mu - bc.muMin) / bc.muStep
    have hf0 : 0 ≤ f := div_nonneg (by linarith) hst.le
    have e : mu = bc.muMin + f * bc.muStep := by simp only [f]; field_simp; ring
    have hf1 : f < (bc.I.length : ℝ) - 1 := by
      rw [div_lt_iff₀ hst]
      have : ((bc.I.length : ℝ) - 1) * bc.muStep = bc.muMax - bc.muMin := by unfold PwBc.muStep; field_simp
      linarith
    have hi : ⌊f⌋₊ + 1 < bc.I.length := by
      have h3 : (⌊f⌋₊ : ℝ) ≤ f := Nat.floor_le hf0
      have h4 : ((⌊f⌋₊ + 1 : ℕ) : ℝ) < (bc.I.length : ℝ) := by push_cast; linarith
      exact_mod_cast h4
    refine ⟨⌊f⌋₊, f - ⌊f⌋₊, hi, by linarith [Nat.floor_le hf0], by linarith [Nat.lt_floor_add_one f], ?_, ?_⟩
    · rw [show ((⌊f⌋₊ : ℝ) + (f - ⌊f⌋₊)) = f by ring]; exact e
    · rw [← lookup_mid bc hn hm ⌊f⌋₊ hi (f - ⌊f⌋₊) (by linarith [Nat.floor_le hf0]) (by linarith [Nat.lt_floor_add_one f]) hmin,
        show ((⌊f⌋₊ : ℝ) + (f - ⌊f⌋₊)) = f by ring, ← e]

/-- C58 (start of a ray): above the Sun, a ray that samples the boundary starts with the table's value at the angle at
which its path left the Sun if it comes from there, and with zero if it does not. -/
theorem C58_start (bc : PwBc) (pos dir : V3) (hd : IsUnit3 dir) (h0 : 0 < pos.z) (dir2z s : ℝ) (hs : 0 < s)
    (hdz : dir.z = dir2z * s) :
    ((∃ t, t ≤ 0 ∧ OnSun pos dir t) → ∃ t, t ≤ 0 ∧ OnSun pos dir t ∧ (∀ t', OnSun pos dir t' → t' ≤ t) ∧
      startIntensity true bc dir2z pos dir = bc.lookup (cosNormal pos dir t)) ∧
    ((∀ t, t ≤ 0 → ¬ OnSun pos dir t) → startIntensity true bc dir2z pos dir = .ok 0) := by
  by_cases hz : 0 < dir2z
  · have hz' : 0 < dir.z := by rw [hdz]; positivity
    have hstart : startIntensity true bc dir2z pos dir = bc.lookup (vectorChromoRayMu pos dir) := by
      unfold startIntensity samplePw; simp [hz]
    constructor
    · rintro ⟨t, _, ht⟩
      have hnn : 0 ≤ vectorChromoRayMu pos dir := by
        by_contra hc
        exact ((C58_geometry pos dir hd).1.mp (not_le.mp hc)) t ht
      obtain ⟨u, hu1, hu2, hu3, _⟩ := (C58_geometry pos dir hd).2 hnn
      exact ⟨u, C58_up pos dir h0.le hz' u hu1, hu1, hu2, by rw [hstart, hu3]⟩
    · intro h
      have : vectorChromoRayMu pos dir < 0 :=
        (C58_geometry pos dir hd).1.mpr fun t ht => h t (C58_up pos dir h0.le hz' t ht) ht
      rw [hstart]; unfold PwBc.lookup; rw [if_pos this]
  · have hz' : dir.z ≤ 0 := by rw [hdz]; nlinarith [not_lt.mp hz]
    have hstart : startIntensity true bc dir2z pos dir = .ok 0 := by
      unfold startIntensity; simp [hz]
    exact ⟨fun ⟨t, ht0, ht⟩ => absurd ht0 (not_le.mpr (C58_not_up pos dir h0 hz' t ht)), fun _ => hstart⟩

/-- A ray straight up from 1 Mm above the Sun has come from it. -/
example : IsUnit3 ⟨0, 0, 1⟩ ∧ OnSun ⟨0, 0, 1000000⟩ ⟨0, 0, 1⟩ (-1000000) ∧ cosNormal ⟨0, 0, 1000000⟩ ⟨0, 0, 1⟩ (-1000000) = 1 := by
  have := rs_pos.ne'
  refine ⟨by norm_num [IsUnit3], by norm_num [OnSun], ?_⟩
  unfold cosNormal; simp [this]
example : (⟨0, 1, [2, 4, 6]⟩ : PwBc).lookup (3 / 4) = .ok 5 := by
  have h := lookup_mid ⟨0, 1, [2, 4, 6]⟩ (by simp) (by norm_num) 1 (by simp) (1 / 2) (by norm_num) (by norm_num) (by norm_num)
  unfold PwBc.muStep at h
  norm_num at h
  rw [h]

end DexRT
