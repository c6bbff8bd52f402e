import Verif.Lemmas.RayTrace
import Verif.Spec.Ray
import Verif.Props.Ray
/-!
# C67, C68: synthetic observations: intensity along a ray, depth outputs, light from behind
-/
namespace DexRT
open Ray Boundary

/-! ## C67: intensity -/

/-- C67 (intensity): for every sequence of cells a ray crosses and every intensity behind them, the intensity and optical
depth written are those of the stack of the cells that carry material, the first crossed nearest to the observer, each with source function
`eta / chi` and thickness `chi * length` (opacities raised by `1e-20`); a ray that misses the grid shows the boundary. -/
theorem C67_intensity (scale bI : ℝ) (cells : List Cell) :
    traceRay scale bI (some cells) =
      (let stack := (cells.filter (·.sample)).map fun c => (⟨c.eta / (c.chi + 1e-20), (c.chi + 1e-20) * c.dt * scale⟩ : Slab)
       (emergent stack bI, thickness stack)) ∧
    traceRay scale bI none = (bI, 0) := by
  refine ⟨?_, rfl⟩
  have h := trace_fold scale bI cells { I := 0, tau := 0 }
  simp only at h
  have h1 := h.1
  have h2 := h.2
  simp only [zero_add, neg_zero, Real.exp_zero, one_mul] at h1 h2
  unfold traceRay
  simp only [h1]
  rw [h2]
  rfl

/-- C67 (formal solution): the emergent intensity is the sum over the slabs of their own light, attenuated by everything in front of
them, plus the attenuated boundary. -/
theorem C67_formal_solution (l : List Slab) (I0 : ℝ) :
    emergent l I0 = (∑ k ∈ Finset.range l.length,
      Real.exp (-thickness (l.take k)) * ((l.getD k ⟨0, 0⟩).S * (1 - Real.exp (-(l.getD k ⟨0, 0⟩).tau)))) +
      Real.exp (-thickness l) * I0 := emergent_sum l I0

/-- C67 (bounds): with non-negative opacities and lengths, the intensity written lies between any bounds on the source functions
and the boundary, and the optical depth is not negative. -/
theorem C67_bounds (scale bI lo hi : ℝ) (cells : List Cell) (hs : 0 ≤ scale) (h1 : lo ≤ bI) (h2 : bI ≤ hi)
    (hc : ∀ c ∈ cells, c.sample = true → 0 ≤ c.chi ∧ 0 ≤ c.dt ∧ lo * (c.chi + 1e-20) ≤ c.eta ∧ c.eta ≤ hi * (c.chi + 1e-20)) :
    lo ≤ (traceRay scale bI (some cells)).1 ∧ (traceRay scale bI (some cells)).1 ≤ hi ∧ 0 ≤ (traceRay scale bI (some cells)).2 := by
  rw [(C67_intensity scale bI cells).1]
  have key : ∀ s ∈ slabs scale cells, 0 ≤ s.tau ∧ lo ≤ s.S ∧ s.S ≤ hi := by
    intro s hs'
    simp only [slabs, sampled, List.mem_map, List.mem_filter] at hs'
    obtain ⟨c, ⟨hm, hsm⟩, rfl⟩ := hs'
    obtain ⟨a, b, d, e⟩ := hc c hm hsm
    have hp : (0 : ℝ) < c.chi + 1e-20 := by
      have : (0 : ℝ) < 1e-20 := by norm_num
      linarith
    refine ⟨mul_nonneg (mul_nonneg hp.le b) hs, ?_, ?_⟩
    · simp only [Cell.slab]; rw [le_div_iff₀ hp]; exact d
    · simp only [Cell.slab]; rw [div_le_iff₀ hp]; exact e
  obtain ⟨a, b⟩ := emergent_between (slabs scale cells) bI lo hi h1 h2 key
  refine ⟨a, b, ?_⟩
  show 0 ≤ thickness (slabs scale cells)
  unfold thickness
  apply List.sum_nonneg
  intro x hx
  obtain ⟨s, hs1, rfl⟩ := List.mem_map.mp hx
  exact (key s hs1).1

/-- C67 (path length): the rays are marched in the x-z plane; a step of `dt` voxels there is counted with the length `L` the
three-dimensional line of sight has above it: for every view that is not along y, the projection of `L` times the view onto the plane is
`dt` voxels long. Views given with more than unit length count as the unit vector in the plane along them. -/
theorem C67_path_length (scale dt : ℝ) (mux muz : ℝ) (hs : 0 ≤ scale) (hdt : 0 ≤ dt) (h : mux ≠ 0 ∨ muz ≠ 0) :
    0 ≤ dt * distanceFactor scale (viewMu mux muz) ∧
    (mux ^ 2 + muz ^ 2 ≤ 1 → (dt * distanceFactor scale (viewMu mux muz) * mux) ^ 2 +
      (dt * distanceFactor scale (viewMu mux muz) * muz) ^ 2 = (dt * scale) ^ 2) ∧
    (1 ≤ mux ^ 2 + muz ^ 2 → dt * distanceFactor scale (viewMu mux muz) = dt * scale) := by
  have hq : 0 < mux ^ 2 + muz ^ 2 := by
    rcases h with h | h
    · have := sq_pos_of_ne_zero h; nlinarith [sq_nonneg muz]
    · have := sq_pos_of_ne_zero h; nlinarith [sq_nonneg mux]
  have h1 : 1 ≤ mux ^ 2 + muz ^ 2 → distanceFactor scale (viewMu mux muz) = scale := by
    intro hh
    unfold distanceFactor viewMu
    simp only
    rw [if_pos (by rw [neg_sq, neg_sq]; exact hh)]
    simp
  refine ⟨mul_nonneg hdt (div_nonneg hs (Real.sqrt_nonneg _)), fun hh => ?_, fun hh => by rw [h1 hh]⟩
  rcases hh.lt_or_eq with hlt | heq
  · have hy : 1 - (viewMu mux muz).y ^ 2 = mux ^ 2 + muz ^ 2 := by
      unfold viewMu
      simp only
      rw [if_neg (by rw [neg_sq, neg_sq]; linarith)]
      simp only
      rw [Real.sq_sqrt (by rw [neg_sq, neg_sq]; linarith)]; ring
    unfold distanceFactor
    rw [hy]
    have hss := Real.sq_sqrt hq.le
    have hsp := Real.sqrt_pos.mpr hq
    generalize Real.sqrt (mux ^ 2 + muz ^ 2) = r at hss hsp
    rw [mul_pow, mul_pow _ muz, ← mul_add, ← hss]
    field_simp
  · rw [h1 heq.symm.le, mul_pow, mul_pow _ muz, ← mul_add, heq, mul_one]

/-- C67 (depth outputs): for every set of rays, and every order in which the rays are processed, with the arrays
sized by the preceding count no write is out of bounds, and afterwards the arrays hold, for ray `r` and step `s`: if the ray crosses more
than `s` cells with material, the data of the `s`-th of them, the optical depth up to its far side, and the emissivity attenuated by what is
in front; otherwise the fill value. -/
theorem C67_depth (scale : ℝ) (rays : List (Option (List Cell))) (sched : List ℕ) (hs : sched.Perm (List.range rays.length)) :
    ∃ arr, depthKernel scale (maxSteps rays) rays sched (fun _ _ => none) = .ok arr ∧
      (∀ r cells, rays[r]? = some (some cells) → ∀ s,
        (∀ h : s < (cells.filter (·.sample)).length, s < maxSteps rays ∧
          let stack := (cells.filter (·.sample)).map fun c => (⟨c.eta / (c.chi + 1e-20), (c.chi + 1e-20) * c.dt * scale⟩ : Slab)
          let c := (cells.filter (·.sample))[s]
          arr s r = some { pos := c.t, source := c.eta / (c.chi + 1e-20), tau := thickness (stack.take (s + 1)),
                           contFn := c.eta * Real.exp (-thickness (stack.take s)),
                           chiTau := (c.chi + 1e-20) / thickness (stack.take (s + 1)), eta := c.eta, chi := c.chi + 1e-20 }) ∧
        ((cells.filter (·.sample)).length ≤ s → arr s r = none)) ∧
      (∀ r, rays[r]? = some none → ∀ s, arr s r = none) := by
  have hmem : ∀ r, r ∈ sched ↔ r < rays.length := fun r => by rw [hs.mem_iff, List.mem_range]
  obtain ⟨arr, e, h⟩ := depthKernel_spec scale (maxSteps rays) rays (fun r hr => le_maxSteps rays r hr) sched (fun _ _ => none)
    (hs.nodup_iff.mpr List.nodup_range) (fun r hr => (hmem r).mp hr) (fun _ _ _ => rfl)
  refine ⟨arr, e, fun r cells hr s => ?_, fun r hr s => ?_⟩
  · have hlt : r < rays.length := by
      by_contra hc
      rw [List.getElem?_eq_none (not_lt.mp hc)] at hr
      cases hr
    have ha : arr s r = recFrom scale 0 (sampled cells) s := by
      rw [h, if_pos ((hmem r).mpr hlt), List.getD_eq_getElem?_getD, hr]; rfl
    refine ⟨fun hsl => ⟨?_, ?_⟩, fun hsl => ?_⟩
    · have hm : some cells ∈ rays := List.mem_of_getElem? hr
      have := le_maxSteps rays _ hm
      rw [numSteps_eq] at this
      exact lt_of_lt_of_le hsl this
    · simp only
      rw [ha]
      unfold recFrom
      rw [List.getElem?_eq_getElem (show s < (sampled cells).length from hsl)]
      simp only [Option.map_some, zero_add]
      rfl
    · rw [ha]; exact recFrom_none _ _ _ _ hsl
  · have hlt : r < rays.length := by
      by_contra hc
      rw [List.getElem?_eq_none (not_lt.mp hc)] at hr
      cases hr
    rw [h, if_pos ((hmem r).mpr hlt), List.getD_eq_getElem?_getD, hr]; rfl

/-- Two rays, one missing the grid, processed in reverse order. -/
example : maxSteps [none, some [⟨true, 1, 1, 1, 0⟩, ⟨false, 0, 0, 3, 1⟩, ⟨true, 2, 1, 1, 4⟩]] = 2 ∧ [1, 0].Perm (List.range 2) := by
  refine ⟨rfl, by decide⟩
example : traceRay 1 5 (some []) = (5, 0) := by
  rw [(C67_intensity 1 5 []).1]; simp [emergent, thickness]

/-! ## C68: light from behind the model -/

theorem samplePw_neg (bc : PwBc) (pos d : V3) (hd : IsUnit3 d) :
    samplePw true true bc pos d = samplePw true true bc pos ⟨-d.x, -d.y, -d.z⟩ := by
  have hd' : IsUnit3 ⟨-d.x, -d.y, -d.z⟩ := by unfold IsUnit3 at *; simp only [neg_sq]; exact hd
  unfold samplePw
  simp only [if_true]
  rw [vec_eq _ _ hd, vec_eq _ _ hd']
  have : disc pos ⟨-d.x, -d.y, -d.z⟩ = disc pos d := by unfold disc; simp only; ring
  rw [this]

/-- What an observer should see behind the model: the photons at `pos` that travel along `photon` show the table's value at the angle at which
they left the Sun, or nothing if they did not come from there. -/
def SeesSun (bc : PwBc) (pos photon : V3) (I : Outcome ℝ) : Prop :=
  ((∃ t, t ≤ 0 ∧ OnSun pos photon t) → ∃ t, t ≤ 0 ∧ OnSun pos photon t ∧ (∀ t', OnSun pos photon t' → t' ≤ t) ∧
    I = bc.lookup (cosNormal pos photon t)) ∧
  ((∀ t, t ≤ 0 → ¬ OnSun pos photon t) → I = .ok 0)

theorem seesSun_of (bc : PwBc) (pos d : V3) (hd : IsUnit3 d) (h0 : 0 < pos.z) :
    SeesSun bc pos ⟨-d.x, -d.y, -d.z⟩ (startIntensity true bc (-d.z) pos ⟨-d.x, -d.y, -d.z⟩) :=
  C58_start bc pos ⟨-d.x, -d.y, -d.z⟩ (by unfold IsUnit3 at *; simp only [neg_sq]; exact hd) h0 (-d.z) 1 one_pos (by simp)

/-- C68 (3D): for every unit view and every pixel above the Sun, what is seen behind the model is right. -/
theorem C68_boundary3 (bc : PwBc) (scale : ℝ) (off start view : V3) (hv : IsUnit3 view) (h0 : 0 < start.z * scale + off.z) :
    SeesSun bc ⟨start.x * scale + off.x, start.y * scale + off.y, start.z * scale + off.z⟩ ⟨-view.x, -view.y, -view.z⟩
      (boundaryI3 bc scale off start view) := by
  have := seesSun_of bc ⟨start.x * scale + off.x, start.y * scale + off.y, start.z * scale + off.z⟩ view hv h0
  have e : boundaryI3 bc scale off start view = startIntensity true bc (-view.z)
      ⟨start.x * scale + off.x, start.y * scale + off.y, start.z * scale + off.z⟩ ⟨-view.x, -view.y, -view.z⟩ := by
    unfold boundaryI3 startIntensity
    by_cases hz : view.z < 0
    · rw [if_pos hz, if_pos rfl, if_pos (by linarith)]
    · rw [if_neg hz, if_pos rfl, if_neg (by linarith)]
  rw [e]; exact this

/-- C68, proved part (2D): for every view in the x-z plane (`mux² + muz² ≥ 1`) and every ray that starts above the Sun, what is seen behind the
model is right; the direction handed over points away from the observer, which does not change the result. -/
theorem C68_boundary2_partial (bc : PwBc) (scale offX offZ mux muz : ℝ) (start : V2) (h : 1 ≤ mux ^ 2 + muz ^ 2)
    (h0 : 0 < start.z * scale + offZ) :
    IsUnit3 ⟨-(flatMu (viewMu mux muz)).x, -(viewMu mux muz).y, -(flatMu (viewMu mux muz)).z⟩ ∧
    SeesSun bc ⟨start.x * scale + offX, 0, start.z * scale + offZ⟩
      ⟨-(flatMu (viewMu mux muz)).x, -(viewMu mux muz).y, -(flatMu (viewMu mux muz)).z⟩
      (boundaryI2 bc scale offX offZ start (flatMu (viewMu mux muz))) := by
  have hne : mux ≠ 0 ∨ muz ≠ 0 := by
    by_contra hc
    push Not at hc
    rw [hc.1, hc.2] at h
    norm_num at h
  have hy : (viewMu mux muz).y = 0 := by
    unfold viewMu; simp only
    rw [if_pos (by rw [neg_sq, neg_sq]; exact h)]
  have hl := los_unit mux muz hne
  have hfe := flatMu_viewMu mux muz hne
  have hu : (flatMu (viewMu mux muz)).x ^ 2 + (flatMu (viewMu mux muz)).z ^ 2 = 1 := by
    rw [hfe]; simp only [neg_sq]; exact hl
  generalize flatMu (viewMu mux muz) = d at hu
  rw [hy]
  have hd : IsUnit3 ⟨d.x, 0, d.z⟩ := by unfold IsUnit3; simp only; linarith
  refine ⟨by unfold IsUnit3; simp only [neg_sq]; linarith, ?_⟩
  have := seesSun_of bc ⟨start.x * scale + offX, 0, start.z * scale + offZ⟩ ⟨d.x, 0, d.z⟩ hd h0
  have e : boundaryI2 bc scale offX offZ start d = startIntensity true bc (-d.z)
      ⟨start.x * scale + offX, 0, start.z * scale + offZ⟩ ⟨-d.x, -0, -d.z⟩ := by
    unfold boundaryI2 startIntensity
    by_cases hz : d.z < 0
    · rw [if_pos hz, if_pos rfl, if_pos (by linarith)]
      exact samplePw_neg bc _ ⟨d.x, 0, d.z⟩ hd
    · rw [if_neg hz, if_pos rfl, if_neg (by linarith)]
  rw [e]; exact this

/-- A table with intensity equal to the angle cosine. -/
def cosTable : PwBc := ⟨0, 1, [0, 1]⟩

theorem cosTable_lookup (mu : ℝ) (h0 : 0 ≤ mu) (h1 : mu < 1) : cosTable.lookup mu = .ok mu := by
  have := lookup_mid cosTable (by simp [cosTable]) (by norm_num [cosTable]) 0 (by simp [cosTable]) mu h0 h1 (by norm_num [cosTable])
  rw [show cosTable.muMin + (((0 : ℕ) : ℝ) + mu) * cosTable.muStep = mu by
    norm_num [cosTable, PwBc.muStep]] at this
  simpa [cosTable] using this

/-- C68, REFUTED in full (2D): a view 60 degrees out of the x-z plane, with the Sun's intensity equal to the angle cosine. Every ray that starts above
the centre of the domain, whatever its height, is given intensity 1 (light leaving the Sun straight up), although the light along the line
of sight leaves the Sun at an angle cosine of at most 1/2 (or misses the Sun): the component of the view along y is dropped. -/
theorem C68_refuted_inclined (scale offX offZ : ℝ) (start : V2) (hx : start.x * scale + offX = 0) (h0 : 0 < start.z * scale + offZ) :
    boundaryI2 cosTable scale offX offZ start (flatMu (viewMu 0 (1 / 2))) = .ok 1 ∧
    IsUnit3 (viewMu 0 (1 / 2)) ∧
    ∀ I, SeesSun cosTable ⟨start.x * scale + offX, 0, start.z * scale + offZ⟩
        ⟨-(viewMu 0 (1 / 2)).x, -(viewMu 0 (1 / 2)).y, -(viewMu 0 (1 / 2)).z⟩ I →
      ∃ r, I = .ok r ∧ 0 ≤ r ∧ r ≤ 1 / 2 := by
  have hunit := (C65_direction_partial 0 (1 / 2) (by norm_num)).1
  have hvx := (C65_direction_partial 0 (1 / 2) (by norm_num)).2.1
  have hvz := (C65_direction_partial 0 (1 / 2) (by norm_num)).2.2.1
  generalize viewMu 0 (1 / 2) = m at *
  have hf : flatMu m = ⟨0, -1⟩ := by
    unfold flatMu
    rw [hvx, hvz]
    rw [show (-(0 : ℝ)) ^ 2 + (-(1 / 2 : ℝ)) ^ 2 = (1 / 2) ^ 2 by norm_num, Real.sqrt_sq (by norm_num)]
    norm_num
  have hr := rs_pos
  refine ⟨?_, hunit, fun I hI => ?_⟩
  · rw [hf]
    unfold boundaryI2
    rw [if_pos (by norm_num), hx]
    unfold samplePw
    simp only [if_true]
    rw [vec_eq _ _ (by norm_num [IsUnit3])]
    have : disc ⟨0, 0, start.z * scale + offZ⟩ ⟨0, 0, -1⟩ = 1 := by unfold disc; simp only; ring
    rw [this, if_neg (by norm_num), Real.sqrt_one]
    have := (C58_table cosTable (by simp [cosTable]) (by norm_num [cosTable]) (by norm_num [cosTable]) 1).2.2.1 (by simp [cosTable])
    simpa [cosTable] using this
  · have hph : IsUnit3 ⟨-m.x, -m.y, -m.z⟩ := by unfold IsUnit3 at *; simp only [neg_sq]; exact hunit
    obtain ⟨s1, s2⟩ := hI
    by_cases hc : ∃ t, t ≤ 0 ∧ OnSun ⟨start.x * scale + offX, 0, start.z * scale + offZ⟩ ⟨-m.x, -m.y, -m.z⟩ t
    · obtain ⟨t, ht0, ht, hmax, e⟩ := s1 hc
      have hcos := (onSun_iff _ _ hph t).mp ht
      rw [hx] at hcos ht e hmax
      have hle : disc ⟨0, 0, start.z * scale + offZ⟩ ⟨-m.x, -m.y, -m.z⟩ ≤ 1 / 4 := by
        unfold disc
        simp only
        rw [hvz]
        have hq : 0 < (start.z * scale + offZ) / rs := div_pos h0 hr
        generalize (start.z * scale + offZ) / rs = q at hq
        have hyz : m.y ^ 2 = 3 / 4 := by
          unfold IsUnit3 at hunit; rw [hvx, hvz] at hunit; linarith
        simp only [zero_div, zero_mul, zero_add]
        nlinarith
      have hge : 0 ≤ cosNormal ⟨0, 0, start.z * scale + offZ⟩ ⟨-m.x, -m.y, -m.z⟩ t := by
        have hd0 : 0 ≤ disc ⟨0, 0, start.z * scale + offZ⟩ ⟨-m.x, -m.y, -m.z⟩ := by rw [← hcos]; positivity
        have hv := vec_eq ⟨0, 0, start.z * scale + offZ⟩ ⟨-m.x, -m.y, -m.z⟩ hph
        rw [if_neg (not_lt.mpr hd0)] at hv
        obtain ⟨u, hu1, hu2, hu3, _⟩ := (C58_geometry _ _ hph).2 (by rw [hv]; exact Real.sqrt_nonneg _)
        have hut : u = t := le_antisymm (hmax u hu1) (hu2 t ht)
        rw [← hut, ← hu3, hv]; exact Real.sqrt_nonneg _
      have hle2 : cosNormal ⟨0, 0, start.z * scale + offZ⟩ ⟨-m.x, -m.y, -m.z⟩ t ≤ 1 / 2 := by nlinarith
      exact ⟨_, by rw [e, cosTable_lookup _ hge (by linarith)], hge, hle2⟩
    · push Not at hc
      exact ⟨0, s2 hc, le_refl _, by norm_num⟩

/-- A pixel one voxel above the Sun, and one view straight down. -/
example : (0 : ℝ) < 1 * 1000 + 0 ∧ IsUnit3 ⟨0, 0, -1⟩ ∧ (1 : ℝ) ≤ 0 ^ 2 + 1 ^ 2 ∧ (0 : ℝ) * 1000 + 0 = 0 := by
  norm_num [IsUnit3]

end DexRT
