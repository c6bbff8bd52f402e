import Verif.Lemmas.Ray
import Verif.Props.Clip
import Verif.Lemmas.Sparse
import Verif.Props.Boundary
/-!
# C65, C66: synthetic observations: line of sight and coverage of the model by rays
-/
namespace DexRT
open Ray Boundary

/-- Scalar product. -/
def dot3 (a b : V3) : ℝ := a.x * b.x + a.y * b.y + a.z * b.z

/-! ## C65: the line of sight -/

/-- C65, proved part (2D): for every `mux`, `muz` with `mux² + muz² ≤ 1` the ray direction is a unit vector, its x and z
components are opposite to the configured ones, and the velocity used is the one along a unit vector towards the observer whose x and z
components are the configured ones. -/
theorem C65_direction_partial (mux muz : ℝ) (h : mux ^ 2 + muz ^ 2 ≤ 1) :
    IsUnit3 (viewMu mux muz) ∧ (viewMu mux muz).x = -mux ∧ (viewMu mux muz).z = -muz ∧
    ∀ v, vProj (viewMu mux muz) v = dot3 v ⟨mux, -(viewMu mux muz).y, muz⟩ := by
  have key : viewMu mux muz = ⟨-mux, Real.sqrt (1 - mux ^ 2 - muz ^ 2), -muz⟩ := by
    unfold viewMu
    simp only
    by_cases hc : (-mux) ^ 2 + (-muz) ^ 2 ≥ 1
    · have e : mux ^ 2 + muz ^ 2 = 1 := by linarith [neg_sq mux, neg_sq muz]
      rw [if_pos hc, neg_sq, neg_sq, e, show 1 - mux ^ 2 - muz ^ 2 = 0 by linarith]
      simp
    · rw [if_neg hc, neg_sq, neg_sq]
  rw [key]
  refine ⟨?_, rfl, rfl, fun v => ?_⟩
  · unfold IsUnit3
    simp only
    rw [Real.sq_sqrt (by linarith)]; ring
  · simp only [vProj, dot3]; ring

/-- C65, proved part: if the line of sight lies in the x-z plane (`mux² + muz² = 1`) the velocity used is the one along the
direction written to the output file. -/
theorem C65_reported_partial (mux muz : ℝ) (h : mux ^ 2 + muz ^ 2 = 1) (v : V3) :
    IsUnit3 (reportedMu mux muz) ∧ vProj (viewMu mux muz) v = dot3 v (reportedMu mux muz) := by
  have e : Real.sqrt (max 0 (1 - mux ^ 2 - muz ^ 2)) = 0 := by
    rw [show 1 - mux ^ 2 - muz ^ 2 = 0 by linarith]; simp
  unfold reportedMu viewMu
  simp only
  rw [if_pos (by rw [neg_sq, neg_sq]; linarith), neg_sq, neg_sq, e, h]
  constructor
  · unfold IsUnit3; simp only; linarith
  · simp only [vProj, dot3]; ring

/-- C65, REFUTED in full, 1: for every view that is out of the x-z plane the velocity used is wrong for every cell that moves along y: the
sign of the y velocity is opposite to what the direction written to the file says. -/
theorem C65_refuted_vy (mux muz : ℝ) (h : mux ^ 2 + muz ^ 2 < 1) (v : V3) :
    IsUnit3 (reportedMu mux muz) ∧ 0 < (reportedMu mux muz).y ∧
    vProj (viewMu mux muz) v = dot3 v (reportedMu mux muz) - 2 * v.y * (reportedMu mux muz).y ∧
    (v.y ≠ 0 → vProj (viewMu mux muz) v ≠ dot3 v (reportedMu mux muz)) := by
  have hm : max 0 (1 - mux ^ 2 - muz ^ 2) = 1 - mux ^ 2 - muz ^ 2 := max_eq_right (by linarith)
  have hy : 0 < (reportedMu mux muz).y := by
    unfold reportedMu; simp only; rw [hm]; exact Real.sqrt_pos.mpr (by linarith)
  have he : vProj (viewMu mux muz) v = dot3 v (reportedMu mux muz) - 2 * v.y * (reportedMu mux muz).y := by
    have key : viewMu mux muz = ⟨-mux, (reportedMu mux muz).y, -muz⟩ := by
      unfold viewMu reportedMu
      simp only
      rw [if_neg (by rw [neg_sq, neg_sq]; linarith), hm, neg_sq, neg_sq]
    rw [key]
    simp only [vProj, dot3]
    simp only [reportedMu]; ring
  refine ⟨?_, hy, he, fun hv hc => ?_⟩
  · unfold IsUnit3 reportedMu
    simp only
    rw [hm, Real.sq_sqrt (by linarith)]; ring
  · rw [he] at hc
    have : v.y * (reportedMu mux muz).y = 0 := by linarith
    rcases mul_eq_zero.mp this with h' | h'
    · exact hv h'
    · exact hy.ne' h'

/-- C65, REFUTED in full, 2: for every view whose components have a square sum above one the direction is divided by the squared
norm: it is not a unit vector, and every Doppler shift comes out too small by the factor `sqrt (mux² + muz²)`. -/
theorem C65_refuted_norm (mux muz : ℝ) (h : 1 < mux ^ 2 + muz ^ 2) (v : V3) :
    ¬ IsUnit3 (viewMu mux muz) ∧
    vProj (viewMu mux muz) v * Real.sqrt (mux ^ 2 + muz ^ 2) =
      dot3 v ⟨mux / Real.sqrt (mux ^ 2 + muz ^ 2), 0, muz / Real.sqrt (mux ^ 2 + muz ^ 2)⟩ := by
  have hn : 0 < mux ^ 2 + muz ^ 2 := by linarith
  have key : viewMu mux muz = ⟨-mux / (mux ^ 2 + muz ^ 2), 0, -muz / (mux ^ 2 + muz ^ 2)⟩ := by
    unfold viewMu
    simp only
    rw [if_pos (by rw [neg_sq, neg_sq]; linarith), neg_sq, neg_sq]
  rw [key]
  constructor
  · unfold IsUnit3
    simp only [div_pow, neg_sq]
    intro hc
    have : (mux ^ 2 + muz ^ 2) / (mux ^ 2 + muz ^ 2) ^ 2 = 1 := by rw [add_div]; linarith
    rw [div_eq_iff (by positivity)] at this
    nlinarith
  · simp only [vProj, dot3]
    have hs : Real.sqrt (mux ^ 2 + muz ^ 2) ^ 2 = mux ^ 2 + muz ^ 2 := Real.sq_sqrt hn.le
    have hsp : 0 < Real.sqrt (mux ^ 2 + muz ^ 2) := Real.sqrt_pos.mpr hn
    set s := Real.sqrt (mux ^ 2 + muz ^ 2)
    rw [← hs]
    field_simp
    ring

/-- Non-vacuity: `muz = 2`, `mux = 0`, a cell rising with speed 10 towards the observer: velocity 5 is used. -/
example : vProj (viewMu 0 2) ⟨0, 0, 10⟩ = 5 := by
  unfold viewMu vProj
  norm_num

/-- C65 (3D): for every non-zero view vector the rays run along the unit vector in its direction, whatever its length, and
the velocity used is the one along the opposite direction, towards the observer. -/
theorem C65_view3 (v : V3) (h : v.x ≠ 0 ∨ v.y ≠ 0 ∨ v.z ≠ 0) :
    IsUnit3 (viewRay3 v) ∧ (∃ k > 0, v = ⟨k * (viewRay3 v).x, k * (viewRay3 v).y, k * (viewRay3 v).z⟩) ∧
    ∀ u, vProj (viewRay3 v) u = dot3 u ⟨-(viewRay3 v).x, -(viewRay3 v).y, -(viewRay3 v).z⟩ := by
  have hp : 0 < v.x ^ 2 + v.y ^ 2 + v.z ^ 2 := by
    have h1 := sq_nonneg v.x; have h2 := sq_nonneg v.y; have h3 := sq_nonneg v.z
    rcases h with h | h | h <;> have := sq_pos_of_ne_zero h <;> linarith
  have hs := Real.sqrt_pos.mpr hp
  have hsq : Real.sqrt (v.x ^ 2 + v.y ^ 2 + v.z ^ 2) ^ 2 = v.x ^ 2 + v.y ^ 2 + v.z ^ 2 := Real.sq_sqrt hp.le
  unfold viewRay3
  simp only
  set s := Real.sqrt (v.x ^ 2 + v.y ^ 2 + v.z ^ 2)
  refine ⟨?_, ⟨s, hs, ?_⟩, fun u => by simp only [vProj, dot3]⟩
  · unfold IsUnit3
    simp only [div_pow]
    rw [← add_div, ← add_div, hsq, div_self hp.ne']
  · rw [mul_div_cancel₀ _ hs.ne', mul_div_cancel₀ _ hs.ne', mul_div_cancel₀ _ hs.ne']

/-- C65 (3D image): neighbouring pixels of the image are apart by `right / supersample` and `up / supersample` voxels; for unit
vectors this is the `pixel_scale` of the output file; the image of `supersample² · width · height` pixels starts half a pixel from the
corner. -/
theorem C65_pixels (voxel : ℝ) (ss : ℕ) (hss : 0 < ss) (corner up right : V3) (hr : IsUnit3 right) (hu : IsUnit3 up) (y x : ℕ) :
    let d := fun (a b : V3) => voxel ^ 2 * ((a.x - b.x) ^ 2 + (a.y - b.y) ^ 2 + (a.z - b.z) ^ 2)
    d (start3 ss corner up right y (x + 1)) (start3 ss corner up right y x) = pixelScale voxel ss ^ 2 ∧
    d (start3 ss corner up right (y + 1) x) (start3 ss corner up right y x) = pixelScale voxel ss ^ 2 := by
  have h0 : (ss : ℝ) ≠ 0 := by exact_mod_cast hss.ne'
  unfold IsUnit3 at hr hu
  simp only [start3, pixelScale]
  constructor
  · field_simp
    push_cast
    linear_combination (4 * voxel ^ 2) * hr
  · field_simp
    push_cast
    linear_combination (4 * voxel ^ 2) * hu

theorem readView_ok (view up right corner : List V3) (mu : ℕ) (h1 : mu < view.length) (h2 : mu < up.length)
    (h3 : mu < right.length) (h4 : mu < corner.length) :
    readView view up right corner mu = .ok (view[mu], up[mu], right[mu], corner[mu]) := by
  unfold readView
  simp [List.getElem?_eq_getElem, h1, h2, h3, h4]

theorem mapM_ok_of {α β : Type} (f : α → Outcome β) (l : List α) (h : ∀ a ∈ l, ∃ b, f a = .ok b) :
    ∃ r, l.mapM f = .ok r := by
  induction l with
  | nil => exact ⟨[], rfl⟩
  | cons a l ih =>
    obtain ⟨b, hb⟩ := h a (by simp)
    obtain ⟨r, hr⟩ := ih (fun a ha => h a (by simp [ha]))
    exact ⟨b :: r, by rw [List.mapM_cons, hb, hr]; rfl⟩

theorem mapM_ub_of {α β : Type} (f : α → Outcome β) (l : List α) (h : ∀ a ∈ l, (∃ b, f a = .ok b) ∨ f a = .ub)
    (hu : ∃ a ∈ l, f a = .ub) : l.mapM f = .ub := by
  induction l with
  | nil => simp at hu
  | cons a l ih =>
    rw [List.mapM_cons]
    rcases h a (by simp) with ⟨b, hb⟩ | hb
    · rw [hb, Outcome.ok_bind]
      have : l.mapM f = .ub := by
        apply ih (fun a ha => h a (by simp [ha]))
        obtain ⟨c, hc, hcu⟩ := hu
        rcases List.mem_cons.mp hc with rfl | hc
        · rw [hb] at hcu; simp at hcu
        · exact ⟨c, hc, hcu⟩
      rw [this]; rfl
    · rw [hb]; rfl

/-- C65 (3D configuration): mismatched or empty lists of view, up and right vectors are rejected; with at least as many image
corners as views every view is read in bounds; with fewer the check passes and memory past the end of the list is read. -/
theorem C65_views3 (view up right corner : List V3) :
    ((view.length ≠ up.length ∨ up.length ≠ right.length ∨ view = []) → readViews view up right corner = .throws) ∧
    (view ≠ [] → view.length = up.length → up.length = right.length →
      (view.length ≤ corner.length → ∃ r, readViews view up right corner = .ok r) ∧
      (corner.length < view.length → readViews view up right corner = .ub)) := by
  unfold readViews checkViews
  refine ⟨fun h => ?_, fun hv h1 h2 => ⟨fun hc => ?_, fun hc => ?_⟩⟩
  · rw [if_neg]
    simp only [Bool.not_eq_true', Bool.or_eq_false_iff, not_and_or]
    rcases h with h | h | h
    · left; left; simp [h]
    · left; right; simp [h]
    · right; simp [h]
  · rw [if_pos (by simp [h1, h2]; rintro rfl; simp_all)]
    apply mapM_ok_of
    intro mu hmu
    have := List.mem_range.mp hmu
    exact ⟨_, readView_ok view up right corner mu this (by omega) (by omega) (by omega)⟩
  · rw [if_pos (by simp [h1, h2]; rintro rfl; simp_all)]
    apply mapM_ub_of
    · intro mu hmu
      have := List.mem_range.mp hmu
      by_cases h4 : mu < corner.length
      · exact Or.inl ⟨_, readView_ok view up right corner mu this (by omega) (by omega) h4⟩
      · right; unfold readView; simp [List.getElem?_eq_none (not_lt.mp h4)]
    · refine ⟨corner.length, List.mem_range.mpr hc, ?_⟩
      unfold readView; simp

/-- Non-vacuity: two views, one corner. -/
example : readViews [⟨0, 0, -1⟩, ⟨1, 0, 0⟩] [⟨0, 1, 0⟩, ⟨0, 1, 0⟩] [⟨1, 0, 0⟩, ⟨0, 0, 1⟩] [⟨0, 0, 9⟩] = .ub :=
  ((C65_views3 [⟨0, 0, -1⟩, ⟨1, 0, 0⟩] [⟨0, 1, 0⟩, ⟨0, 1, 0⟩] [⟨1, 0, 0⟩, ⟨0, 0, 1⟩] [⟨0, 0, 9⟩]).2 (by simp) rfl rfl).2
    (by simp)

/-! ## C66: the rays cover the model -/

/-- Points of the model, in voxels. -/
def InModel (nx nz : ℕ) (p : V2) : Prop := 0 ≤ p.x ∧ p.x ≤ nx ∧ 0 ≤ p.z ∧ p.z ≤ nz

/-- The ray traced for start `i` with `rotate_aabb`. -/
noncomputable def rotRay (nx nz : ℕ) (mux muz : ℝ) (neg : Bool) (negZero : Fin 2 → Bool) (i : ℕ) : RaySeg 2 :=
  raySeg nx nz (startRot nx nz mux muz neg i) (flatMu (viewMu mux muz)) negZero

theorem depth_bound (nx nz : ℕ) (m p : V2) (hp : InModel nx nz p) :
    |m.x * (p.x - nx / 2) + m.z * (p.z - nz / 2)| ≤ |m.x| * (nx / 2) + |m.z| * (nz / 2) := by
  obtain ⟨h1, h2, h3, h4⟩ := hp
  refine (abs_add_le _ _).trans ?_
  rw [abs_mul, abs_mul]
  have a1 : |p.x - nx / 2| ≤ nx / 2 := by rw [abs_le]; constructor <;> linarith
  have a2 : |p.z - nz / 2| ≤ nz / 2 := by rw [abs_le]; constructor <;> linarith
  exact add_le_add (mul_le_mul_of_nonneg_left a1 (abs_nonneg _)) (mul_le_mul_of_nonneg_left a2 (abs_nonneg _))

theorem rotRay_pt (nx nz : ℕ) (mux muz : ℝ) (neg : Bool) (negZero : Fin 2 → Bool) (h : mux ≠ 0 ∨ muz ≠ 0) (i : ℕ) (t : ℝ) :
    let m := los mux muz
    (rotRay nx nz mux muz neg negZero i).pt t 0 =
        nx / 2 + (-halfW nx nz m + 1 / 2 + i) * m.z + height nx nz m * m.x - t * m.x ∧
    (rotRay nx nz mux muz neg negZero i).pt t 1 =
        nz / 2 - (-halfW nx nz m + 1 / 2 + i) * m.x + height nx nz m * m.z - t * m.z := by
  intro m
  unfold rotRay raySeg RaySeg.pt
  rw [startRot_eq nx nz mux muz neg h, flatMu_viewMu mux muz h]
  simp only [Matrix.cons_val_zero, Matrix.cons_val_one]
  constructor <;> (simp only [m]; ring)

/-- C66 (image plane): for every grid and view, every ray starts in front of the whole model (by one voxel or more along
the line of sight); every point of the model has a ray passing within half a voxel of it, behind the ray's start. -/
theorem C66_image_plane (nx nz : ℕ) (mux muz : ℝ) (neg : Bool) (negZero : Fin 2 → Bool) (h : mux ≠ 0 ∨ muz ≠ 0) (p : V2)
    (hp : InModel nx nz p) :
    let r := rotRay nx nz mux muz neg negZero
    let m := los mux muz
    (∀ i, 1 ≤ m.x * ((r i).o 0 - p.x) + m.z * ((r i).o 1 - p.z)) ∧
    ∃ i < numRaysRot nx nz mux muz neg, ∃ t ≥ 1, ((r i).pt t 0 - p.x) ^ 2 + ((r i).pt t 1 - p.z) ^ 2 ≤ (1 / 2) ^ 2 := by
  intro r m
  have hu := los_unit mux muz h
  have hd := depth_bound nx nz m p hp
  have hd' := abs_le.mp hd
  have hw := depth_bound nx nz ⟨m.z, -m.x⟩ p hp
  simp only [abs_neg] at hw
  have hw' := abs_le.mp hw
  constructor
  · intro i
    have e := rotRay_pt nx nz mux muz neg negZero h i 0
    have e0 : (r i).o 0 = (r i).pt 0 0 := by simp [RaySeg.pt]
    have e1 : (r i).o 1 = (r i).pt 0 1 := by simp [RaySeg.pt]
    rw [e0, e1, e.1, e.2]
    change 1 ≤ m.x * _ + m.z * _
    have hh : height nx nz m = |m.x| * (nx / 2) + |m.z| * (nz / 2) + 1 := rfl
    have : m.x * (nx / 2 + (-halfW nx nz m + 1 / 2 + i) * m.z + height nx nz m * m.x - 0 * m.x - p.x) +
        m.z * (nz / 2 - (-halfW nx nz m + 1 / 2 + i) * m.x + height nx nz m * m.z - 0 * m.z - p.z) =
        height nx nz m - (m.x * (p.x - nx / 2) + m.z * (p.z - nz / 2)) := by
      linear_combination height nx nz m * hu
    rw [this, hh]
    linarith [hd'.2]
  · rw [numRaysRot_eq nx nz mux muz neg h]
    set w := m.z * (p.x - nx / 2) + -m.x * (p.z - nz / 2) with hwd
    set g := m.x * (p.x - nx / 2) + m.z * (p.z - nz / 2) with hgd
    have hW : halfW nx nz m = |m.z| * (nx / 2) + |m.x| * (nz / 2) + 1 := rfl
    have hH : height nx nz m = |m.x| * (nx / 2) + |m.z| * (nz / 2) + 1 := rfl
    have hq : 1 ≤ w + halfW nx nz m := by rw [hW]; linarith [hw'.1]
    have hq2 : w + halfW nx nz m < 2 * halfW nx nz m := by
      have := hw'.2
      rw [hW]; linarith
    refine ⟨⌊w + halfW nx nz m⌋₊, ?_, height nx nz m - g, by rw [hH]; linarith [hd'.2], ?_⟩
    · rw [Nat.lt_ceil]
      exact lt_of_le_of_lt (Nat.floor_le (by linarith)) hq2
    · have e := rotRay_pt nx nz mux muz neg negZero h ⌊w + halfW nx nz m⌋₊ (height nx nz m - g)
      change ((rotRay nx nz mux muz neg negZero _).pt _ 0 - p.x) ^ 2 + ((rotRay nx nz mux muz neg negZero _).pt _ 1 - p.z) ^ 2 ≤ _
      rw [e.1, e.2]
      change (nx / 2 + (-halfW nx nz m + 1 / 2 + _) * m.z + height nx nz m * m.x - (height nx nz m - g) * m.x - p.x) ^ 2 +
        (nz / 2 - (-halfW nx nz m + 1 / 2 + _) * m.x + height nx nz m * m.z - (height nx nz m - g) * m.z - p.z) ^ 2 ≤ _
      have f1 := Nat.floor_le (show 0 ≤ w + halfW nx nz m by linarith)
      have f2 := Nat.lt_floor_add_one (w + halfW nx nz m)
      generalize (⌊w + halfW nx nz m⌋₊ : ℝ) = fl at *
      set δ := -halfW nx nz m + 1 / 2 + fl - w with hδ
      have b : δ ^ 2 ≤ (1 / 2) ^ 2 := by
        apply sq_le_sq'
        · linarith
        · linarith
      have k1 : nx / 2 + (-halfW nx nz m + 1 / 2 + fl) * m.z + height nx nz m * m.x - (height nx nz m - g) * m.x - p.x = δ * m.z := by
        rw [hδ, hgd, hwd]
        linear_combination (p.x - nx / 2) * hu
      have k2 : nz / 2 - (-halfW nx nz m + 1 / 2 + fl) * m.x + height nx nz m * m.z - (height nx nz m - g) * m.z - p.z = -δ * m.x := by
        rw [hδ, hgd, hwd]
        linear_combination (p.z - nz / 2) * hu
      rw [k1, k2]
      calc (δ * m.z) ^ 2 + (-δ * m.x) ^ 2 = δ ^ 2 := by linear_combination δ ^ 2 * hu
        _ ≤ _ := b

/-- A traced ray is complete: no point of the model on its line, from its start on, lies beyond its end. -/
def Complete (nx nz : ℕ) (r : RaySeg 2) : Prop := ∀ t ≥ 0, InModel nx nz ⟨r.pt t 0, r.pt t 1⟩ → t ≤ r.t1

/-- C66, proved part: if the depth of the model along the line of sight plus one voxel is not more than its longer side, every ray is
complete. -/
theorem C66_complete_partial (nx nz : ℕ) (mux muz : ℝ) (neg : Bool) (negZero : Fin 2 → Bool) (h : mux ≠ 0 ∨ muz ≠ 0) (i : ℕ)
    (hd : nx * |(los mux muz).x| + nz * |(los mux muz).z| + 1 ≤ max (nz : ℝ) nx) :
    Complete nx nz (rotRay nx nz mux muz neg negZero i) := by
  intro t _ hp
  have hu := los_unit mux muz h
  have e := rotRay_pt nx nz mux muz neg negZero h i t
  have hb := (abs_le.mp (depth_bound nx nz (los mux muz) _ hp)).1
  rw [e.1, e.2] at hb
  have ht : (rotRay nx nz mux muz neg negZero i).t1 = max (nz : ℝ) nx := rfl
  rw [ht]
  refine le_trans ?_ hd
  set m := los mux muz
  have hH : height nx nz m = |m.x| * (nx / 2) + |m.z| * (nz / 2) + 1 := rfl
  have : m.x * (nx / 2 + (-halfW nx nz m + 1 / 2 + i) * m.z + height nx nz m * m.x - t * m.x - nx / 2) +
      m.z * (nz / 2 - (-halfW nx nz m + 1 / 2 + i) * m.x + height nx nz m * m.z - t * m.z - nz / 2) = height nx nz m - t := by
    linear_combination (height nx nz m - t) * hu
  rw [this, hH] at hb
  linarith

/-- Non-vacuity: a wide model seen face on. -/
example : Complete 64 32 (rotRay 64 32 0 1 false ![true, false] 7) := by
  apply C66_complete_partial
  · right; norm_num
  · simp [los]; norm_num

/-- C66, REFUTED in full: for every view there is a corner of the model that no ray comes near: along the line of sight every traced
point is at least `nx |m_x| + nz |m_z| + 1 - max nx nz` in front of it. -/
theorem C66_truncated (nx nz : ℕ) (mux muz : ℝ) (neg : Bool) (negZero : Fin 2 → Bool) (h : mux ≠ 0 ∨ muz ≠ 0) :
    let m := los mux muz
    ∃ q, InModel nx nz q ∧ ∀ i t, t ≤ (rotRay nx nz mux muz neg negZero i).t1 →
      nx * |m.x| + nz * |m.z| + 1 - max (nz : ℝ) nx ≤
        m.x * ((rotRay nx nz mux muz neg negZero i).pt t 0 - q.x) + m.z * ((rotRay nx nz mux muz neg negZero i).pt t 1 - q.z) := by
  intro m
  have hu := los_unit mux muz h
  have hnx : (0 : ℝ) ≤ nx := Nat.cast_nonneg nx
  have hnz : (0 : ℝ) ≤ nz := Nat.cast_nonneg nz
  refine ⟨⟨if 0 ≤ m.x then 0 else nx, if 0 ≤ m.z then 0 else nz⟩, ?_, fun i t ht => ?_⟩
  · unfold InModel
    simp only
    refine ⟨?_, ?_, ?_, ?_⟩ <;> split <;> simp
  · have e := rotRay_pt nx nz mux muz neg negZero h i t
    rw [e.1, e.2]
    have ht : t ≤ max (nz : ℝ) nx := ht
    have hH : height nx nz m = |m.x| * (nx / 2) + |m.z| * (nz / 2) + 1 := rfl
    have q1 : m.x * (nx / 2 - (if 0 ≤ m.x then 0 else (nx : ℝ))) = |m.x| * (nx / 2) := by
      split
      · rename_i h'; rw [abs_of_nonneg h']; ring
      · rename_i h'; rw [abs_of_neg (not_le.mp h')]; ring
    have q2 : m.z * (nz / 2 - (if 0 ≤ m.z then 0 else (nz : ℝ))) = |m.z| * (nz / 2) := by
      split
      · rename_i h'; rw [abs_of_nonneg h']; ring
      · rename_i h'; rw [abs_of_neg (not_le.mp h')]; ring
    simp only
    generalize (if 0 ≤ m.x then 0 else (nx : ℝ)) = qx at *
    generalize (if 0 ≤ m.z then 0 else (nz : ℝ)) = qz at *
    have : m.x * (nx / 2 + (-halfW nx nz m + 1 / 2 + i) * m.z + height nx nz m * m.x - t * m.x - qx) +
        m.z * (nz / 2 - (-halfW nx nz m + 1 / 2 + i) * m.x + height nx nz m * m.z - t * m.z - qz) =
        height nx nz m - t + m.x * (nx / 2 - qx) + m.z * (nz / 2 - qz) := by
      linear_combination (height nx nz m - t) * hu
    change _ ≤ m.x * (nx / 2 + (-halfW nx nz m + 1 / 2 + i) * m.z + height nx nz m * m.x - t * m.x - qx) +
        m.z * (nz / 2 - (-halfW nx nz m + 1 / 2 + i) * m.x + height nx nz m * m.z - t * m.z - qz)
    rw [this, q1, q2, hH]
    linarith

/-- C66, REFUTED for every square model and every view: no ray comes within one voxel of the far corner. -/
theorem C66_refuted_square (n : ℕ) (mux muz : ℝ) (neg : Bool) (negZero : Fin 2 → Bool) (h : mux ≠ 0 ∨ muz ≠ 0) :
    ∃ q, InModel n n q ∧ ∀ i t, t ≤ (rotRay n n mux muz neg negZero i).t1 →
      1 ≤ ((rotRay n n mux muz neg negZero i).pt t 0 - q.x) ^ 2 + ((rotRay n n mux muz neg negZero i).pt t 1 - q.z) ^ 2 := by
  obtain ⟨q, hq, hall⟩ := C66_truncated n n mux muz neg negZero h
  refine ⟨q, hq, fun i t ht => ?_⟩
  have hb := hall i t ht
  have hu := los_unit mux muz h
  rw [max_self] at hb
  have h1 : 1 ≤ |(los mux muz).x| + |(los mux muz).z| := by
    have a1 := abs_nonneg (los mux muz).x; have a2 := abs_nonneg (los mux muz).z
    have s1 := sq_abs (los mux muz).x; have s2 := sq_abs (los mux muz).z
    nlinarith
  have hn : (0 : ℝ) ≤ n := Nat.cast_nonneg n
  generalize (rotRay n n mux muz neg negZero i).pt t 0 - q.x = a at *
  generalize (rotRay n n mux muz neg negZero i).pt t 1 - q.z = b at *
  have h2 : 1 ≤ (los mux muz).x * a + (los mux muz).z * b := by nlinarith
  nlinarith [sq_nonneg ((los mux muz).x * b - (los mux muz).z * a), sq_nonneg ((los mux muz).x * a + (los mux muz).z * b)]

/-- C66, REFUTED for the plainest view, face on, of every model that is not wider than high: every traced ray ends at height
one; the bottom row of cells is never seen. -/
theorem C66_refuted_face_on (nx nz : ℕ) (hn : nx ≤ nz) (neg : Bool) (negZero : Fin 2 → Bool) (i : ℕ) (t : ℝ)
    (ht : t ≤ (rotRay nx nz 0 1 neg negZero i).t1) : 1 ≤ (rotRay nx nz 0 1 neg negZero i).pt t 1 := by
  have e := (rotRay_pt nx nz 0 1 neg negZero (by right; norm_num) i t).2
  have ht : t ≤ max (nz : ℝ) nx := ht
  rw [max_eq_left (by exact_mod_cast hn)] at ht
  rw [e]
  simp [los, height]
  linarith

/-- C66 (without `rotate_aabb`), proved part: rays straight down are complete in every model. -/
theorem C66_fixed_vertical_partial (nx nz : ℕ) (muz : ℝ) (hm : 0 < muz) (negZero : Fin 2 → Bool) (i : ℕ) :
    Complete nx nz (raySeg nx nz (startFixed nz i) (flatMu (viewMu 0 muz)) negZero) := by
  intro t _ hp
  have hl : los 0 muz = ⟨0, 1⟩ := by
    unfold los
    rw [show muz ^ 2 + 0 ^ 2 = muz ^ 2 by ring, Real.sqrt_sq hm.le, div_self hm.ne', zero_div]
  rw [flatMu_viewMu 0 muz (Or.inr hm.ne'), hl] at hp
  have := hp.2.2.1
  simp [raySeg, RaySeg.pt, startFixed] at this
  show t ≤ max (nz : ℝ) nx
  refine le_trans ?_ (le_max_left _ _)
  linarith

/-- C66 (without `rotate_aabb`), REFUTED: in every square model of at least 3 by 3 cells the last ray at 45 degrees ends inside the
model. -/
theorem C66_refuted_fixed (n : ℕ) (hn : 3 ≤ n) (negZero : Fin 2 → Bool) :
    ¬ Complete n n (raySeg n n (startFixed n (n - 1)) (flatMu (viewMu 1 1)) negZero) := by
  intro hc
  have hl : los 1 1 = ⟨1 / Real.sqrt 2, 1 / Real.sqrt 2⟩ := by
    unfold los; norm_num
  rw [flatMu_viewMu 1 1 (Or.inl one_ne_zero), hl] at hc
  have hn' : (3 : ℝ) ≤ n := by exact_mod_cast hn
  have hs : 0 < Real.sqrt 2 := Real.sqrt_pos.mpr (by norm_num)
  have hs2 : Real.sqrt 2 ^ 2 = 2 := Real.sq_sqrt (by norm_num)
  have hs3 : 7 / 5 < Real.sqrt 2 := by nlinarith
  have hsub : ((n - 1 : ℕ) : ℝ) = n - 1 := by rw [Nat.cast_sub (by omega)]; norm_num
  have := hc (Real.sqrt 2 * (n - 3 / 4)) (by nlinarith) (by
    simp only [raySeg, RaySeg.pt, startFixed, Matrix.cons_val_zero, Matrix.cons_val_one, InModel, hsub]
    have e : Real.sqrt 2 * ((n : ℝ) - 3 / 4) * -(1 / Real.sqrt 2) = -((n : ℝ) - 3 / 4) := by field_simp
    rw [e]
    refine ⟨?_, ?_, ?_, ?_⟩ <;> linarith)
  have ht : (raySeg n n (startFixed n (n - 1)) ⟨-(1 / Real.sqrt 2), -(1 / Real.sqrt 2)⟩ negZero).t1 = n := by
    simp [raySeg]
  rw [ht] at this
  nlinarith

/-- C66 (what is integrated): the segment that the traversal gets for a ray is exactly the part of the line inside the grid (less the
rim of 1e-4 voxels) up to the ray's end; for complete rays it is the whole chord. -/
theorem C66_segment (nx nz : ℕ) (start d : V2) (negZero : Fin 2 → Bool) (shrink : ℝ)
    (hz : ∀ k, (raySeg nx nz start d negZero).d k = 0 → negZero k = false ∨
      ((raySeg nx nz start d negZero).o k ≠ (grid2 nx nz).min k + shrink ∧
        (raySeg nx nz start d negZero).o k ≠ (grid2 nx nz).max k - shrink))
    (hs : 0 ≤ shrink) (hc : Complete nx nz (raySeg nx nz start d negZero))
    (r' : RaySeg 2) (cl : Bool) (hclip : (raySeg nx nz start d negZero).clip (grid2 nx nz) shrink = some (r', cl)) (t : ℝ) :
    (r'.t0 ≤ t ∧ t ≤ r'.t1) ↔ (0 ≤ t ∧ innerBox (grid2 nx nz) shrink ((raySeg nx nz start d negZero).pt t)) := by
  have h := C38_segment_partial (by norm_num) (raySeg nx nz start d negZero) (grid2 nx nz) shrink hz
  rw [hclip] at h
  rw [h.2.2.1 t]
  constructor
  · rintro ⟨⟨h0, _⟩, h2⟩; exact ⟨h0, h2⟩
  · rintro ⟨h0, h2⟩
    refine ⟨⟨h0, hc t h0 ?_⟩, h2⟩
    have b0 := h2 0
    have b1 := h2 1
    simp only [grid2, Matrix.cons_val_zero, Matrix.cons_val_one, Int.cast_zero, Int.cast_natCast] at b0 b1
    refine ⟨?_, ?_, ?_, ?_⟩ <;> linarith [b0.1, b0.2, b1.1, b1.2]

/-- C66 (3D): rays have length 8192 voxels; a ray whose start is not farther than that from any point of the model is
complete. -/
theorem C66_complete3 (nx ny nz : ℕ) (start d : V3) (hd : IsUnit3 d) (negZero : Fin 3 → Bool)
    (hfar : ∀ p : V3, 0 ≤ p.x → p.x ≤ nx → 0 ≤ p.y → p.y ≤ ny → 0 ≤ p.z → p.z ≤ nz →
      (p.x - start.x) ^ 2 + (p.y - start.y) ^ 2 + (p.z - start.z) ^ 2 ≤ 8192 ^ 2) (t : ℝ)
    (hin : innerBox (grid3 nx ny nz) 0 ((raySeg3 start d negZero).pt t)) : t ≤ (raySeg3 start d negZero).t1 := by
  have b0 := hin 0
  have b1 := hin 1
  have b2 := hin 2
  simp [grid3, raySeg3, RaySeg.pt] at b0 b1 b2
  have := hfar ⟨start.x + t * d.x, start.y + t * d.y, start.z + t * d.z⟩ b0.1 b0.2 b1.1 b1.2 b2.1 b2.2
  simp only at this
  unfold IsUnit3 at hd
  have e : (start.x + t * d.x - start.x) ^ 2 + (start.y + t * d.y - start.y) ^ 2 + (start.z + t * d.z - start.z) ^ 2 = t ^ 2 := by
    linear_combination t ^ 2 * hd
  rw [e] at this
  show t ≤ 8192
  nlinarith

/-- Non-vacuity: a 512³ model seen from above. -/
example : ∀ t, innerBox (grid3 512 512 512) 0 ((raySeg3 ⟨100, 100, 600⟩ ⟨0, 0, -1⟩ ![false, false, false]).pt t) →
    t ≤ (raySeg3 ⟨100, 100, 600⟩ ⟨0, 0, -1⟩ ![false, false, false]).t1 := by
  intro t
  apply C66_complete3
  · norm_num [IsUnit3]
  · intro p h1 h2 h3 h4 h5 h6
    norm_num at *
    nlinarith

end DexRT
