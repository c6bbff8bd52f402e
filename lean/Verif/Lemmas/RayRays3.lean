import Verif.Lemmas.RayCells3
import Verif.Lemmas.RayRays
/-! Lemmas for C92: the traversal and one ray. -/
namespace DexRT.RayRun3
open DexRT DexRT.AtmosFile DexRT.Emis DexRT.Ray DexRT.RayRun DexRT.Lte3 Classical

variable {t : Tool} {k nx ny nz : Nat} {a : Cond} {res : Result} {d : Loaded}

/-- arguments of a march with only the geometry filled in -/
noncomputable def geoArgs (e : DdaEnv .three) (seg : RaySeg 3) : RaymarchArgs .three :=
  ⟨seg, e, fun _ _ => 0, fun _ _ => 0, true, 1, 0, false, false, 0, 0, 0⟩

theorem plain_pos {d : Dir3} (h : PlainDir d) : 0 < d.x.v ^ 2 + d.y.v ^ 2 + d.z.v ^ 2 := by
  have hn := h.1
  rcases lt_or_eq_of_le (by positivity : 0 ≤ d.x.v ^ 2 + d.y.v ^ 2 + d.z.v ^ 2) with h' | h'
  · exact h'
  · exfalso
    apply hn
    have hx : d.x.v = 0 := by nlinarith [sq_nonneg d.x.v, sq_nonneg d.y.v, sq_nonneg d.z.v]
    have hy : d.y.v = 0 := by nlinarith [sq_nonneg d.x.v, sq_nonneg d.y.v, sq_nonneg d.z.v]
    have hz : d.z.v = 0 := by nlinarith [sq_nonneg d.x.v, sq_nonneg d.y.v, sq_nonneg d.z.v]
    unfold Dir3.vec
    rw [hx, hy, hz]

/-- the line of sight is a unit vector -/
theorem los_unit {d : Dir3} (h : PlainDir d) : (lineOfSight d).x ^ 2 + (lineOfSight d).y ^ 2 + (lineOfSight d).z ^ 2 = 1 := by
  have hp := plain_pos h
  have hs := Real.sq_sqrt hp.le
  have hs0 : Real.sqrt (d.x.v ^ 2 + d.y.v ^ 2 + d.z.v ^ 2) ≠ 0 := (Real.sqrt_pos.2 hp).ne'
  unfold lineOfSight
  simp only [div_pow, hs]
  field_simp

/-- the ray of the program is the ray of the pixel -/
theorem seg_eq (ss : Nat) (v : View) (h : PlainDir v.dir) (y x : Nat) : segOf ss v y x = pixelRay ss v y x := by
  obtain ⟨-, h1, h2, h3⟩ := h
  unfold segOf raySeg3 pixelRay
  rw [h1, h2, h3]
  unfold Ray.start3 pixel viewRay3 lineOfSight Dir3.vec
  simp only [mul_div_assoc]

/-- the segments of a view are usable -/
theorem seg_good (e : DdaEnv .three) (ss : Nat) (v : View) (hv : PlainDir v.dir) (y x : Nat) : GoodSeg (geoArgs e (pixelRay ss v y x)) := by
  have hu := los_unit hv
  constructor
  · intro j
    show |(pixelRay ss v y x).d j| ≤ 1
    refine abs_le_one_iff_mul_self_le_one.2 ?_
    match j with
    | 0 => show (lineOfSight v.dir).x * (lineOfSight v.dir).x ≤ 1; nlinarith [sq_nonneg (lineOfSight v.dir).y, sq_nonneg (lineOfSight v.dir).z]
    | 1 => show (lineOfSight v.dir).y * (lineOfSight v.dir).y ≤ 1; nlinarith [sq_nonneg (lineOfSight v.dir).x, sq_nonneg (lineOfSight v.dir).z]
    | 2 => show (lineOfSight v.dir).z * (lineOfSight v.dir).z ≤ 1; nlinarith [sq_nonneg (lineOfSight v.dir).x, sq_nonneg (lineOfSight v.dir).y]
  · intro j hj
    left
    show (pixelRay ss v y x).negZero j = false
    match j with
    | 0 => rfl
    | 1 => rfl
    | 2 => rfl

theorem env_block : 1 ≤ (rayEnv t k nx ny nz a).block := by
  show (1 : ℤ) ≤ ((2 ^ k : Nat) : ℤ)
  exact_mod_cast Nat.one_le_two_pow

/-- the marched path is short -/
theorem path_short (ss : Nat) (v : View) (hv : PlainDir v.dir) (y x : Nat) (r : DdaRay .three) (s : Dda .three)
    (hs : ddaStart (rayEnv t k nx ny nz a) (pixelRay ss v y x) = some (r, s)) : r.t1 ≤ 1e24 := by
  have h := C78_starts (geoArgs (rayEnv t k nx ny nz a) (pixelRay ss v y x)) env_block (seg_good _ _ _ hv _ _)
  have hs' : ddaStart (geoArgs (rayEnv t k nx ny nz a) (pixelRay ss v y x)).env
      (geoArgs (rayEnv t k nx ny nz a) (pixelRay ss v y x)).seg = some (r, s) := hs
  rw [hs'] at h
  obtain ⟨t0, -, h1, h2, -⟩ := h
  have hr0 : 0 ≤ r.t1 := by norm_num at h1; linarith
  obtain ⟨⟨q1, -⟩, -⟩ := (h2 0).1 ⟨le_rfl, hr0⟩
  obtain ⟨⟨-, q2⟩, -⟩ := (h2 r.t1).1 ⟨hr0, le_rfl⟩
  have e0 : (geoArgs (rayEnv t k nx ny nz a) (pixelRay ss v y x)).seg.t0 = 0 := rfl
  have e1 : (geoArgs (rayEnv t k nx ny nz a) (pixelRay ss v y x)).seg.t1 = 8192 := rfl
  rw [e0] at q1
  rw [e1] at q2
  norm_num
  linarith

/-- with no threshold every start is good -/
theorem full_start (hc : t.cutoff = 0) (r : DdaRay .three) : GoodStart (rayEnv t k nx ny nz a) r := by
  by_cases h : (rayEnv t k nx ny nz a).inBounds (startCell r)
  · left
    have hk : Kept3 t k nx ny nz a ⟨startCell r 0, startCell r 1, startCell r 2⟩ := by
      refine ⟨?_, Or.inl hc⟩
      obtain ⟨a1, a2⟩ := h 0
      obtain ⟨b1, b2⟩ := h 1
      obtain ⟨c1, c2⟩ := h 2
      exact ⟨a1, a2, b1, b2, c1, c2⟩
    unfold DdaEnv.sampleLevel
    show 0 ≤ min (if Kept3 t k nx ny nz a ⟨startCell r 0, startCell r 1, startCell r 2⟩ then (0 : ℤ) else -1) 0
    rw [if_pos hk]
    simp
  · exact Or.inr (Or.inl h)

theorem env_blk (c : Fin 3 → ℤ) (m : ℤ) (hm : m < 0 ∨ m ≤ (rayEnv t k nx ny nz a).maxMip) :
    (rayEnv t k nx ny nz a).lvl (fun i => maskCoord (c i) ((rayEnv t k nx ny nz a).stepSize m)) = (rayEnv t k nx ny nz a).lvl c := by
  have hm0 : m < 0 ∨ m = 0 := by
    rcases hm with h | h
    · exact Or.inl h
    · have : m ≤ 0 := h
      omega
  rcases hm0 with h | h
  · have hsz : (rayEnv t k nx ny nz a).stepSize m = ((2 ^ k : Nat) : ℤ) := by
      unfold DdaEnv.stepSize; rw [if_pos h]; rfl
    rw [hsz]
    have hp : (0 : ℤ) < ((2 ^ k : Nat) : ℤ) := by exact_mod_cast Nat.two_pow_pos k
    obtain ⟨a1, a2, a3⟩ := Given.mask_div (c 0) ((2 ^ k : Nat) : ℤ) 1 nx hp
    obtain ⟨b1, b2, b3⟩ := Given.mask_div (c 1) ((2 ^ k : Nat) : ℤ) 1 ny hp
    obtain ⟨c1, c2, c3⟩ := Given.mask_div (c 2) ((2 ^ k : Nat) : ℤ) 1 nz hp
    rw [one_mul] at a1 a3 b1 b3 c1 c3
    show (if Kept3 t k nx ny nz a ⟨maskCoord (c 0) ((2 ^ k : Nat) : ℤ), maskCoord (c 1) ((2 ^ k : Nat) : ℤ), maskCoord (c 2) ((2 ^ k : Nat) : ℤ)⟩ then (0 : ℤ) else -1) =
      if Kept3 t k nx ny nz a ⟨c 0, c 1, c 2⟩ then 0 else -1
    refine if_congr ?_ rfl rfl
    unfold Kept3 Given3.InGrid
    simp only [a1, b1, c1, a2, b2, c2]
    push_cast at a3 b3 c3 ⊢
    rw [a3, b3, c3]
  · have hsz : (rayEnv t k nx ny nz a).stepSize m = 1 := by
      unfold DdaEnv.stepSize; rw [h]; rfl
    rw [hsz]
    congr 1
    funext i
    unfold maskCoord
    simp

theorem env_ok (hf : RayFits t k nx ny nz) (hI : IsLoaded t k nx ny nz a res d) (junk : ℤ) : envOf t d junk = rayEnv t k nx ny nz a := by
  unfold envOf rayEnv
  have h1 := levelAt_ok (a := a) hf d.mr (by rw [hI.mrbm]; exact hI.map) hI.levels junk
  rw [hf.block, h1, hI.map.bbox]
  unfold rayEnv
  simp only [Nat.cast_mul]

theorem read_ok (hf : RayFits t k nx ny nz) (hI : IsLoaded t k nx ny nz a res d) (junk : EO) (m : Int → EO) (field : Coord3 → EO)
    (hm : ∀ c, HasData3 (2 ^ k) nx ny nz (ActiveTile t k a) c → ∀ adr, Addr3 (2 ^ k) d.bm c adr → m adr = field c) (c : Fin 3 → ℤ)
    (hc : Kept3 t k nx ny nz a ⟨c 0, c 1, c 2⟩) : readEO t d junk m c = field ⟨c 0, c 1, c 2⟩ := by
  have hd := (kept_iff t k nx ny nz a _).1 hc
  obtain ⟨adr, s', e1, e2⟩ := idx_zero hf d.mr (by rw [hI.mrbm]; exact hI.map) hI.off hI.levels hI.store ⟨c 0, c 1, c 2⟩ hd
  rw [hI.mrbm] at e2
  have H := iterSpace3 k nx ny nz _ d.bm hf.axes.1 hf.axes.2.1 hf.axes.2.2 hI.map
  have hrng : 0 ≤ adr ∧ adr < numActiveCells (((2 ^ k : Nat) : Int) * ((2 ^ k : Nat) : Int) * ((2 ^ k : Nat) : Int)) d.bm := by
    obtain ⟨p, hp, hpc⟩ := H.ontoC _ hd
    obtain ⟨c', c1, -, c3⟩ := H.co p hp
    rw [hpc] at c1
    rw [← Outcome.ok.inj c1] at c3
    rw [H.fn _ _ _ e2 c3]
    exact H.rng p hp
  unfold readEO
  rw [hf.block, e1]
  simp only
  rw [if_pos hrng]
  exact hm _ hd adr e2

/-- the background exists, and is what the program reads -/
theorem boundary_ok (hr : RayReady t) (w ss : Nat) (v : View) (y x : Nat) : ∃ bI, Background t a ss v w y x bI ∧
    boundaryI3 (t.bc w) a.scale ⟨a.offset 0, a.offset 1, a.offset 2⟩ (Ray.start3 ss v.corner v.up v.right y x) (viewRay3 v.dir.vec) = .ok bI := by
  have hm : viewRay3 v.dir.vec = lineOfSight v.dir := rfl
  have hst : Ray.start3 ss v.corner v.up v.right y x = ⟨pixel ss v y x (·.x), pixel ss v y x (·.y), pixel ss v y x (·.z)⟩ := by
    unfold Ray.start3 pixel
    simp only [mul_div_assoc]
  unfold boundaryI3 Background
  rw [hm, hst]
  by_cases h : (lineOfSight v.dir).z < 0
  · obtain ⟨h1, h2, h3⟩ := hr.tables w
    obtain ⟨bI, e⟩ : ∃ bI, Boundary.samplePw true true (t.bc w)
      ⟨pixel ss v y x (·.x) * a.scale + a.offset 0, pixel ss v y x (·.y) * a.scale + a.offset 1, pixel ss v y x (·.z) * a.scale + a.offset 2⟩
      ⟨-(lineOfSight v.dir).x, -(lineOfSight v.dir).y, -(lineOfSight v.dir).z⟩ = .ok bI := by
      unfold Boundary.samplePw
      exact lookup_ok _ h1 h2 h3 _
    refine ⟨bI, ?_, ?_⟩
    · rw [if_pos h]; exact e
    · rw [if_pos h]; exact e
  · refine ⟨0, ?_, ?_⟩
    · rw [if_neg h]
    · rw [if_neg h]

/-- the background is one number -/
theorem background_unique {w ss : Nat} {v : View} {y x : Nat} {b b' : ℝ} (h : Background t a ss v w y x b) (h' : Background t a ss v w y x b') : b = b' := by
  unfold Background at h h'
  by_cases hz : (lineOfSight v.dir).z < 0
  · rw [if_pos hz] at h h'
    rw [h] at h'
    exact Outcome.ok.inj h'
  · rw [if_neg hz] at h h'
    rw [h, h']

/-- what a ray sees, as a value -/
noncomputable def seen (e : DdaEnv .three) (seg : RaySeg 3) (scale : ℝ) (gas : Coord3 → EO) (bI : ℝ) : ℝ × ℝ :=
  match ddaStart e seg with
  | none => (bI, 0)
  | some (r, s) =>
    if h : ∃ fuel l, visitsEnd e r fuel s = some l then
      (emergent (((Classical.choose (Classical.choose_spec h)).filter fun v => decide (0 ≤ v.mip)).map (slabOf scale gas)) bI,
        thickness (((Classical.choose (Classical.choose_spec h)).filter fun v => decide (0 ≤ v.mip)).map (slabOf scale gas)))
    else (0, 0)

theorem filter_loopStates (eo : (Fin 3 → ℤ) → EO) (scale : ℝ) (gas : Coord3 → EO) (l : List (Dda .three))
    (h : ∀ v ∈ loopStates l, 0 ≤ v.mip → eo v.coord = gas ⟨v.coord 0, v.coord 1, v.coord 2⟩) :
    (((loopStates l).map (cellOf eo)).filter (·.sample)).map (fun c => (⟨c.eta / (c.chi + 1e-20), (c.chi + 1e-20) * c.dt * scale⟩ : Slab)) =
      (l.filter fun v => decide (0 ≤ v.mip)).map (slabOf scale gas) := by
  have hff : (loopStates l).filter (fun v => decide (0 ≤ v.mip)) = l.filter fun v => decide (0 ≤ v.mip) := by
    cases l with
    | nil => rfl
    | cons s l =>
      unfold loopStates
      simp only [List.filter_cons, List.filter_filter, Bool.and_self]
  rw [List.filter_map, List.map_map, ← hff]
  refine List.map_congr_left fun v hv => ?_
  obtain ⟨h1, h2⟩ := List.mem_filter.1 hv
  have h2' : 0 ≤ v.mip := by simpa [cellOf] using h2
  simp only [Function.comp, cellOf, slabOf, h v h1 h2']

/-- one ray -/
theorem ray_ok (hf : RayFits t k nx ny nz) (hr : RayReady t) (hI : IsLoaded t k nx ny nz a res d) (ss : Nat) (v : View) (hv : PlainDir v.dir)
    (hg : GoodStarts t k nx ny nz a ss v) (junk : EO × ℤ) (m : Int → EO) (gas : Coord3 → EO)
    (hm : ∀ c, HasData3 (2 ^ k) nx ny nz (ActiveTile t k a) c → ∀ adr, Addr3 (2 ^ k) d.bm c adr → m adr = gas c) (w y x : Nat) :
    ∃ bI, Background t a ss v w y x bI ∧
      rayOne t d ss v junk m w y x = .ok (seen (rayEnv t k nx ny nz a) (pixelRay ss v y x) a.scale gas bI) ∧
      RaySees (rayEnv t k nx ny nz a) (pixelRay ss v y x) a.scale gas bI (seen (rayEnv t k nx ny nz a) (pixelRay ss v y x) a.scale gas bI) := by
  obtain ⟨bI, hB, hbI⟩ := boundary_ok (a := a) hr w ss v y x
  refine ⟨bI, hB, ?_⟩
  have hv' : ¬ (v.dir.x.v = 0 ∧ v.dir.y.v = 0 ∧ v.dir.z.v = 0) := by
    rintro ⟨h1, h2, h3⟩
    apply hv.1
    unfold Dir3.vec
    rw [h1, h2, h3]
  unfold rayOne
  rw [if_neg hv']
  simp only [env_ok hf hI, hI.scale, hI.offX, hI.offY, hI.offZ, hbI, seg_eq ss v hv]
  unfold traverse seen RaySees
  cases hs : ddaStart (rayEnv t k nx ny nz a) (pixelRay ss v y x) with
  | none =>
    simp only [Outcome.ok_bind, Option.map_none]
    refine ⟨?_, trivial⟩
    rw [(C67_intensity a.scale bI []).2]
  | some p =>
    obtain ⟨r, s⟩ := p
    simp only
    obtain ⟨c, b, hc, hr', hi⟩ := ddaStart_some _ _ r s hs
    obtain ⟨N, h1, last, h2, h3⟩ := C39_terminates _ r s env_block (hg y x r s hs) (path_short ss v hv y x r s hs) hi
    have hex : ∃ fuel l, visitsEnd (rayEnv t k nx ny nz a) r fuel s = some l := ⟨N, _, visitsEnd_of _ r N s last h2 h3⟩
    rw [dif_pos hex, dif_pos hex]
    have hsp := Classical.choose_spec (Classical.choose_spec hex)
    refine ⟨?_, _, _, hsp, rfl⟩
    simp only [Outcome.ok_bind, Option.map_some]
    rw [(C67_intensity a.scale bI _).1]
    simp only
    rw [filter_loopStates (readEO t d junk.1 m) a.scale gas]
    intro w hw hw0
    refine read_ok hf hI junk.1 m gas hm w.coord ?_
    have hl := march_levels (dim := .three) (rayEnv t k nx ny nz a) _ env_blk r s hs _ _ hsp w hw
    by_contra hno
    have : (rayEnv t k nx ny nz a).lvl w.coord = -1 := if_neg hno
    unfold DdaEnv.sampleLevel at hl
    rw [this] at hl
    have h5 := min_le_left (-1 : ℤ) (rayEnv t k nx ny nz a).maxMip
    omega

end DexRT.RayRun3
