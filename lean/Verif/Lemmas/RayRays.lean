import Verif.Lemmas.RayCells
import Verif.Lemmas.GivenBatch
import Verif.Props.Ray
import Verif.Props.RayTrace
import Verif.Props.Raymarch
/-! Lemmas for C87: the traversal, one ray, and the loops over rays, wavelengths and views. -/
namespace DexRT.RayRun
open DexRT DexRT.AtmosFile DexRT.Emis DexRT.Ray DexRT.LteRun Classical

variable {t : Tool} {k nx nz : Nat} {a : Cond} {res : Result} {d : Loaded}

/-- arguments of a march with only the geometry filled in -/
noncomputable def geoArgs (e : DdaEnv .two) (seg : RaySeg 2) : RaymarchArgs .two :=
  ⟨seg, e, fun _ _ => 0, fun _ _ => 0, true, 1, 0, false, false, 0, 0, 0⟩

theorem half_ne (n N : ℤ) (x : ℝ) (hx : x = n / 2) : x ≠ (0 : ℤ) + 1 / 10000 ∧ x ≠ (N : ℝ) - 1 / 10000 := by
  constructor <;> intro h <;> rw [hx] at h
  · have h2 : ((n * 5000 : ℤ) : ℝ) = ((1 : ℤ) : ℝ) := by push_cast at h ⊢; linarith
    have := Int.cast_injective h2
    omega
  · have h2 : ((n * 5000 : ℤ) : ℝ) = ((N * 10000 - 1 : ℤ) : ℝ) := by push_cast at h ⊢; linarith
    have := Int.cast_injective h2
    omega

theorem sq_eq_one_iff_of_side {x : ℝ} (h : (0 : ℝ) ^ 2 + x ^ 2 = 1 ∨ x ^ 2 + (0 : ℝ) ^ 2 = 1) : x = 1 ∨ x = -1 := by
  have : x ^ 2 = 1 := by rcases h with h | h <;> linarith
  exact (by
    have h0 : (x - 1) * (x + 1) = 0 := by linarith
    rcases mul_eq_zero.1 h0 with h | h
    · left; linarith
    · right; linarith)

/-- the segments of a view are usable -/
theorem seg_good (e : DdaEnv .two) (rotate : Bool) (nx nz : Nat) (v : Num × Num) (hv : v.1.v ≠ 0 ∨ v.2.v ≠ 0) (i : Nat) :
    GoodSeg (geoArgs e (segOf rotate nx nz v i)) := by
  have hfl : flatMu (muOf v) = ⟨-(los v.1.v v.2.v).x, -(los v.1.v v.2.v).z⟩ := flatMu_viewMu _ _ hv
  have hu := los_unit v.1.v v.2.v hv
  have hd0 : (segOf rotate nx nz v i).d 0 = -(los v.1.v v.2.v).x := by unfold segOf raySeg; rw [hfl]; rfl
  have hd1 : (segOf rotate nx nz v i).d 1 = -(los v.1.v v.2.v).z := by unfold segOf raySeg; rw [hfl]; rfl
  constructor
  · intro j
    show |(segOf rotate nx nz v i).d j| ≤ 1
    refine abs_le_one_iff_mul_self_le_one.2 ?_
    match j with
    | 0 => rw [hd0]; nlinarith [sq_nonneg (los v.1.v v.2.v).z]
    | 1 => rw [hd1]; nlinarith [sq_nonneg (los v.1.v v.2.v).x]
  · intro j hj
    right
    change (segOf rotate nx nz v i).d j = 0 at hj
    show (segOf rotate nx nz v i).o j ≠ (0 : ℤ) + 1 / 10000 ∧ (segOf rotate nx nz v i).o j ≠ (e.max j : ℝ) - 1 / 10000
    suffices ∃ n : ℤ, (segOf rotate nx nz v i).o j = n / 2 by
      obtain ⟨n, hn⟩ := this
      exact half_ne n (e.max j) _ hn
    have ho0 : (segOf rotate nx nz v i).o 0 = (startOf rotate nx nz v i).x := rfl
    have ho1 : (segOf rotate nx nz v i).o 1 = (startOf rotate nx nz v i).z := rfl
    cases hrot : rotate with
    | false =>
      rw [hrot] at ho0 ho1
      match j with
      | 0 => exact ⟨2 * i + 1, by rw [ho0]; simp [startOf, startFixed]; ring⟩
      | 1 => exact ⟨2 * nz, by rw [ho1]; simp [startOf, startFixed]⟩
    | true =>
      rw [hrot] at ho0 ho1 hj hd0 hd1
      have hst := startRot_eq nx nz v.1.v v.2.v v.1.neg hv i
      simp only at hst
      have hso : startOf true nx nz v i = startRot nx nz v.1.v v.2.v v.1.neg i := by simp [startOf]
      match j with
      | 0 =>
        rw [hd0] at hj
        have hx : (los v.1.v v.2.v).x = 0 := by linarith
        have hz : (los v.1.v v.2.v).z = 1 ∨ (los v.1.v v.2.v).z = -1 := by
          rw [hx] at hu
          exact sq_eq_one_iff_of_side (Or.inl hu)
        rw [ho0, hso, hst]
        simp only [halfW, height, hx, abs_zero]
        rcases hz with hz | hz
        · exact ⟨2 * i - 1, by rw [hz]; push_cast; simp; ring⟩
        · exact ⟨2 * nx + 1 - 2 * i, by rw [hz]; push_cast; simp; ring⟩
      | 1 =>
        rw [hd1] at hj
        have hx : (los v.1.v v.2.v).z = 0 := by linarith
        have hz : (los v.1.v v.2.v).x = 1 ∨ (los v.1.v v.2.v).x = -1 := by
          rw [hx] at hu
          exact sq_eq_one_iff_of_side (Or.inr hu)
        rw [ho1, hso, hst]
        simp only [halfW, height, hx, abs_zero]
        rcases hz with hz | hz
        · exact ⟨2 * nz + 1 - 2 * i, by rw [hz]; push_cast; simp; ring⟩
        · exact ⟨2 * i - 1, by rw [hz]; push_cast; simp; ring⟩

theorem env_block : 1 ≤ (rayEnv t k nx nz a).block := by
  show (1 : ℤ) ≤ ((2 ^ k : Nat) : ℤ)
  exact_mod_cast Nat.one_le_two_pow

/-- the marched path is short -/
theorem path_short (hf : RayFits t k nx nz) (rotate : Bool) (v : Num × Num) (hv : v.1.v ≠ 0 ∨ v.2.v ≠ 0) (i : Nat)
    (r : DdaRay .two) (s : Dda .two)
    (hs : ddaStart (rayEnv t k nx nz a) (segOf rotate (nx * 2 ^ k) (nz * 2 ^ k) v i) = some (r, s)) : r.t1 ≤ 1e24 := by
  have h := C78_starts (geoArgs (rayEnv t k nx nz a) (segOf rotate (nx * 2 ^ k) (nz * 2 ^ k) v i)) env_block (seg_good _ _ _ _ _ hv _)
  have hs' : ddaStart (geoArgs (rayEnv t k nx nz a) (segOf rotate (nx * 2 ^ k) (nz * 2 ^ k) v i)).env
      (geoArgs (rayEnv t k nx nz a) (segOf rotate (nx * 2 ^ k) (nz * 2 ^ k) v i)).seg = some (r, s) := hs
  rw [hs'] at h
  obtain ⟨t0, -, h1, h2, -⟩ := h
  have hr0 : 0 ≤ r.t1 := by norm_num at h1; linarith
  obtain ⟨⟨q1, -⟩, -⟩ := (h2 0).1 ⟨le_rfl, hr0⟩
  obtain ⟨⟨-, q2⟩, -⟩ := (h2 r.t1).1 ⟨hr0, le_rfl⟩
  have e0 : (geoArgs (rayEnv t k nx nz a) (segOf rotate (nx * 2 ^ k) (nz * 2 ^ k) v i)).seg.t0 = 0 := rfl
  have e1 : (geoArgs (rayEnv t k nx nz a) (segOf rotate (nx * 2 ^ k) (nz * 2 ^ k) v i)).seg.t1 = max (((nz * 2 ^ k : Nat)) : ℝ) ((nx * 2 ^ k : Nat) : ℝ) := rfl
  rw [e0] at q1
  rw [e1] at q2
  have b : ∀ n : Nat, FitsI32Axis k n → ((n * 2 ^ k : Nat) : ℝ) ≤ 2 ^ 31 := by
    intro n hn
    have : n * 2 ^ k ≤ 2 ^ 31 := by
      have := hn
      unfold FitsI32Axis i32Max at this
      push_cast at this
      zify
      omega
    exact_mod_cast this
  have hm : max (((nz * 2 ^ k : Nat)) : ℝ) ((nx * 2 ^ k : Nat) : ℝ) ≤ 2 ^ 31 := max_le (b _ hf.axes.2) (b _ hf.axes.1)
  have : (2 : ℝ) ^ 31 ≤ 1e24 := by norm_num
  linarith

/-- with no threshold every start is good -/
theorem full_start (hc : t.cutoff = 0) (r : DdaRay .two) : GoodStart (rayEnv t k nx nz a) r := by
  by_cases h : (rayEnv t k nx nz a).inBounds (startCell r)
  · left
    have hk : Kept2 t k nx nz a ⟨startCell r 0, startCell r 1⟩ := by
      refine ⟨?_, Or.inl hc⟩
      obtain ⟨a1, a2⟩ := h 0
      obtain ⟨b1, b2⟩ := h 1
      exact ⟨a1, a2, b1, b2⟩
    unfold DdaEnv.sampleLevel
    show 0 ≤ min (if Kept2 t k nx nz a ⟨startCell r 0, startCell r 1⟩ then (0 : ℤ) else -1) 0
    rw [if_pos hk]
    simp
  · exact Or.inr (Or.inl h)

theorem env_blk (c : Fin 2 → ℤ) (m : ℤ) (hm : m < 0 ∨ m ≤ (rayEnv t k nx nz a).maxMip) :
    (rayEnv t k nx nz a).lvl (fun i => maskCoord (c i) ((rayEnv t k nx nz a).stepSize m)) = (rayEnv t k nx nz a).lvl c := by
  have hm0 : m < 0 ∨ m = 0 := by
    rcases hm with h | h
    · exact Or.inl h
    · have : m ≤ 0 := h
      omega
  rcases hm0 with h | h
  · have hsz : (rayEnv t k nx nz a).stepSize m = ((2 ^ k : Nat) : ℤ) := by
      unfold DdaEnv.stepSize; rw [if_pos h]; rfl
    rw [hsz]
    have hp : (0 : ℤ) < ((2 ^ k : Nat) : ℤ) := by exact_mod_cast Nat.two_pow_pos k
    obtain ⟨a1, a2, a3⟩ := Given.mask_div (c 0) ((2 ^ k : Nat) : ℤ) 1 nx hp
    obtain ⟨b1, b2, b3⟩ := Given.mask_div (c 1) ((2 ^ k : Nat) : ℤ) 1 nz hp
    rw [one_mul] at a1 a3 b1 b3
    show (if Kept2 t k nx nz a ⟨maskCoord (c 0) ((2 ^ k : Nat) : ℤ), maskCoord (c 1) ((2 ^ k : Nat) : ℤ)⟩ then (0 : ℤ) else -1) =
      if Kept2 t k nx nz a ⟨c 0, c 1⟩ then 0 else -1
    refine if_congr ?_ rfl rfl
    unfold Kept2 Given.InGrid
    simp only [a1, b1, a2, b2]
    push_cast at a3 b3 ⊢
    rw [a3, b3]
  · have hsz : (rayEnv t k nx nz a).stepSize m = 1 := by
      unfold DdaEnv.stepSize; rw [h]; rfl
    rw [hsz]
    congr 1
    funext i
    unfold maskCoord
    simp

theorem env_ok (hf : RayFits t k nx nz) (hI : IsLoaded t k nx nz a res d) (junk : ℤ) : envOf t d junk = rayEnv t k nx nz a := by
  unfold envOf rayEnv
  have h1 := levelAt_ok (a := a) hf d.mr (by rw [hI.mrbm]; exact hI.map) hI.levels junk
  rw [hf.block, h1, hI.map.bbox]
  unfold rayEnv
  simp only [Nat.cast_mul]

theorem read_ok (hf : RayFits t k nx nz) (hI : IsLoaded t k nx nz a res d) (junk : EO) (m : Int → EO) (field : Coord2 → EO)
    (hm : ∀ c, HasData2 (2 ^ k) nx nz (ActiveTile t k a) c → ∀ adr, Addr2 (2 ^ k) d.bm c adr → m adr = field c) (c : Fin 2 → ℤ)
    (hc : Kept2 t k nx nz a ⟨c 0, c 1⟩) : readEO t d junk m c = field ⟨c 0, c 1⟩ := by
  have hd := (kept_iff t k nx nz a _).1 hc
  obtain ⟨adr, s', e1, e2⟩ := idx_zero hf d.mr (by rw [hI.mrbm]; exact hI.map) hI.off hI.levels hI.store ⟨c 0, c 1⟩ hd
  rw [hI.mrbm] at e2
  have H := iterSpace2 k nx nz _ d.bm hf.axes.1 hf.axes.2 hI.map
  have hrng : 0 ≤ adr ∧ adr < numActiveCells (((2 ^ k : Nat) : Int) * ((2 ^ k : Nat) : Int)) d.bm := by
    obtain ⟨p, hp, hpc⟩ := H.ontoC _ hd
    obtain ⟨c', c1, -, c3⟩ := H.co p hp
    rw [hpc] at c1
    rw [← Outcome.ok.inj c1] at c3
    rw [H.fn _ _ _ e2 c3]
    exact H.rng p hp
  unfold readEO
  rw [hf.block, e1]
  simp only
  rw [if_pos hrng]
  exact hm _ hd adr e2

theorem lookup_ok (bc : Boundary.PwBc) (hn : 2 ≤ bc.I.length) (hm : bc.muMin < bc.muMax) (hmin : 0 ≤ bc.muMin) (mu : ℝ) : ∃ x, bc.lookup mu = .ok x := by
  obtain ⟨h1, h2, h3, h4⟩ := C58_table bc hn hm hmin mu
  by_cases a1 : mu < 0
  · exact ⟨_, h1 a1⟩
  by_cases a2 : bc.muMax ≤ mu
  · exact ⟨_, h3 a2⟩
  by_cases a3 : bc.muMin ≤ mu
  · obtain ⟨i, s, h, h0, h1, h2, e5⟩ := h4 a3 (not_le.1 a2)
    exact ⟨_, e5⟩
  · exact ⟨_, h2 (not_lt.1 a1) (not_le.1 a3).le⟩

theorem boundary_ok (hr : RayReady t) (w : Nat) (scale ox oz : ℝ) (st dr : V2) : ∃ bI, boundaryI2 (t.bc w) scale ox oz st dr = .ok bI := by
  unfold boundaryI2
  by_cases h : dr.z < 0
  · rw [if_pos h]
    obtain ⟨h1, h2, h3⟩ := hr.tables w
    unfold Boundary.samplePw
    exact lookup_ok _ h1 h2 h3 _
  · rw [if_neg h]; exact ⟨0, rfl⟩

theorem dims_nat (hI : IsLoaded t k nx nz a res d) : d.bm.bboxMax.x.toNat = nx * 2 ^ k ∧ d.bm.bboxMax.z.toNat = nz * 2 ^ k := by
  rw [hI.map.bbox]
  constructor
  · show ((nx : ℤ) * ((2 ^ k : Nat) : ℤ)).toNat = _
    rw [← Nat.cast_mul, Int.toNat_natCast]
  · show ((nz : ℤ) * ((2 ^ k : Nat) : ℤ)).toNat = _
    rw [← Nat.cast_mul, Int.toNat_natCast]

/-- what a ray sees, as a value -/
noncomputable def seen (e : DdaEnv .two) (seg : RaySeg 2) (scale : ℝ) (gas : Coord2 → EO) (bI : ℝ) : ℝ × ℝ :=
  match ddaStart e seg with
  | none => (bI, 0)
  | some (r, s) =>
    if h : ∃ fuel l, visitsEnd e r fuel s = some l then
      (emergent (((Classical.choose (Classical.choose_spec h)).filter fun v => decide (0 ≤ v.mip)).map (slabOf scale gas)) bI,
        thickness (((Classical.choose (Classical.choose_spec h)).filter fun v => decide (0 ≤ v.mip)).map (slabOf scale gas)))
    else (0, 0)

theorem filter_loopStates (eo : (Fin 2 → ℤ) → EO) (scale : ℝ) (gas : Coord2 → EO) (l : List (Dda .two))
    (h : ∀ v ∈ loopStates l, 0 ≤ v.mip → eo v.coord = gas ⟨v.coord 0, v.coord 1⟩) :
    (((loopStates l).map (cellOf eo)).filter (·.sample)).map (fun c => (⟨c.eta / (c.chi + 1e-20), (c.chi + 1e-20) * c.dt * scale⟩ : Slab)) =
      (l.filter fun v => decide (0 ≤ v.mip)).map (slabOf scale gas) := by
  have hff : (loopStates l).filter (fun v => decide (0 ≤ v.mip)) = l.filter fun v => decide (0 ≤ v.mip) := by
    cases l with
    | nil => rfl
    | cons s l =>
      unfold loopStates
      simp only [List.filter_cons, List.filter_filter, Bool.and_self]
  rw [List.filter_map, List.map_map, ← hff]
  refine List.map_congr_left fun v hv => ?_
  obtain ⟨h1, h2⟩ := List.mem_filter.1 hv
  have h2' : 0 ≤ v.mip := by simpa [cellOf] using h2
  simp only [Function.comp, cellOf, slabOf, h v h1 h2']

/-- one ray -/
theorem ray_ok (hf : RayFits t k nx nz) (hr : RayReady t) (hI : IsLoaded t k nx nz a res d) (rotate : Bool) (v : Num × Num) (hv : v.1.v ≠ 0 ∨ v.2.v ≠ 0)
    (hg : GoodStarts t k nx nz a rotate v) (junk : EO × ℤ) (m : Int → EO) (gas : Coord2 → EO)
    (hm : ∀ c, HasData2 (2 ^ k) nx nz (ActiveTile t k a) c → ∀ adr, Addr2 (2 ^ k) d.bm c adr → m adr = gas c) (w i : Nat) :
    ∃ bI, boundaryI2 (t.bc w) a.scale (a.offset 0) (a.offset 2) (startOf rotate (nx * 2 ^ k) (nz * 2 ^ k) v i) (flatMu (muOf v)) = .ok bI ∧
      rayOne t d rotate v junk m w i = .ok (seen (rayEnv t k nx nz a) (segOf rotate (nx * 2 ^ k) (nz * 2 ^ k) v i) (distanceFactor a.scale (muOf v)) gas bI) ∧
      RaySees (rayEnv t k nx nz a) (segOf rotate (nx * 2 ^ k) (nz * 2 ^ k) v i) (distanceFactor a.scale (muOf v)) gas bI
        (seen (rayEnv t k nx nz a) (segOf rotate (nx * 2 ^ k) (nz * 2 ^ k) v i) (distanceFactor a.scale (muOf v)) gas bI) := by
  obtain ⟨bI, hbI⟩ := boundary_ok hr w a.scale (a.offset 0) (a.offset 2) (startOf rotate (nx * 2 ^ k) (nz * 2 ^ k) v i) (flatMu (muOf v))
  refine ⟨bI, hbI, ?_⟩
  obtain ⟨n1, n2⟩ := dims_nat hI
  have hv' : ¬ (v.1.v = 0 ∧ v.2.v = 0) := by
    rintro ⟨h1, h2⟩
    rcases hv with h | h
    · exact h h1
    · exact h h2
  unfold rayOne
  rw [if_neg hv']
  simp only [n1, n2, env_ok hf hI, hI.scale, hI.offX, hI.offZ, hbI]
  unfold traverse seen RaySees
  cases hs : ddaStart (rayEnv t k nx nz a) (segOf rotate (nx * 2 ^ k) (nz * 2 ^ k) v i) with
  | none =>
    simp only [Outcome.ok_bind, Option.map_none]
    refine ⟨?_, trivial⟩
    rw [(C67_intensity (distanceFactor a.scale (muOf v)) bI []).2]
  | some p =>
    obtain ⟨r, s⟩ := p
    simp only
    obtain ⟨c, b, hc, hr', hi⟩ := ddaStart_some _ _ r s hs
    obtain ⟨N, h1, last, h2, h3⟩ := C39_terminates _ r s env_block (hg i r s hs) (path_short hf rotate v hv i r s hs) hi
    have hex : ∃ fuel l, visitsEnd (rayEnv t k nx nz a) r fuel s = some l := ⟨N, _, visitsEnd_of _ r N s last h2 h3⟩
    rw [dif_pos hex, dif_pos hex]
    have hsp := Classical.choose_spec (Classical.choose_spec hex)
    refine ⟨?_, _, _, hsp, rfl⟩
    simp only [Outcome.ok_bind, Option.map_some]
    rw [(C67_intensity (distanceFactor a.scale (muOf v)) bI _).1]
    simp only
    rw [filter_loopStates (readEO t d junk.1 m) (distanceFactor a.scale (muOf v)) gas]
    intro w hw hw0
    refine read_ok hf hI junk.1 m gas hm w.coord ?_
    have hl := march_levels (dim := .two) (rayEnv t k nx nz a) _ env_blk r s hs _ _ hsp w hw
    by_contra hno
    have : (rayEnv t k nx nz a).lvl w.coord = -1 := if_neg hno
    unfold DdaEnv.sampleLevel at hl
    rw [this] at hl
    have h5 := min_le_left (-1 : ℤ) (rayEnv t k nx nz a).maxMip
    omega

end DexRT.RayRun
