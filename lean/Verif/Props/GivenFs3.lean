import Verif.Lemmas.GivenSolve3
/-!
# C88: a `GivenFs` run, end to end (3D)

The file goes in, J comes out: the theorems compose the block map (C03), the copies (C34), the lookup (C07, C35), the march
(C39, C78, C79), the cascades (C74), the probe loops (C10) and the merge to J (C62) for the 3D program.
-/
namespace DexRT.Given3
open DexRT DexRT.Fs DexRT.AtmosFile DexRT.Dir Classical

variable {s : Settings} {k nx ny nz nw : Nat} {eta chi : Coord3 → Int → ℝ} {scale : ℝ}

/-- **C88** For every file that holds emissivities and opacities of a 3D grid that fits, whatever the order in which the
iterations of every kernel run and whatever the arrays held when they were allocated: the run ends normally, without reading
or writing outside any array, and J is the angular mean of the radiance of the atmosphere of the file, cell by cell in
(z, y, x) order. -/
theorem C88_J3_partial {W : Type} (cv : W → ℝ) (f : NcFile (Coord3 × Int) W) (hf : Fits s k nx ny nz)
    (hh : Holds f cv (2 ^ k) nx ny nz nw eta chi scale) (o : Nat → WaveOrder) (ho : ∀ la, la < nw → Orders s k nx ny nz (o la)) :
    ∃ J, run3 s cv f o = .ok J ∧ Solves s k nx ny nz nw eta chi scale J :=
  run_ok hf hh o ho

/-- **C88** J at a wavelength is determined by the data of that wavelength inside the grid: two solutions, of files with any
numbers of wavelengths, that agree there are equal there. -/
theorem C88_unique3 (hf : Fits s k nx ny nz) (nw' : Nat) (eta' chi' : Coord3 → Int → ℝ) (la la' : Nat) (hla : la < nw) (hla' : la' < nw')
    (he : ∀ c, InGrid k nx ny nz c → eta c la = eta' c la') (hc : ∀ c, InGrid k nx ny nz c → chi c la = chi' c la')
    (J J' : Arr2 ℝ) (h : Solves s k nx ny nz nw eta chi scale J) (h' : Solves s k nx ny nz nw' eta' chi' scale J') :
    ∀ x y z, x < nx * 2 ^ k → y < ny * 2 ^ k → z < nz * 2 ^ k →
      J.get la ((z * (ny * 2 ^ k) + y) * (nx * 2 ^ k) + x) = J'.get la' ((z * (ny * 2 ^ k) + y) * (nx * 2 ^ k) + x) := by
  intro x y z hx hy hz
  obtain ⟨march, h2, h3⟩ := h.value la hla
  obtain ⟨march', i2, i3⟩ := h'.value la' hla'
  rw [h3 x y z hx hy hz, i3 x y z hx hy hz]
  exact mean_congr3 _ _ _ _ _ _ _ fun q a hq ha => radiance_file hf eta' chi' la la' he hc march march' h2 i2 x y z q a hx hy hz hq ha

/-- **C88** Two runs on the same file give the same J, whatever the schedules and the previous contents of memory. -/
theorem C88_deterministic3 {W : Type} (cv : W → ℝ) (f : NcFile (Coord3 × Int) W) (hf : Fits s k nx ny nz)
    (hh : Holds f cv (2 ^ k) nx ny nz nw eta chi scale) (o o' : Nat → WaveOrder)
    (ho : ∀ la, la < nw → Orders s k nx ny nz (o la)) (ho' : ∀ la, la < nw → Orders s k nx ny nz (o' la)) :
    ∃ J J', run3 s cv f o = .ok J ∧ run3 s cv f o' = .ok J' ∧
      ∀ la x y z, la < nw → x < nx * 2 ^ k → y < ny * 2 ^ k → z < nz * 2 ^ k →
        J.get la ((z * (ny * 2 ^ k) + y) * (nx * 2 ^ k) + x) = J'.get la ((z * (ny * 2 ^ k) + y) * (nx * 2 ^ k) + x) := by
  obtain ⟨J, r, h⟩ := run_ok hf hh o ho
  obtain ⟨J', r', h'⟩ := run_ok hf hh o' ho'
  exact ⟨J, J', r, r', fun la x y z hla hx hy hz =>
    C88_unique3 hf nw eta chi la la hla hla (fun _ _ => rfl) (fun _ _ => rfl) J J' h h' x y z hx hy hz⟩

/-- **C88** Where no opacity is negative and every emissivity is between 0 and `hi` times the opacity, every J is between 0
and `hi`. -/
theorem C88_bounds3 (hf : Fits s k nx ny nz) (hsc : 0 ≤ scale) (hi : ℝ) (hhi : 0 ≤ hi)
    (hsrc : ∀ c, InGrid k nx ny nz c → ∀ la : Nat, la < nw → 0 ≤ chi c la ∧ 0 ≤ eta c la ∧ eta c la ≤ hi * chi c la)
    (J : Arr2 ℝ) (h : Solves s k nx ny nz nw eta chi scale J) :
    ∀ la x y z, la < nw → x < nx * 2 ^ k → y < ny * 2 ^ k → z < nz * 2 ^ k →
      0 ≤ J.get la ((z * (ny * 2 ^ k) + y) * (nx * 2 ^ k) + x) ∧ J.get la ((z * (ny * 2 ^ k) + y) * (nx * 2 ^ k) + x) ≤ hi := by
  intro la x y z hla hx hy hz
  obtain ⟨march, h2, h3⟩ := (solves_clip J h).value la hla
  rw [h3 x y z hx hy hz]
  have hcl : ∀ c la, 0 ≤ clip k nx ny nz nw chi c la ∧ 0 ≤ clip k nx ny nz nw eta c la ∧ clip k nx ny nz nw eta c la ≤ hi * clip k nx ny nz nw chi c la := by
    intro c la
    unfold clip
    by_cases hh : InGrid k nx ny nz c ∧ 0 ≤ la ∧ la < nw
    · rw [if_pos hh, if_pos hh]
      have := hsrc c hh.1 la.toNat (by omega)
      rwa [Int.toNat_of_nonneg hh.2.1] at this
    · rw [if_neg hh, if_neg hh]; simp
  obtain ⟨w, hw⟩ : ∃ w, w = fileWorld k nx ny nz (clip k nx ny nz nw eta) (clip k nx ny nz nw chi) scale := ⟨_, rfl⟩
  have hS : w.SourceIn 0 hi := by
    intro l mu m c
    rw [hw]
    obtain ⟨e0, e1, e2⟩ := hcl ⟨c 0, c 1, c 2⟩ l
    refine ⟨e0, by rw [zero_mul]; exact e1, ?_⟩
    show clip k nx ny nz nw eta ⟨c 0, c 1, c 2⟩ l ≤ hi * (clip k nx ny nz nw chi ⟨c 0, c 1, c 2⟩ l + 1e-15)
    rw [mul_add]
    have : 0 ≤ hi * 1e-15 := by positivity
    linarith
  have hscw : 0 ≤ w.scale := by rw [hw]; exact hsc
  have hbc : ∀ la x mu, w.bc la x mu = 0 := by rw [hw]; intros; rfl
  rw [← hw] at h2
  obtain ⟨p1, p2⟩ := rays_pos hf
  refine meanJ_in3 _ _ p1 p2 _ x y z hhi fun q a hq ha => ?_
  have hb : 0 < (upperTexels3 s.cfg.branch).1 ∧ 0 < (upperTexels3 s.cfg.branch).2 := by
    obtain ⟨ord, e, hb, -, -⟩ := hf.healpix
    rw [hb]; exact ⟨by show 0 < 2 ^ (2 * ord); positivity, Nat.one_pos⟩
  refine radiance3_inV march _ _ _ _ _ hb.1 hb.2 s.num (Ray3 (envOf s (nx * 2 ^ k) (ny * 2 ^ k) (nz * 2 ^ k) march))
    (fun n p U W X i j _ hp hU hW hX hi hj => env_child march n p U W X i j hp hU hW hX hi hj)
    (fun n p hp => ?_) hhi (fun n p hn hp => ?_) (fun p hp => ?_) _ (ray_zero hf march x y z q a hx hy hz hq ha)
  · obtain ⟨a1, a2, a3, -, -⟩ := hp
    rw [env_np0] at a1
    rw [env_np1] at a2
    rw [env_np2] at a3
    exact ⟨a1, a2, a3⟩
  · obtain ⟨fuel, res, k2, k3⟩ := h2.1 n p hn hp
    rw [show march false n p = (envOf s (nx * 2 ^ k) (ny * 2 ^ k) (nz * 2 ^ k) march).march false n p from rfl, k3]
    exact raymarch_segIn (w.args3 (envOf s (nx * 2 ^ k) (ny * 2 ^ k) (nz * 2 ^ k) march) s.len la false n p) hscw (fun m c => hS _ _ m c) rfl fuel res k2
  · obtain ⟨fuel, res, k2, k3⟩ := h2.2 p hp
    rw [show march true s.num p = (envOf s (nx * 2 ^ k) (ny * 2 ^ k) (nz * 2 ^ k) march).march true s.num p from rfl]
    rw [show (envOf s (nx * 2 ^ k) (ny * 2 ^ k) (nz * 2 ^ k) march).march true s.num p = _ from k3]
    refine raymarch_between (w.args3 (envOf s (nx * 2 ^ k) (ny * 2 ^ k) (nz * 2 ^ k) march) s.len la true s.num p) hscw (fun m c => hS _ _ m c)
      (fun b => startI_in _ b ⟨le_rfl, hhi⟩ ?_) fuel res k2
    rw [show (w.args3 (envOf s (nx * 2 ^ k) (ny * 2 ^ k) (nz * 2 ^ k) march) s.len la true s.num p).bc = 0 from hbc _ _ _]
    exact ⟨le_rfl, hhi⟩

/-- **C88** An atmosphere that does not emit gives J = 0 everywhere. -/
theorem C88_dark3 (hf : Fits s k nx ny nz) (hsc : 0 ≤ scale)
    (hsrc : ∀ c, InGrid k nx ny nz c → ∀ la : Nat, la < nw → 0 ≤ chi c la ∧ eta c la = 0)
    (J : Arr2 ℝ) (h : Solves s k nx ny nz nw eta chi scale J) :
    ∀ la x y z, la < nw → x < nx * 2 ^ k → y < ny * 2 ^ k → z < nz * 2 ^ k → J.get la ((z * (ny * 2 ^ k) + y) * (nx * 2 ^ k) + x) = 0 := by
  intro la x y z hla hx hy hz
  have := C88_bounds3 hf hsc 0 le_rfl (fun c hc l hl => ⟨(hsrc c hc l hl).1, (hsrc c hc l hl).2.ge, by rw [(hsrc c hc l hl).2, zero_mul]⟩) J h la x y z hla hx hy hz
  exact le_antisymm this.2 this.1

/-- **C88** J for emissivities `eta₁ + eta₂` is the sum of the J for `eta₁` and for `eta₂` with the same opacities. -/
theorem C88_superposition3 (hf : Fits s k nx ny nz) (eta1 eta2 : Coord3 → Int → ℝ)
    (hs : ∀ c, InGrid k nx ny nz c → ∀ la : Nat, la < nw → eta c la = eta1 c la + eta2 c la)
    (J J1 J2 : Arr2 ℝ) (h : Solves s k nx ny nz nw eta chi scale J) (h1 : Solves s k nx ny nz nw eta1 chi scale J1)
    (h2 : Solves s k nx ny nz nw eta2 chi scale J2) :
    ∀ la x y z, la < nw → x < nx * 2 ^ k → y < ny * 2 ^ k → z < nz * 2 ^ k →
      J.get la ((z * (ny * 2 ^ k) + y) * (nx * 2 ^ k) + x) =
        J1.get la ((z * (ny * 2 ^ k) + y) * (nx * 2 ^ k) + x) + J2.get la ((z * (ny * 2 ^ k) + y) * (nx * 2 ^ k) + x) := by
  intro la x y z hla hx hy hz
  obtain ⟨m, a2, a3⟩ := (solves_congr (fun c la => eta1 c la + eta2 c la) chi (fun c hc la hla => hs c hc la hla) (fun _ _ _ _ => rfl) J h).value la hla
  obtain ⟨m1, c2, c3⟩ := h1.value la hla
  obtain ⟨m2, d2, d3⟩ := h2.value la hla
  rw [a3 x y z hx hy hz, c3 x y z hx hy hz, d3 x y z hx hy hz]
  set w1 := fileWorld k nx ny nz eta1 chi scale
  set w2 := fileWorld k nx ny nz eta2 chi scale
  have hpl : fileWorld k nx ny nz (fun c la => eta1 c la + eta2 c la) chi scale = w1.plus w2 := by
    unfold fileWorld World.plus
    simp only [World.mk.injEq]
    refine ⟨rfl, rfl, rfl, rfl, rfl, rfl, rfl, rfl, rfl, rfl, ?_⟩
    funext la x mu
    show (0 : ℝ) = 0 + 0
    rw [add_zero]
  have hso : w1.SameOpacity w2 := rfl
  rw [hpl] at a2
  have hadd := fun n q (hn : n < s.num) (hq : Ray3 (envOf s (nx * 2 ^ k) (ny * 2 ^ k) (nz * 2 ^ k) m) n q) =>
    marchRay3_add w1 w2 hso (envOf s (nx * 2 ^ k) (ny * 2 ^ k) (nz * 2 ^ k) m) s.len la false n q _ _ _ (a2.1 n q hn hq)
      (c2.1 n q hn ⟨hq.u, hq.v, hq.w, hq.az, hq.polar⟩) (d2.1 n q hn ⟨hq.u, hq.v, hq.w, hq.az, hq.polar⟩)
  have haddt := fun q (hq : Ray3 (envOf s (nx * 2 ^ k) (ny * 2 ^ k) (nz * 2 ^ k) m) s.num q) =>
    marchRay3_add w1 w2 hso (envOf s (nx * 2 ^ k) (ny * 2 ^ k) (nz * 2 ^ k) m) s.len la true s.num q _ _ _ (a2.2 q hq)
      (c2.2 q ⟨hq.u, hq.v, hq.w, hq.az, hq.polar⟩) (d2.2 q ⟨hq.u, hq.v, hq.w, hq.az, hq.polar⟩)
  rw [mean_congr3 _ _ _ (fun p => radiance3 m1 (nx * 2 ^ k) (ny * 2 ^ k) (nz * 2 ^ k) (upperTexels3 s.cfg.branch).1 (upperTexels3 s.cfg.branch).2 s.num s.num p +
      radiance3 m2 (nx * 2 ^ k) (ny * 2 ^ k) (nz * 2 ^ k) (upperTexels3 s.cfg.branch).1 (upperTexels3 s.cfg.branch).2 s.num s.num p) x y z
    (fun q a hq ha => radiance3_addV m m1 m2 _ _ _ _ _ s.num (Ray3 (envOf s (nx * 2 ^ k) (ny * 2 ^ k) (nz * 2 ^ k) m))
      (fun n p U W X i j _ hp hU hW hX hi hj => env_child m n p U W X i j hp hU hW hX hi hj)
      hadd (fun q hq => (haddt q hq).1) s.num le_rfl _ (by rw [Nat.sub_self]; exact ray_zero hf m x y z q a hx hy hz hq ha))]
  unfold meanIntensity3
  rw [← add_div, ← Finset.sum_add_distrib]
  congr 1
  refine Finset.sum_congr rfl fun d _ => ?_
  rw [← Finset.sum_add_distrib]

/-- **C88** With the opacities unchanged and not negative, raising the emissivity anywhere lowers J nowhere. -/
theorem C88_monotone3 (hf : Fits s k nx ny nz) (hsc : 0 ≤ scale) (eta' : Coord3 → Int → ℝ)
    (hle : ∀ c, InGrid k nx ny nz c → ∀ la : Nat, la < nw → 0 ≤ chi c la ∧ eta c la ≤ eta' c la)
    (J J' : Arr2 ℝ) (h : Solves s k nx ny nz nw eta chi scale J) (h' : Solves s k nx ny nz nw eta' chi scale J') :
    ∀ la x y z, la < nw → x < nx * 2 ^ k → y < ny * 2 ^ k → z < nz * 2 ^ k →
      J.get la ((z * (ny * 2 ^ k) + y) * (nx * 2 ^ k) + x) ≤ J'.get la ((z * (ny * 2 ^ k) + y) * (nx * 2 ^ k) + x) := by
  intro la x y z hla hx hy hz
  obtain ⟨m, a2, a3⟩ := (solves_clip J h).value la hla
  obtain ⟨m1, c2, c3⟩ := (solves_clip J' h').value la hla
  rw [a3 x y z hx hy hz, c3 x y z hx hy hz]
  have hcl : ∀ c la, 0 ≤ clip k nx ny nz nw chi c la ∧ clip k nx ny nz nw eta c la ≤ clip k nx ny nz nw eta' c la := by
    intro c la
    unfold clip
    by_cases hh : InGrid k nx ny nz c ∧ 0 ≤ la ∧ la < nw
    · rw [if_pos hh, if_pos hh, if_pos hh]
      have := hle c hh.1 la.toNat (by omega)
      rwa [Int.toNat_of_nonneg hh.2.1] at this
    · rw [if_neg hh, if_neg hh, if_neg hh]; simp
  have hmono := marchRay3_mono (fileWorld k nx ny nz (clip k nx ny nz nw eta) (clip k nx ny nz nw chi) scale)
    (fileWorld k nx ny nz (clip k nx ny nz nw eta') (clip k nx ny nz nw chi) scale) rfl hsc (fun l mu m c => (hcl _ l).1)
    (fun l mu m c => (hcl _ l).2) (fun _ _ _ => le_rfl)
  have hrad : ∀ q a, q < s.cfg.c0polar → a < s.cfg.c0az →
      radiance3 m (nx * 2 ^ k) (ny * 2 ^ k) (nz * 2 ^ k) (upperTexels3 s.cfg.branch).1 (upperTexels3 s.cfg.branch).2 s.num s.num ⟨x, y, z, q, a⟩ ≤
      radiance3 m1 (nx * 2 ^ k) (ny * 2 ^ k) (nz * 2 ^ k) (upperTexels3 s.cfg.branch).1 (upperTexels3 s.cfg.branch).2 s.num s.num ⟨x, y, z, q, a⟩ := by
    intro q a hq ha
    exact radiance3_monoV m m1 _ _ _ _ _ s.num (Ray3 (envOf s (nx * 2 ^ k) (ny * 2 ^ k) (nz * 2 ^ k) m))
      (fun n p U W X i j _ hp hU hW hX hi hj => env_child m n p U W X i j hp hU hW hX hi hj)
      (fun n q hn hq => hmono (envOf s (nx * 2 ^ k) (ny * 2 ^ k) (nz * 2 ^ k) m) s.len la false n q _ _ (a2.1 n q hn hq) (c2.1 n q hn ⟨hq.u, hq.v, hq.w, hq.az, hq.polar⟩))
      (fun q hq => (hmono (envOf s (nx * 2 ^ k) (ny * 2 ^ k) (nz * 2 ^ k) m) s.len la true s.num q _ _ (a2.2 q hq) (c2.2 q ⟨hq.u, hq.v, hq.w, hq.az, hq.polar⟩)).1)
      s.num le_rfl _ (by rw [Nat.sub_self]; exact ray_zero hf m x y z q a hx hy hz hq ha)
  unfold meanIntensity3
  refine div_le_div_of_nonneg_right ?_ (by positivity)
  exact Finset.sum_le_sum fun d hd => Finset.sum_le_sum fun th ht => hrad d th (Finset.mem_range.1 hd) (Finset.mem_range.1 ht)

/-- **C88** A file without one of the dimensions, without emissivity or opacity, or with a size that is not a multiple of
the side of a tile, is rejected with an error before anything is computed. -/
theorem C88_rejects3 {W : Type} (s : Settings) (cv : W → ℝ) (f : NcFile (Coord3 × Int) W) (o : Nat → WaveOrder)
    (h : f.dim "x" = none ∨ f.dim "y" = none ∨ f.dim "z" = none ∨ f.dim "wavelength" = none ∨ f.grid "eta" = none ∨ f.grid "chi" = none ∨
      (∃ x, f.dim "x" = some x ∧ ¬ (s.B : Int) ∣ x) ∨ (∃ y, f.dim "y" = some y ∧ ¬ (s.B : Int) ∣ y) ∨ ∃ z, f.dim "z" = some z ∧ ¬ (s.B : Int) ∣ z) :
    run3 s cv f o = .throws := by
  have key : initGiven3 s cv f = .throws := by
    unfold initGiven3
    cases hx : f.dim "x" with
    | none => rfl
    | some x =>
      cases hy : f.dim "y" with
      | none => rfl
      | some y =>
        cases hz : f.dim "z" with
        | none => rfl
        | some z =>
          cases hw : f.dim "wavelength" with
          | none => rfl
          | some nw =>
            cases he : f.grid "eta" with
            | none => rfl
            | some eta =>
              cases hc : f.grid "chi" with
              | none => rfl
              | some chi =>
                have hs : setupDense3 s.B x y z = .throws := by
                  unfold setupDense3
                  rw [if_pos]
                  rw [hx, hy, hz, hw, he, hc] at h
                  rcases h with h | h | h | h | h | h | ⟨v, h, hd⟩ | ⟨v, h, hd⟩ | ⟨v, h, hd⟩
                  · exact absurd h (by simp)
                  · exact absurd h (by simp)
                  · exact absurd h (by simp)
                  · exact absurd h (by simp)
                  · exact absurd h (by simp)
                  · exact absurd h (by simp)
                  · left; obtain rfl := Option.some.inj h; exact fun hh => hd (Int.dvd_of_tmod_eq_zero hh)
                  · right; left; obtain rfl := Option.some.inj h; exact fun hh => hd (Int.dvd_of_tmod_eq_zero hh)
                  · right; right; obtain rfl := Option.some.inj h; exact fun hh => hd (Int.dvd_of_tmod_eq_zero hh)
                simp only [need, Outcome.ok_bind, hs]
                rfl
  unfold run3
  rw [key]; rfl

/-- Non-vacuity: the default build on a file of 32 by 32 by 32 cells with the default number of cascades, for any
emissivities and opacities and any number of wavelengths. -/
noncomputable def exSettings : Settings :=
  { E := 3, B := 8, cfg := ⟨.healpix 1, 12, 1, false⟩, len := ⟨6, 2, true, 20000, 20000⟩, num := 5, pp := true }

theorem exFits : Fits exSettings 3 4 4 4 where
  block := rfl
  pos := by decide
  size := by unfold GoodSize3 i32Max; decide
  entry := by decide
  healpix := ⟨1, 0, rfl, rfl, by decide⟩
  polar := rfl
  products := by
    intro n hn
    change n < 5 at hn
    constructor
    · show (12 * 2 ^ (2 * 1 * n)) * (12 * 2 ^ (2 * 1 * (n + 1))) ≤ 2147483647
      interval_cases n <;> norm_num
    · show (1 * 1) * (1 * 1) ≤ 2147483647
      norm_num
  buffers := C74_buffers3_partial (cascades exSettings 3 4 4 4) rfl rfl (by decide) (by decide) (by decide)
  length := by
    intro n hn
    have : ∀ n, n ≤ 5 → (intervalLength3 exSettings.len exSettings.num n).2 ≤ 20000 ∧
        0 ≤ (intervalLength3 exSettings.len exSettings.num n).1 := by
      decide +kernel
    obtain ⟨h1, h2⟩ := this n hn
    have h1' : ((intervalLength3 exSettings.len exSettings.num n).2 : ℝ) ≤ (20000 : ℚ) := by exact_mod_cast h1
    have h2' : (0 : ℝ) ≤ ((intervalLength3 exSettings.len exSettings.num n).1 : ℝ) := by exact_mod_cast h2
    push_cast at h1'
    have : (20000 : ℝ) ≤ 1e24 := by norm_num
    linarith

/-- a file of 32 by 32 by 32 cells -/
noncomputable def exFile (eta chi : Coord3 → Int → ℝ) (nw : Nat) : NcFile (Coord3 × Int) ℝ :=
  { dim := fun n => if n = "x" then some 32 else if n = "y" then some 32 else if n = "z" then some 32 else if n = "wavelength" then some nw else none,
    scalar := fun _ => none,
    grid := fun n => if n = "eta" then some fun p => eta p.1 p.2 else if n = "chi" then some fun p => chi p.1 p.2 else none,
    flat := fun _ => none, tiles := fun _ => none, attr := fun _ => none }

theorem exHolds (eta chi : Coord3 → Int → ℝ) (nw : Nat) : Holds (exFile eta chi nw) id (2 ^ 3) 4 4 4 nw eta chi 1 where
  x := by simp [exFile]
  y := by simp [exFile]
  z := by simp [exFile]
  wavelength := by simp [exFile]
  eta := ⟨fun p => eta p.1 p.2, by simp [exFile], fun _ _ => rfl⟩
  chi := ⟨fun p => chi p.1 p.2, by simp [exFile], fun _ _ => rfl⟩
  scale := Or.inl ⟨rfl, rfl⟩

/-- Orders and buffers of the required form exist for every configuration. -/
theorem exOrders (s : Settings) (k nx ny nz : Nat) : ∃ o, Orders s k nx ny nz o := by
  refine ⟨⟨_, _, fun _ _ => _, fun _ => _, fun _ => 0, fun _ => 0,
    ⟨(bufSizes s k nx ny nz).map fun s => List.replicate s 0, none⟩, 0, 0⟩, List.Perm.refl _, List.Perm.refl _,
    fun _ _ _ => List.Perm.refl _, fun _ => List.Perm.refl _, ?_⟩
  refine ⟨?_, fun ps hps => by simp at hps⟩
  simp [List.map_map, Function.comp_def]

/-- The run of the default build on that file gives a J, and it is 0 only as far as the theorems say. -/
example (eta chi : Coord3 → Int → ℝ) (nw : Nat) : ∃ o J, run3 exSettings id (exFile eta chi nw) o = .ok J ∧ Solves exSettings 3 4 4 4 nw eta chi 1 J := by
  obtain ⟨o, ho⟩ := exOrders exSettings 3 4 4 4
  obtain ⟨J, h1, h2⟩ := C88_J3_partial id (exFile eta chi nw) exFits (exHolds eta chi nw) (fun _ => o) (fun _ _ => ho)
  exact ⟨fun _ => o, J, h1, h2⟩

end DexRT.Given3
