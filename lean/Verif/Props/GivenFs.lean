import Verif.Lemmas.GivenSolve
/-!
# C82: a `GivenFs` run, end to end (2D)

The file goes in, J comes out: the theorems compose the block map (C03), the copies and mip chain (C34, C36), the
levels of detail (C35), the lookup (C07), the march (C39, C78, C79), the cascades (C74) and the merge to J (C62).
-/
namespace DexRT.Given
open DexRT DexRT.Fs DexRT.AtmosFile DexRT.Dir Classical

variable {s : Settings} {k nx nz nw : Nat} {eta chi : Coord2 → Int → ℝ} {scale : ℝ}

/-- **C82** For every file that holds emissivities and opacities of a grid that fits, whatever the order in which the
iterations of every kernel run, whatever the arrays held when they were allocated, with J kept on the host or on the
device: the run ends normally, without reading or writing outside any array, and J is the angular mean of the radiance of
the atmosphere of the file. -/
theorem C82_J2 {W : Type} (cv : W → ℝ) (f : NcFile (Coord2 × Int) W) (hf : Fits s k nx nz)
    (hh : Holds f cv (2 ^ k) nx nz nw eta chi scale) (o : Nat → BatchOrder)
    (ho : ∀ la, la < nw → s.W ∣ la → Orders s k nx nz (min s.W (nw - la)) (o la)) (old : Nat → Nat → ℝ) :
    ∃ J, run2 s cv f o old = .ok J ∧ Solves s k nx nz nw eta chi scale J :=
  run_ok hf hh o ho old

/-- **C82** J is determined by the file and the settings: two solutions for data that agree in the grid are equal. -/
theorem C82_unique2 (hf : Fits s k nx nz) (eta' chi' : Coord2 → Int → ℝ) (he : ∀ c, InGrid k nx nz c → ∀ la, la < nw → eta c (la : Nat) = eta' c (la : Nat))
    (hc : ∀ c, InGrid k nx nz c → ∀ la, la < nw → chi c (la : Nat) = chi' c (la : Nat)) (J J' : Arr2 ℝ) (h : Solves s k nx nz nw eta chi scale J)
    (h' : Solves s k nx nz nw eta' chi' scale J') :
    ∀ la x z, la < nw → x < nx * 2 ^ k → z < nz * 2 ^ k → J.get la (z * (nx * 2 ^ k) + x) = J'.get la (z * (nx * 2 ^ k) + x) := by
  intro la x z hla hx hz
  obtain ⟨L, march, h1, h2, h3⟩ := (solves_congr hf eta' chi' he hc J h).value la hla
  obtain ⟨L', march', i1, i2, i3⟩ := h'.value la hla
  rw [file_L_congr L' L (fun t a b c d => isLevel_unique s k eta' chi' scale _ _ t _ _ (i1 t a b c d) (h1 t a b c d))] at i2
  obtain ⟨b1, b2⟩ := batch_pos hf la hla
  rw [h3 x z hx hz, i3 x z hx hz]
  refine mean_congr2 _ _ _ _ _ _ _ _ _ fun d th hd ht => ?_
  exact radiance_file hf s.W s.onCpu eta' chi' L la _ _ _ _ _ _ b1 b1 b2 b2 (fun _ _ => rfl) (fun _ _ => rfl) march march' h2 i2 x z d th hx hz hd ht

/-- **C82** Two runs on the same file give the same J, whatever the schedules, the previous contents of memory and where J
is kept. -/
theorem C82_deterministic2 {W : Type} (cv : W → ℝ) (f : NcFile (Coord2 × Int) W) (hf : Fits s k nx nz)
    (hh : Holds f cv (2 ^ k) nx nz nw eta chi scale) (o o' : Nat → BatchOrder)
    (ho : ∀ la, la < nw → s.W ∣ la → Orders s k nx nz (min s.W (nw - la)) (o la))
    (ho' : ∀ la, la < nw → s.W ∣ la → Orders s k nx nz (min s.W (nw - la)) (o' la)) (old old' : Nat → Nat → ℝ) (b : Bool) :
    ∃ J J', run2 s cv f o old = .ok J ∧ run2 { s with onCpu := b } cv f o' old' = .ok J' ∧
      ∀ la x z, la < nw → x < nx * 2 ^ k → z < nz * 2 ^ k → J.get la (z * (nx * 2 ^ k) + x) = J'.get la (z * (nx * 2 ^ k) + x) := by
  obtain ⟨J, r, h⟩ := run_ok hf hh o ho old
  have hf' : Fits { s with onCpu := b } k nx nz :=
    ⟨hf.block, hf.pos, hf.even, hf.size, hf.entry, hf.valid, hf.mode, hf.weights, hf.batch, hf.levels, hf.levelRange, hf.dirs, hf.length⟩
  obtain ⟨J', r', h'⟩ := run_ok hf' hh o' (fun la h1 h2 =>
    ⟨(ho' la h1 h2).copy, (ho' la h1 h2).mips, (ho' la h1 h2).tests, (ho' la h1 h2).tiles, (ho' la h1 h2).rc, (ho' la h1 h2).j, (ho' la h1 h2).mem⟩) old'
  refine ⟨J, J', r, r', C82_unique2 hf eta chi (fun _ _ _ _ => rfl) (fun _ _ _ _ => rfl) J J' h ⟨h'.rows, h'.cols, fun la hla => ?_⟩⟩
  obtain ⟨L, march, h1, h2, h3⟩ := h'.value la hla
  exact ⟨L, march, fun t a b c d => ⟨(h1 t a b c d).le, (h1 t a b c d).smooth, (h1 t a b c d).largest⟩, ⟨fun n p hn hr =>
    h2.1 n p hn ⟨hr.u, hr.v, hr.dir, hr.wave, hr.incl⟩, fun p hr => h2.2 p ⟨hr.u, hr.v, hr.dir, hr.wave, hr.incl⟩⟩, h3⟩

/-- **C82** Where no opacity is negative and every emissivity is between 0 and `hi` times the opacity, every J is between 0
and `hi` times the sum of the inclination weights (1, C64). -/
theorem C82_bounds2 (hf : Fits s k nx nz) (hsc : 0 ≤ scale) (hw : ∀ x ∈ s.wmuy, 0 ≤ x) (hi : ℝ) (hhi : 0 ≤ hi)
    (hsrc : ∀ c, InGrid k nx nz c → ∀ la : Nat, la < nw → 0 ≤ chi c la ∧ 0 ≤ eta c la ∧ eta c la ≤ hi * chi c la)
    (J : Arr2 ℝ) (h : Solves s k nx nz nw eta chi scale J) :
    ∀ la x z, la < nw → x < nx * 2 ^ k → z < nz * 2 ^ k → 0 ≤ J.get la (z * (nx * 2 ^ k) + x) ∧
      J.get la (z * (nx * 2 ^ k) + x) ≤ hi * ∑ th ∈ Finset.range s.incl, s.wmuy.getD th 0 := by
  intro la x z hla hx hz
  obtain ⟨L, march, h1, h2, h3⟩ := (solves_clip hf J h).value la hla
  obtain ⟨b1, b2⟩ := batch_pos hf la hla
  rw [h3 x z hx hz]
  have hcl : ∀ c la, 0 ≤ clip k nx nz nw chi c la ∧ 0 ≤ clip k nx nz nw eta c la ∧ clip k nx nz nw eta c la ≤ hi * clip k nx nz nw chi c la := by
    intro c la
    unfold clip
    by_cases hh : InGrid k nx nz c ∧ 0 ≤ la ∧ la < nw
    · rw [if_pos hh, if_pos hh]
      have := hsrc c hh.1 la.toNat (by omega)
      rwa [Int.toNat_of_nonneg hh.2.1] at this
    · rw [if_neg hh, if_neg hh]; simp
  set w := fileWorld s k nx nz (clip k nx nz nw eta) (clip k nx nz nw chi) scale L with hwd
  have hS : w.SourceIn 0 hi := by
    intro l mu m c
    have e0 : 0 ≤ w.chi l mu m c := mean_nonneg2 _ (fun c => (hcl c l).1) _ _
    have e1 : 0 ≤ w.eta l mu m c := mean_nonneg2 _ (fun c => (hcl c l).2.1) _ _
    have e2 : w.eta l mu m c ≤ hi * w.chi l mu m c := by
      have := mean_le2 _ _ (fun c => (hcl c l).2.2) m.toNat ⟨c 0, c 1⟩
      rw [mean_smul2] at this
      exact this
    refine ⟨e0, by rw [zero_mul]; exact e1, ?_⟩
    rw [mul_add]
    have : 0 ≤ hi * 1e-15 := by positivity
    linarith
  have key := meanJ_in s.cfg.p0rays s.incl hf.valid.1 s.wmuy hw
    (radiance2 march (nx * 2 ^ k) (nz * 2 ^ k) (upperTexelsPerRay s.cfg) s.num s.num) x z (la % s.W) hhi (fun d th hd ht => ?_)
  · rw [zero_mul] at key; exact key
  · set e := envOf s (nx * 2 ^ k) (nz * 2 ^ k) march with he
    refine radiance2_inV march _ _ _ (texels_pos s.cfg) s.num (Ray2 e (min s.W (nw - la / s.W * s.W)))
      (fun n q U V r _ hq hU hV hr => ray2_child e hf.valid hf.mode _ n q U V r hq hU hV hr) (fun n q hq => ⟨hq.u, hq.v⟩) hhi
      (fun n q hn hq => ?_) (fun q hq => ?_) _ (ray_zero hf march _ x z d th _ hx hz hd ht b2)
    · obtain ⟨seg, fuel, res, -, k2, k3⟩ := h2.1 n q hn hq
      rw [show march false n q = e.march false n q from rfl, k3]
      exact raymarch_segIn (w.args2 e (raysFrom s _) false n q seg) hsc (fun m c => hS _ (fun _ => 0) m c) rfl fuel res k2
    · obtain ⟨seg, fuel, res, -, k2, k3⟩ := h2.2 q hq
      rw [show march true s.num q = e.march true e.num q from rfl, k3]
      exact raymarch_between (w.args2 e (raysFrom s _) true e.num q seg) hsc (fun m c => hS _ (fun _ => 0) m c)
        (fun b => startI_in _ b ⟨le_rfl, hhi⟩ ⟨le_rfl, hhi⟩) fuel res k2

/-- **C82** An atmosphere that does not emit gives J = 0 everywhere. -/
theorem C82_dark2 (hf : Fits s k nx nz) (hsc : 0 ≤ scale) (hw : ∀ x ∈ s.wmuy, 0 ≤ x)
    (hsrc : ∀ c, InGrid k nx nz c → ∀ la : Nat, la < nw → 0 ≤ chi c la ∧ eta c la = 0)
    (J : Arr2 ℝ) (h : Solves s k nx nz nw eta chi scale J) :
    ∀ la x z, la < nw → x < nx * 2 ^ k → z < nz * 2 ^ k → J.get la (z * (nx * 2 ^ k) + x) = 0 := by
  intro la x z hla hx hz
  have := C82_bounds2 hf hsc hw 0 le_rfl (fun c hc l hl => ⟨(hsrc c hc l hl).1, (hsrc c hc l hl).2.ge, by rw [(hsrc c hc l hl).2, zero_mul]⟩) J h la x z hla hx hz
  rw [zero_mul] at this
  exact le_antisymm this.2 this.1

/-- **C82** Without levels of detail (all of `mip_levels` 0), J at a wavelength depends only on the data of that
wavelength: not on the other wavelengths in the file, not on how many are computed together, not on where J is kept. -/
theorem C82_wavelength2 (hf : Fits s k nx nz) (h0 : topLevel s = 0) (W' : Nat) (b' : Bool) (hW' : 0 < W') (nw' : Nat) (eta' chi' : Coord2 → Int → ℝ) (la : Nat) (hla : la < nw)
    (hla' : la < nw') (he : ∀ c, InGrid k nx nz c → eta c la = eta' c la) (hc : ∀ c, InGrid k nx nz c → chi c la = chi' c la) (J J' : Arr2 ℝ)
    (h : Solves s k nx nz nw eta chi scale J) (h' : Solves { s with W := W', onCpu := b' } k nx nz nw' eta' chi' scale J') :
    ∀ x z, x < nx * 2 ^ k → z < nz * 2 ^ k → J.get la (z * (nx * 2 ^ k) + x) = J'.get la (z * (nx * 2 ^ k) + x) := by
  intro x z hx hz
  obtain ⟨L, march, h1, h2, h3⟩ := h.value la hla
  obtain ⟨L', march', i1, i2, i3⟩ := h'.value la hla'
  simp only at i1 i2 i3
  rw [file_L_congr L' L (fun t a b c d => by
    rw [level_zero h0 (h1 t a b c d), level_zero (s := { s with W := W', onCpu := b' }) h0 (i1 t a b c d)])] at i2
  obtain ⟨b1, b2⟩ := batch_pos hf la hla
  have c1 := Nat.div_add_mod' la W'
  have c2 := Nat.mod_lt la hW'
  rw [h3 x z hx hz, i3 x z hx hz]
  refine mean_congr2 _ _ _ _ _ _ _ _ _ fun d th hd ht => ?_
  exact radiance_file hf W' b' eta' chi' L la _ _ _ _ _ _ b1 c1 b2 (by omega) he hc march march' h2 i2 x z d th hx hz hd ht

/-- **C82** Without levels of detail, J for emissivities `eta₁ + eta₂` is the sum of the J for `eta₁` and for `eta₂` with
the same opacities. -/
theorem C82_superposition2 (hf : Fits s k nx nz) (h0 : topLevel s = 0) (eta1 eta2 : Coord2 → Int → ℝ)
    (hs : ∀ c, InGrid k nx nz c → ∀ la : Nat, la < nw → eta c la = eta1 c la + eta2 c la)
    (J J1 J2 : Arr2 ℝ) (h : Solves s k nx nz nw eta chi scale J) (h1 : Solves s k nx nz nw eta1 chi scale J1) (h2 : Solves s k nx nz nw eta2 chi scale J2) :
    ∀ la x z, la < nw → x < nx * 2 ^ k → z < nz * 2 ^ k →
      J.get la (z * (nx * 2 ^ k) + x) = J1.get la (z * (nx * 2 ^ k) + x) + J2.get la (z * (nx * 2 ^ k) + x) := by
  intro la x z hla hx hz
  obtain ⟨L, m, a1, a2, a3⟩ := (solves_congr hf (fun c la => eta1 c la + eta2 c la) chi (fun c hc la hla => hs c hc la hla) (fun _ _ _ _ => rfl) J h).value la hla
  obtain ⟨L1, m1, c1, c2, c3⟩ := h1.value la hla
  obtain ⟨L2, m2, d1, d2, d3⟩ := h2.value la hla
  rw [file_L_congr L1 L (fun t a b c d => by rw [level_zero h0 (a1 t a b c d), level_zero h0 (c1 t a b c d)])] at c2
  rw [file_L_congr L2 L (fun t a b c d => by rw [level_zero h0 (a1 t a b c d), level_zero h0 (d1 t a b c d)])] at d2
  obtain ⟨b1, b2⟩ := batch_pos hf la hla
  rw [a3 x z hx hz, c3 x z hx hz, d3 x z hx hz]
  set w1 := fileWorld s k nx nz eta1 chi scale L
  set w2 := fileWorld s k nx nz eta2 chi scale L
  have hpl : fileWorld s k nx nz (fun c la => eta1 c la + eta2 c la) chi scale L = w1.plus w2 := by
    unfold fileWorld World.plus
    simp only [World.mk.injEq]
    refine ⟨rfl, rfl, rfl, rfl, rfl, rfl, rfl, rfl, ?_, rfl, ?_⟩
    · funext la mu l c
      exact mean_add2 _ _ _ _
    · funext la x mu
      show (0 : ℝ) = 0 + 0
      rw [add_zero]
  have hso : w1.SameOpacity w2 := rfl
  rw [hpl] at a2
  set e := envOf s (nx * 2 ^ k) (nz * 2 ^ k) m with he
  set wv := min s.W (nw - la / s.W * s.W) with hwv
  have hadd := fun n q (hn : n < s.num) (hq : Ray2 e wv n q) =>
    marchRay2_add w1 w2 hso e (raysFrom s _) false n q _ _ _ (a2.1 n q hn hq) (c2.1 n q hn ⟨hq.u, hq.v, hq.dir, hq.wave, hq.incl⟩)
      (d2.1 n q hn ⟨hq.u, hq.v, hq.dir, hq.wave, hq.incl⟩)
  have haddt := fun q (hq : Ray2 e wv s.num q) =>
    marchRay2_add w1 w2 hso e (raysFrom s _) true s.num q _ _ _ (a2.2 q hq) (c2.2 q ⟨hq.u, hq.v, hq.dir, hq.wave, hq.incl⟩)
      (d2.2 q ⟨hq.u, hq.v, hq.dir, hq.wave, hq.incl⟩)
  have hrad : ∀ d th, d < s.cfg.p0rays → th < s.incl → radiance2 m (nx * 2 ^ k) (nz * 2 ^ k) (upperTexelsPerRay s.cfg) s.num s.num ⟨x, z, d, th, la % s.W⟩ =
      radiance2 m1 (nx * 2 ^ k) (nz * 2 ^ k) (upperTexelsPerRay s.cfg) s.num s.num ⟨x, z, d, th, la % s.W⟩ +
        radiance2 m2 (nx * 2 ^ k) (nz * 2 ^ k) (upperTexelsPerRay s.cfg) s.num s.num ⟨x, z, d, th, la % s.W⟩ := by
    intro d th hd ht
    exact radiance2_addV m m1 m2 _ _ _ s.num (Ray2 e wv)
      (fun n q U V r _ hq hU hV hr => ray2_child e hf.valid hf.mode _ n q U V r hq hU hV hr) hadd (fun q hq => (haddt q hq).1) s.num le_rfl _
      (by rw [Nat.sub_self]; exact ray_zero hf m wv x z d th _ hx hz hd ht b2)
  rw [mean_congr2 _ _ _ _ (fun p => radiance2 m1 (nx * 2 ^ k) (nz * 2 ^ k) (upperTexelsPerRay s.cfg) s.num s.num p +
    radiance2 m2 (nx * 2 ^ k) (nz * 2 ^ k) (upperTexelsPerRay s.cfg) s.num s.num p) x z (la % s.W) (la % s.W) hrad]
  unfold meanIntensity2
  rw [← add_div, ← Finset.sum_add_distrib]
  congr 1
  refine Finset.sum_congr rfl fun d _ => ?_
  rw [← Finset.sum_add_distrib]
  exact Finset.sum_congr rfl fun th _ => by ring

/-- **C82** Without levels of detail, with the opacities unchanged and not negative, raising the emissivity anywhere
lowers J nowhere. -/
theorem C82_monotone2 (hf : Fits s k nx nz) (h0 : topLevel s = 0) (hsc : 0 ≤ scale) (hw : ∀ x ∈ s.wmuy, 0 ≤ x) (eta' : Coord2 → Int → ℝ)
    (hle : ∀ c, InGrid k nx nz c → ∀ la : Nat, la < nw → 0 ≤ chi c la ∧ eta c la ≤ eta' c la)
    (J J' : Arr2 ℝ) (h : Solves s k nx nz nw eta chi scale J) (h' : Solves s k nx nz nw eta' chi scale J') :
    ∀ la x z, la < nw → x < nx * 2 ^ k → z < nz * 2 ^ k → J.get la (z * (nx * 2 ^ k) + x) ≤ J'.get la (z * (nx * 2 ^ k) + x) := by
  intro la x z hla hx hz
  obtain ⟨L, m, a1, a2, a3⟩ := (solves_clip hf J h).value la hla
  obtain ⟨L1, m1, c1, c2, c3⟩ := (solves_clip hf J' h').value la hla
  rw [file_L_congr L1 L (fun t a b c d => by rw [level_zero h0 (a1 t a b c d), level_zero h0 (c1 t a b c d)])] at c2
  obtain ⟨b1, b2⟩ := batch_pos hf la hla
  rw [a3 x z hx hz, c3 x z hx hz]
  have hcl : ∀ c la, 0 ≤ clip k nx nz nw chi c la ∧ clip k nx nz nw eta c la ≤ clip k nx nz nw eta' c la := by
    intro c la
    unfold clip
    by_cases hh : InGrid k nx nz c ∧ 0 ≤ la ∧ la < nw
    · rw [if_pos hh, if_pos hh, if_pos hh]
      have := hle c hh.1 la.toNat (by omega)
      rwa [Int.toNat_of_nonneg hh.2.1] at this
    · rw [if_neg hh, if_neg hh, if_neg hh]; simp
  set w1 := fileWorld s k nx nz (clip k nx nz nw eta) (clip k nx nz nw chi) scale L
  set w2 := fileWorld s k nx nz (clip k nx nz nw eta') (clip k nx nz nw chi) scale L
  have hmono := marchRay2_mono w1 w2 rfl hsc (fun l mu m c => mean_nonneg2 _ (fun c => (hcl c l).1) _ _)
    (fun l mu m c => mean_le2 _ _ (fun c => (hcl c l).2) _ _) (fun _ _ _ => le_rfl)
  set e := envOf s (nx * 2 ^ k) (nz * 2 ^ k) m with he
  set wv := min s.W (nw - la / s.W * s.W) with hwv
  have hrad : ∀ d th, d < s.cfg.p0rays → th < s.incl → radiance2 m (nx * 2 ^ k) (nz * 2 ^ k) (upperTexelsPerRay s.cfg) s.num s.num ⟨x, z, d, th, la % s.W⟩ ≤
      radiance2 m1 (nx * 2 ^ k) (nz * 2 ^ k) (upperTexelsPerRay s.cfg) s.num s.num ⟨x, z, d, th, la % s.W⟩ := by
    intro d th hd ht
    exact radiance2_monoV m m1 _ _ _ s.num (Ray2 e wv)
      (fun n q U V r _ hq hU hV hr => ray2_child e hf.valid hf.mode _ n q U V r hq hU hV hr)
      (fun n q hn hq => hmono e (raysFrom s _) false n q _ _ (a2.1 n q hn hq) (c2.1 n q hn ⟨hq.u, hq.v, hq.dir, hq.wave, hq.incl⟩))
      (fun q hq => (hmono e (raysFrom s _) true s.num q _ _ (a2.2 q hq) (c2.2 q ⟨hq.u, hq.v, hq.dir, hq.wave, hq.incl⟩)).1) s.num le_rfl _
      (by rw [Nat.sub_self]; exact ray_zero hf m wv x z d th _ hx hz hd ht b2)
  unfold meanIntensity2
  refine div_le_div_of_nonneg_right ?_ (by positivity)
  refine Finset.sum_le_sum fun d hd => Finset.sum_le_sum fun th ht => mul_le_mul_of_nonneg_left (hrad d th (Finset.mem_range.1 hd) (Finset.mem_range.1 ht)) ?_
  rw [List.getD_eq_getElem?_getD]
  cases hx : s.wmuy[th]? with
  | none => simp
  | some v => simpa using hw v (List.mem_of_getElem? hx)

/-- **C82** A file without one of the dimensions, without emissivity or opacity, or with a size that is not a multiple of
the side of a tile, is rejected with an error before anything is computed. -/
theorem C82_rejects2 {W : Type} (s : Settings) (cv : W → ℝ) (f : NcFile (Coord2 × Int) W) (o : Nat → BatchOrder) (old : Nat → Nat → ℝ)
    (h : f.dim "x" = none ∨ f.dim "z" = none ∨ f.dim "wavelength" = none ∨ f.grid "eta" = none ∨ f.grid "chi" = none ∨
      (∃ x, f.dim "x" = some x ∧ ¬ (s.B : Int) ∣ x) ∨ ∃ z, f.dim "z" = some z ∧ ¬ (s.B : Int) ∣ z) :
    run2 s cv f o old = .throws := by
  have key : initGiven2 s cv f = .throws := by
    unfold initGiven2
    cases hx : f.dim "x" with
    | none => rfl
    | some x =>
      cases hz : f.dim "z" with
      | none => rfl
      | some z =>
        cases hw : f.dim "wavelength" with
        | none => rfl
        | some nw =>
          cases he : f.grid "eta" with
          | none => rfl
          | some eta =>
            cases hc : f.grid "chi" with
            | none => rfl
            | some chi =>
              have hs : setupDense2 s.B x z = .throws := by
                unfold setupDense2
                rw [if_pos]
                rw [hx, hz, hw, he, hc] at h
                rcases h with h | h | h | h | h | ⟨v, h, hd⟩ | ⟨v, h, hd⟩
                · exact absurd h (by simp)
                · exact absurd h (by simp)
                · exact absurd h (by simp)
                · exact absurd h (by simp)
                · exact absurd h (by simp)
                · left; obtain rfl := Option.some.inj h; exact fun hh => hd (Int.dvd_of_tmod_eq_zero hh)
                · right; obtain rfl := Option.some.inj h; exact fun hh => hd (Int.dvd_of_tmod_eq_zero hh)
              simp only [need, Outcome.ok_bind, hs]
              rfl
  unfold run2
  rw [key]; rfl

/-- Non-vacuity: the default build on a file of 32 by 32 cells with five cascades above cascade 0 and mip levels, for any
emissivities and opacities and any number of wavelengths. -/
noncomputable def exSettings : Settings :=
  { E := 3, B := 16, cfg := ⟨2, 2, 0, 4, .dirByDir⟩, len := ⟨3 / 2, true, 20000⟩, num := 5, pp := true, W := 8, incl := 4,
    muy := fun i => (i + 1) / 5, wmuy := [1 / 4, 1 / 4, 1 / 4, 1 / 4], levels := [0, 0, 1, 2, 3, 3], tol := ⟨1 / 4, 1, 1⟩,
    toInfty := true, extraSafe := true, onCpu := true }

theorem exFits : Fits exSettings 4 2 2 where
  block := rfl
  pos := by decide
  even := by decide
  size := by unfold GoodSize2 i32Max; decide
  entry := by decide
  valid := by unfold RcCfg.Valid; decide
  mode := by decide
  weights := rfl
  batch := by decide
  levels := by decide
  levelRange := by decide
  dirs := by
    intro n _
    show (1 * 4) * 2 ^ (2 * n) % 4 ≠ 2
    omega
  length := by
    intro n hn
    have : ∀ n, n ≤ 5 → (intervalLength exSettings.cfg exSettings.len exSettings.num n).2 ≤ 20000 ∧
        0 ≤ (intervalLength exSettings.cfg exSettings.len exSettings.num n).1 := by
      decide +kernel
    obtain ⟨h1, h2⟩ := this n hn
    have h1' : ((intervalLength exSettings.cfg exSettings.len exSettings.num n).2 : ℝ) ≤ (20000 : ℚ) := by exact_mod_cast h1
    have h2' : (0 : ℝ) ≤ ((intervalLength exSettings.cfg exSettings.len exSettings.num n).1 : ℝ) := by exact_mod_cast h2
    push_cast at h1'
    have : (20000 : ℝ) ≤ 1e24 := by norm_num
    linarith

theorem exHolds (eta chi : Coord2 → Int → ℝ) (nw : Nat) : Holds (W := ℝ)
    { dim := fun n => if n = "x" then some 32 else if n = "z" then some 32 else if n = "wavelength" then some nw else none,
      scalar := fun _ => none,
      grid := fun n => if n = "eta" then some fun p => eta p.1 p.2 else if n = "chi" then some fun p => chi p.1 p.2 else none,
      flat := fun _ => none, tiles := fun _ => none, attr := fun _ => none } id (2 ^ 4) 2 2 nw eta chi 1 where
  x := by simp
  z := by simp
  wavelength := by simp
  eta := ⟨fun p => eta p.1 p.2, by simp, fun _ _ => rfl⟩
  chi := ⟨fun p => chi p.1 p.2, by simp, fun _ _ => rfl⟩
  scale := Or.inl ⟨rfl, rfl⟩

/-- Orders and buffers of the required form exist for every configuration. -/
theorem exOrders (s : Settings) (k nx nz wv : Nat) : ∃ o, Orders s k nx nz wv o := by
  obtain ⟨e, he⟩ : ∃ e : Env2 ℝ, e = envOf s (nx * 2 ^ k) (nz * 2 ^ k) (fun _ _ _ => ⟨0, 0, 0⟩) := ⟨_, rfl⟩
  obtain ⟨sizes, hs⟩ : ∃ l, l = bufferSizes s.pp (fun n => cascadeEntries (cascadeSize s.cfg
    (raysToStorage s.cfg ⟨nx * 2 ^ k, nz * 2 ^ k, s.cfg.p0rays, s.W, s.incl⟩) n)) s.num := ⟨_, rfl⟩
  obtain ⟨rc, hrc⟩ : ∃ rc : Nat → Task → List JIter, rc = fun t k => match (e.probes k.n).num with
    | .ok N => iters2 e k.n t wv N.toNat
    | _ => [] := ⟨_, rfl⟩
  refine ⟨⟨fun _ => _, fun _ _ => _, fun _ _ => _, _, rc, fun _ => _, fun _ _ => 0, fun _ _ => 0,
    ⟨sizes.map fun s => List.replicate s 0, none⟩, 0, 0⟩, fun _ => List.Perm.refl _, fun _ _ => List.Perm.refl _,
    fun _ _ => List.Perm.refl _, List.Perm.refl _, fun t march => ?_, fun _ => List.Perm.refl _, ?_⟩
  · intro k' N _ hN
    rw [hrc, he]
    have hN' : ((envOf s (nx * 2 ^ k) (nz * 2 ^ k) (fun _ _ _ => ⟨0, 0, 0⟩)).probes k'.n).num = .ok ((N : Nat) : Int) := hN
    simp only [hN', Int.toNat_natCast]
    exact List.Perm.refl _
  · refine ⟨?_, fun ps hps => by simp at hps⟩
    rw [hs]
    simp [List.map_map, Function.comp_def]

/-- so there are runs, and they end with J -/
example (eta chi : Coord2 → Int → ℝ) (nw : Nat) : ∃ (f : NcFile (Coord2 × Int) ℝ) (o : Nat → BatchOrder) (J : Arr2 ℝ),
    run2 exSettings id f o (fun _ _ => 0) = .ok J ∧ Solves exSettings 4 2 2 nw eta chi 1 J := by
  choose o ho using fun la => exOrders exSettings 4 2 2 (min 8 (nw - la))
  obtain ⟨J, h⟩ := C82_J2 id _ exFits (exHolds eta chi nw) o (fun la _ _ => ho la) (fun _ _ => 0)
  exact ⟨_, o, J, h⟩

/-- the level of detail matters: this file's largest level is 3 -/
example : topLevel exSettings = 3 := by decide

end DexRT.Given
