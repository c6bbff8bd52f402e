import Verif.Lemmas.GivenBatch3
import Verif.Lemmas.FormalBounds2
/-! Lemmas for C88: a whole 3D run, and what its result depends on. -/
namespace DexRT.Given3
open DexRT DexRT.Fs DexRT.AtmosFile DexRT.Dir Classical

variable {s : Settings} {k nx ny nz nw : Nat} {eta chi : Coord3 → Int → ℝ} {scale : ℝ} {g : Given}

theorem waves_ok (hf : Fits s k nx ny nz) (hg : Good s k nx ny nz nw eta chi scale g) (o : Nat → WaveOrder)
    (ho : ∀ la, la < nw → Orders s k nx ny nz (o la)) : ∀ (ls : List Nat) (_ : ls.Nodup) (_ : ∀ la ∈ ls, la < nw) (J : Arr2 ℝ)
    (_ : J.rows = nw) (_ : J.cols = nx * 2 ^ k * (ny * 2 ^ k) * (nz * 2 ^ k)),
    ∃ J', wavesLoop s g o ls J = .ok J' ∧ J'.rows = J.rows ∧ J'.cols = J.cols ∧
      (∀ la ∈ ls, ∃ march, Marches3 (fileWorld k nx ny nz eta chi scale) (envOf s (nx * 2 ^ k) (ny * 2 ^ k) (nz * 2 ^ k) march) s.len la ∧
        ∀ x y z, x < nx * 2 ^ k → y < ny * 2 ^ k → z < nz * 2 ^ k →
          J'.get la ((z * (ny * 2 ^ k) + y) * (nx * 2 ^ k) + x) = J.get la ((z * (ny * 2 ^ k) + y) * (nx * 2 ^ k) + x) +
            meanIntensity3 s.cfg.c0az s.cfg.c0polar (radiance3 march (nx * 2 ^ k) (ny * 2 ^ k) (nz * 2 ^ k)
              (upperTexels3 s.cfg.branch).1 (upperTexels3 s.cfg.branch).2 s.num s.num) x y z) ∧
      ∀ r a, r ∉ ls → J'.get r a = J.get r a
  | [], _, _, J, _, _ => ⟨J, rfl, rfl, rfl, by simp, fun _ _ _ => rfl⟩
  | la :: ls, hnd, hlt, J, hr, hc => by
    have hla := hlt la (by simp)
    obtain ⟨march, h1, h2⟩ := wave_ok hf hg (o la) la hla (ho la hla)
    obtain ⟨J1, j1, j2, j3, j4, j5⟩ := h2 J hc (by rw [hr]; exact hla)
    obtain ⟨hn1, hn2⟩ := List.nodup_cons.1 hnd
    obtain ⟨J', i1, i2, i3, i4, i5⟩ := waves_ok hf hg o ho ls hn2 (fun l hl => hlt l (by simp [hl])) J1 (by rw [j2, hr]) (by rw [j3, hc])
    refine ⟨J', ?_, by rw [i2, j2], by rw [i3, j3], ?_, ?_⟩
    · unfold wavesLoop
      rw [j1, Outcome.ok_bind, i1]
    · intro l hl
      rcases List.mem_cons.1 hl with rfl | hl
      · exact ⟨march, h1, fun x y z hx hy hz => by rw [i5 _ _ hn1, j4 x y z hx hy hz]⟩
      · obtain ⟨m2, q1, q2⟩ := i4 l hl
        refine ⟨m2, q1, fun x y z hx hy hz => ?_⟩
        rw [q2 x y z hx hy hz, j5 l _ (fun h => hn1 (h ▸ hl))]
    · intro r a hr'
      rw [i5 r a (fun h => hr' (by simp [h])), j5 r a (fun h => hr' (by simp [h]))]

/-- a whole run -/
theorem run_ok {W : Type} {cv : W → ℝ} {f : NcFile (Coord3 × Int) W} (hf : Fits s k nx ny nz)
    (hh : Holds f cv (2 ^ k) nx ny nz nw eta chi scale) (o : Nat → WaveOrder) (ho : ∀ la, la < nw → Orders s k nx ny nz (o la)) :
    ∃ J, run3 s cv f o = .ok J ∧ Solves s k nx ny nz nw eta chi scale J := by
  obtain ⟨g, hg1, hg⟩ := init_ok hf hh
  have hnw : g.nw.toNat = nw := by rw [hg.sw]; rfl
  have hcols : jCols s g = nx * 2 ^ k * (ny * 2 ^ k) * (nz * 2 ^ k) := by
    unfold jCols
    have hd : g.bm.dims.x = nx ∧ g.bm.dims.y = ny ∧ g.bm.dims.z = nz := by
      have := hg.map.dims
      rw [this]; exact ⟨rfl, rfl, rfl⟩
    rw [hd.1, hd.2.1, hd.2.2, hf.block]
    have : (nx : Int) * ny * nz * (((2 ^ k : Nat) : Int) * ((2 ^ k : Nat) : Int) * ((2 ^ k : Nat) : Int)) =
        ((nx * 2 ^ k * (ny * 2 ^ k) * (nz * 2 ^ k) : Nat) : Int) := by push_cast; ring
    rw [this, Int.toNat_natCast]
  obtain ⟨J, j1, j2, j3, j4, -⟩ := waves_ok hf hg o ho (List.range nw) List.nodup_range (fun la hla => List.mem_range.1 hla)
    ⟨nw, jCols s g, fun _ _ => 0⟩ rfl hcols
  refine ⟨J, ?_, ⟨j2, by rw [j3]; exact hcols, fun la hla => ?_⟩⟩
  · unfold run3
    rw [hg1, Outcome.ok_bind]
    simp only [hnw]
    exact j1
  · obtain ⟨march, h1, h2⟩ := j4 la (List.mem_range.2 hla)
    refine ⟨march, h1, fun x y z hx hy hz => ?_⟩
    rw [h2 x y z hx hy hz]
    exact zero_add _

/-- the march reads the data of the grid only, at its wavelength only -/
theorem marchRay_file (eta' chi' : Coord3 → Int → ℝ) (la la' : Nat)
    (he : ∀ c, InGrid k nx ny nz c → eta c la = eta' c la') (hc : ∀ c, InGrid k nx ny nz c → chi c la = chi' c la')
    (march march' : Bool → Nat → ProbeIdx3 → Seg ℝ) (bc : Bool) (n : Nat) (p : ProbeIdx3) (sg : Seg ℝ) :
    MarchRay3 (fileWorld k nx ny nz eta chi scale) (envOf s (nx * 2 ^ k) (ny * 2 ^ k) (nz * 2 ^ k) march) s.len la bc n p sg ↔
      MarchRay3 (fileWorld k nx ny nz eta' chi' scale) (envOf s (nx * 2 ^ k) (ny * 2 ^ k) (nz * 2 ^ k) march') s.len la' bc n p sg := by
  have hmap : ∀ eta chi la march fuel, (raymarch ((fileWorld k nx ny nz eta chi scale).args3 (envOf s (nx * 2 ^ k) (ny * 2 ^ k) (nz * 2 ^ k) march) s.len la bc n p) fuel) =
      raymarch (toRay { seg := probeRay3 s.len s.num n (cascadeComputeSize3 s.cfg (c0Of s (nx * 2 ^ k) (ny * 2 ^ k) (nz * 2 ^ k)) n).az p.u p.v p.w p.az, env := (fileWorld k nx ny nz eta chi scale).env n, eta := fun _ c => eta ⟨c 0, c 1, c 2⟩ la, chi := fun _ c => chi ⟨c 0, c 1, c 2⟩ la, scale := scale } bc 0 0) fuel := by
    intro eta chi la march fuel
    unfold raymarch
    have hI : ∀ b, startI ((fileWorld k nx ny nz eta chi scale).args3 (envOf s (nx * 2 ^ k) (ny * 2 ^ k) (nz * 2 ^ k) march) s.len la bc n p) b = 0 := by
      intro b
      unfold startI
      rw [show ((fileWorld k nx ny nz eta chi scale).args3 (envOf s (nx * 2 ^ k) (ny * 2 ^ k) (nz * 2 ^ k) march) s.len la bc n p).bc = 0 from rfl]
      simp
    have hI2 : ∀ a : StaticArgs, ∀ b, startI (toRay a bc 0 0) b = 0 := by
      intro a b
      unfold startI
      rw [show (toRay a bc 0 0).bc = 0 from rfl]
      simp
    simp only [hI, hI2]
    rfl
  have hray : ∀ fuel, raymarch ((fileWorld k nx ny nz eta' chi' scale).args3 (envOf s (nx * 2 ^ k) (ny * 2 ^ k) (nz * 2 ^ k) march') s.len la' bc n p) fuel =
      raymarch ((fileWorld k nx ny nz eta chi scale).args3 (envOf s (nx * 2 ^ k) (ny * 2 ^ k) (nz * 2 ^ k) march) s.len la bc n p) fuel := by
    intro fuel
    rw [hmap, hmap]
    refine raymarch_congr (toRay { seg := probeRay3 s.len s.num n (cascadeComputeSize3 s.cfg (c0Of s (nx * 2 ^ k) (ny * 2 ^ k) (nz * 2 ^ k)) n).az p.u p.v p.w p.az, env := (fileWorld k nx ny nz eta chi scale).env n, eta := fun _ c => eta ⟨c 0, c 1, c 2⟩ la, chi := fun _ c => chi ⟨c 0, c 1, c 2⟩ la, scale := scale } bc 0 0)
      (fun _ c => eta' ⟨c 0, c 1, c 2⟩ la') (fun _ c => chi' ⟨c 0, c 1, c 2⟩ la') (fun c m hm => file_blk n c m hm) (fun c hc0 => ?_) fuel
    change 0 ≤ ((fileWorld k nx ny nz eta chi scale).env n).sampleLevel c at hc0
    have hcin : InGrid k nx ny nz ⟨c 0, c 1, c 2⟩ := by
      by_contra hno
      have : ((fileWorld k nx ny nz eta chi scale).env n).lvl c = -1 := by
        show (fileWorld k nx ny nz eta chi scale).lvl c = -1
        rw [lvl_eq, if_neg hno]
      unfold DdaEnv.sampleLevel at hc0
      rw [this] at hc0
      have := min_le_left (-1 : ℤ) ((fileWorld k nx ny nz eta chi scale).env n).maxMip
      omega
    exact ⟨(he _ hcin).symm, (hc _ hcin).symm⟩
  unfold MarchRay3
  simp only [hray]

theorem marchRay3_unique (w : World .three) (e : Env3 ℝ) (l : LenCfg3) (la : ℤ) (bc : Bool) (n : Nat) (p : ProbeIdx3) (s s' : Seg ℝ)
    (h : MarchRay3 w e l la bc n p s) (h' : MarchRay3 w e l la bc n p s') : s = s' := by
  obtain ⟨f, r, h1, rfl⟩ := h
  obtain ⟨f', r', h1', rfl⟩ := h'
  rw [raymarch_unique _ f f' r r' h1 h1']

theorem ray_zero (hf : Fits s k nx ny nz) (march : Bool → Nat → ProbeIdx3 → Seg ℝ) (x y z q a : Nat) (hx : x < nx * 2 ^ k) (hy : y < ny * 2 ^ k)
    (hz : z < nz * 2 ^ k) (hq : q < s.cfg.c0polar) (ha : a < s.cfg.c0az) : Ray3 (envOf s (nx * 2 ^ k) (ny * 2 ^ k) (nz * 2 ^ k) march) 0 ⟨x, y, z, q, a⟩ := by
  have h0 : ∀ N u, u < N → u < probesOn N 0 := by
    intro N u hu
    unfold probesOn
    simp only [pow_zero, Nat.div_one]
    omega
  obtain ⟨ord, e, hb, -, -⟩ := hf.healpix
  refine ⟨?_, ?_, ?_, ?_, ?_⟩
  · rw [env_np0]; exact h0 _ _ hx
  · rw [env_np1]; exact h0 _ _ hy
  · rw [env_np2]; exact h0 _ _ hz
  · have h := npix_zero hf
    show a < npix3 (cascades s k nx ny nz) 0
    rw [h]; exact ha
  · show q < (cascadeComputeSize3 s.cfg (c0Of s _ _ _) 0).polar
    have hp := (rays_pos hf).2
    have hfac : polarFactor s.cfg.branch 0 = 1 := by rw [hb]; rfl
    unfold cascadeComputeSize3 c0Of raysToStorage3
    by_cases hd : s.cfg.dirByDir = true
    · simp only [hd, if_true, hfac, mul_one, Nat.div_self hp, one_mul]; exact hq
    · simp only [hd, Bool.false_eq_true, if_false, hfac, mul_one]; exact hq

theorem env_child (march : Bool → Nat → ProbeIdx3 → Seg ℝ) (n : Nat) (p : ProbeIdx3) (U W X i j : Nat)
    (h : Ray3 (envOf s (nx * 2 ^ k) (ny * 2 ^ k) (nz * 2 ^ k) march) n p)
    (hU : U < probesOn (nx * 2 ^ k) (n + 1)) (hW : W < probesOn (ny * 2 ^ k) (n + 1)) (hX : X < probesOn (nz * 2 ^ k) (n + 1))
    (hi : i < (upperTexels3 s.cfg.branch).2) (hj : j < (upperTexels3 s.cfg.branch).1) :
    Ray3 (envOf s (nx * 2 ^ k) (ny * 2 ^ k) (nz * 2 ^ k) march) (n + 1) { u := U, v := W, w := X, polar := p.polar * (upperTexels3 s.cfg.branch).2 + i, az := p.az * (upperTexels3 s.cfg.branch).1 + j } := by
  refine ray3_child (envOf s (nx * 2 ^ k) (ny * 2 ^ k) (nz * 2 ^ k) march) n p U W X i j h ?_ ?_ ?_ hi hj
  · rw [env_np0]; exact hU
  · rw [env_np1]; exact hW
  · rw [env_np2]; exact hX

/-- two solutions of the same data have the same radiances -/
theorem radiance_file (hf : Fits s k nx ny nz) (eta' chi' : Coord3 → Int → ℝ) (la la' : Nat)
    (he : ∀ c, InGrid k nx ny nz c → eta c la = eta' c la') (hc : ∀ c, InGrid k nx ny nz c → chi c la = chi' c la')
    (march march' : Bool → Nat → ProbeIdx3 → Seg ℝ)
    (hm : Marches3 (fileWorld k nx ny nz eta chi scale) (envOf s (nx * 2 ^ k) (ny * 2 ^ k) (nz * 2 ^ k) march) s.len la)
    (hm' : Marches3 (fileWorld k nx ny nz eta' chi' scale) (envOf s (nx * 2 ^ k) (ny * 2 ^ k) (nz * 2 ^ k) march') s.len la')
    (x y z q a : Nat) (hx : x < nx * 2 ^ k) (hy : y < ny * 2 ^ k) (hz : z < nz * 2 ^ k) (hq : q < s.cfg.c0polar) (ha : a < s.cfg.c0az) :
    radiance3 march (nx * 2 ^ k) (ny * 2 ^ k) (nz * 2 ^ k) (upperTexels3 s.cfg.branch).1 (upperTexels3 s.cfg.branch).2 s.num s.num ⟨x, y, z, q, a⟩ =
      radiance3 march' (nx * 2 ^ k) (ny * 2 ^ k) (nz * 2 ^ k) (upperTexels3 s.cfg.branch).1 (upperTexels3 s.cfg.branch).2 s.num s.num ⟨x, y, z, q, a⟩ := by
  have key : ∀ bc n p, Ray3 (envOf s (nx * 2 ^ k) (ny * 2 ^ k) (nz * 2 ^ k) march) n p →
      MarchRay3 (fileWorld k nx ny nz eta chi scale) (envOf s (nx * 2 ^ k) (ny * 2 ^ k) (nz * 2 ^ k) march) s.len la bc n p (march bc n p) →
      MarchRay3 (fileWorld k nx ny nz eta' chi' scale) (envOf s (nx * 2 ^ k) (ny * 2 ^ k) (nz * 2 ^ k) march') s.len la' bc n p (march' bc n p) →
      march bc n p = march' bc n p := by
    intro bc n p _ h1 h2
    exact marchRay3_unique _ _ _ _ _ _ _ _ _ ((marchRay_file eta' chi' la la' he hc march march' bc n p _).1 h1) h2
  refine Fs.radiance3_congr march march' _ _ _ _ _ s.num (Ray3 (envOf s (nx * 2 ^ k) (ny * 2 ^ k) (nz * 2 ^ k) march))
    (fun n p U W X i j _ hp hU hW hX hi hj => env_child march n p U W X i j hp hU hW hX hi hj) (fun n p hn hp => ?_) (fun p hp => ?_) s.num le_rfl _
    (by rw [Nat.sub_self]; exact ray_zero hf march x y z q a hx hy hz hq ha)
  · rw [key false n p hp (hm.1 n p hn hp) (hm'.1 n p hn ⟨hp.u, hp.v, hp.w, hp.az, hp.polar⟩)]; exact ⟨rfl, rfl⟩
  · rw [key true s.num p hp (hm.2 p hp) (hm'.2 p ⟨hp.u, hp.v, hp.w, hp.az, hp.polar⟩)]

theorem mean_congr3 (naz np : Nat) (I I' : ProbeIdx3 → ℝ) (u v w : Nat)
    (h : ∀ q a, q < np → a < naz → I ⟨u, v, w, q, a⟩ = I' ⟨u, v, w, q, a⟩) :
    meanIntensity3 naz np I u v w = meanIntensity3 naz np I' u v w := by
  unfold meanIntensity3
  congr 1
  exact Finset.sum_congr rfl fun q hq => Finset.sum_congr rfl fun a ha => h q a (Finset.mem_range.1 hq) (Finset.mem_range.1 ha)

theorem meanJ_in3 (naz np : Nat) (ha : 0 < naz) (hp : 0 < np) (I : ProbeIdx3 → ℝ) (u v w : Nat) {lo hi : ℝ} (hlh : lo ≤ hi)
    (hI : ∀ q a, q < np → a < naz → lo ≤ I ⟨u, v, w, q, a⟩ ∧ I ⟨u, v, w, q, a⟩ ≤ hi) :
    lo ≤ meanIntensity3 naz np I u v w ∧ meanIntensity3 naz np I u v w ≤ hi := by
  rw [mean_congr3 naz np I (fun p => if p.polar < np ∧ p.az < naz then I p else lo) u v w
    (fun q a hq ha => by rw [if_pos ⟨hq, ha⟩])]
  refine mean3_in naz np ha hp _ u v w fun q a => ?_
  by_cases h : q < np ∧ a < naz
  · simp only [h, and_self, if_true]; exact hI q a h.1 h.2
  · simp only [h, if_false]; exact ⟨le_rfl, hlh⟩

theorem solves_congr (eta' chi' : Coord3 → Int → ℝ) (he : ∀ c, InGrid k nx ny nz c → ∀ la, la < nw → eta c (la : Nat) = eta' c (la : Nat))
    (hc : ∀ c, InGrid k nx ny nz c → ∀ la, la < nw → chi c (la : Nat) = chi' c (la : Nat)) (J : Arr2 ℝ)
    (h : Solves s k nx ny nz nw eta chi scale J) : Solves s k nx ny nz nw eta' chi' scale J := by
  refine ⟨h.rows, h.cols, fun la hla => ?_⟩
  obtain ⟨march, h2, h3⟩ := h.value la hla
  refine ⟨march, ⟨fun n p hn hr => ?_, fun p hr => ?_⟩, h3⟩
  · exact (marchRay_file eta' chi' la la (fun c hc' => he c hc' _ hla) (fun c hc' => hc c hc' _ hla) march march false n p _).1 (h2.1 n p hn hr)
  · exact (marchRay_file eta' chi' la la (fun c hc' => he c hc' _ hla) (fun c hc' => hc c hc' _ hla) march march true _ p _).1 (h2.2 p hr)

/-- the data, 0 outside the file -/
noncomputable def clip (k nx ny nz nw : Nat) (f : Coord3 → Int → ℝ) : Coord3 → Int → ℝ :=
  fun c la => if InGrid k nx ny nz c ∧ 0 ≤ la ∧ la < nw then f c la else 0

theorem solves_clip (J : Arr2 ℝ) (h : Solves s k nx ny nz nw eta chi scale J) :
    Solves s k nx ny nz nw (clip k nx ny nz nw eta) (clip k nx ny nz nw chi) scale J := by
  refine solves_congr _ _ (fun c hc la hla => ?_) (fun c hc la hla => ?_) J h
  · unfold clip; rw [if_pos ⟨hc, by positivity, by exact_mod_cast hla⟩]
  · unfold clip; rw [if_pos ⟨hc, by positivity, by exact_mod_cast hla⟩]

end DexRT.Given3
