import Verif.Lemmas.RayLoop3
/-!
# C92: the ray-tracing tool as a whole, in 3D
-/
namespace DexRT.RayRun3
open DexRT DexRT.AtmosFile DexRT.Emis DexRT.Ray DexRT.RayRun DexRT.Lte3 Set

variable {t : Tool} {k nx ny nz : Nat} {a : Cond} {res : Result} {W : Type} {cv : W → ℝ} {f : NcFile Coord3 W} {out : OutFile} {c : RayCfg3}
  {vs : List View} {wl : List ℝ} {n numY numX : Nat}

theorem dim_of (sx : ℝ) (ss num : Nat) (h1 : (num : ℝ) ≤ sx * ss) (h2 : sx * ss < num + 1) (h3 : num < 2147483648) : imageDim sx ss = .ok num := by
  have h0 : 0 ≤ sx * ss := le_trans (by positivity) h1
  have hlt : sx * ss < 2147483648 := by
    have : (num : ℝ) + 1 ≤ 2147483648 := by exact_mod_cast h3
    linarith
  unfold imageDim
  rw [if_pos ⟨h0, hlt⟩]
  congr 1
  exact (Nat.floor_eq_iff h0).2 ⟨h1, h2⟩

/-- The lists of the configuration: views, up and right vectors; corners, perhaps fewer or more. -/
theorem parse_of (hne : vs ≠ []) (h1 : c.view = some (vs.map View.dir)) (h2 : c.up = some (vs.map View.up)) (h3 : c.right = some (vs.map View.right))
    (cs : List Boundary.V3) (hcs : cs ≠ []) (h4 : c.corner = some cs) (sx sy : ℝ) (h5 : c.imageSize = some [sx, sy]) :
    parse c = .ok ⟨vs.map View.dir, vs.map View.up, vs.map View.right, cs, (sx, sy)⟩ := by
  have hl : vs.length ≠ 0 := fun h => hne (List.length_eq_zero_iff.1 h)
  have hl' : cs.length ≠ 0 := fun h => hcs (List.length_eq_zero_iff.1 h)
  unfold parse
  rw [h1, h2, h3, h4, h5]
  simp only [need, Outcome.ok_bind, List.length_map]
  rw [if_neg (by tauto), if_neg (by simp [checkViews, hne])]

theorem parse_views (h : AsksViews c vs numY numX) : ∃ p, parse c = .ok p ∧ p.view.length = vs.length ∧ Asks p c.supersample numY numX vs := by
  obtain ⟨h0, h1, h2, h3, ⟨rest, h4⟩, ⟨sx, sy, h5, q1, q2, q3, q4⟩, f1, f2⟩ := h
  refine ⟨_, parse_of h0 h1 h2 h3 _ ?_ h4 sx sy h5, by simp, dim_of _ _ _ q1 q2 f1, dim_of _ _ _ q3 q4 f2, fun i hi => ?_⟩
  · intro h
    rw [List.append_eq_nil_iff] at h
    exact h0 (List.map_eq_nil_iff.1 h.1)
  · have hc : (vs.map View.corner ++ rest)[i]? = some vs[i].corner := by
      rw [List.getElem?_append_left (by simpa using hi)]
      simp [hi]
    unfold readView3 readAt
    simp only [hc, List.getElem?_map, List.getElem?_eq_getElem hi, Option.map_some, Outcome.ok_bind]

theorem wavelengths_of (h : AsksWavelengths c out wl) : wavelengths3 c out = .ok wl := by
  unfold wavelengths3
  rcases h with ⟨h1, h2⟩ | ⟨h1, v, h2, h3, h4⟩
  · rw [h1, Option.getD_some, if_neg (fun h => h2 (List.length_eq_zero_iff.1 h))]
  · have h0 : (c.wavelength.getD []).length = 0 := by rcases h1 with h | h <;> rw [h] <;> rfl
    rw [if_pos h0]
    simp only [readVar, h2, need, Outcome.ok_bind, h3, List.length_cons, List.length_nil, zero_add, if_true]
    congr 1
    refine List.ext_getElem (by simp) fun i hi hi' => ?_
    simp only [List.getElem_map, List.getElem_range]
    exact h4 i hi'

/-- The run, with the images it writes. -/
theorem run_images (hf : RayFits t k nx ny nz) (hr : RayReady t) (hd : Describes f cv (2 ^ k) nx ny nz a) (ho : OutputIs t cv f k nx ny nz a out n res)
    (hvs : AsksViews c vs numY numX) (hwl : AsksWavelengths c out wl) (hmode : c.givenFs = false ∧ c.promweaver = true)
    (hlev : totalLevels t.ad ≤ res.levels) (hwm : t.haveH = false → WarmKept t k nx ny nz a res)
    (hdir : ∀ v ∈ vs, PlainDir v.dir ∧ GoodStarts t k nx ny nz a c.supersample v)
    (o0 : StartOrder) (ho0 : StartOrders t cv f k o0) (o : Nat → ViewOrder) (hov : ∀ j < vs.length, ViewOrders t cv f k o0 numY numX (o j)) :
    ∃ r d, runRay3 t c cv f out o0 o = .ok r ∧ r.wavelength = wl ∧ IsLoaded t k nx ny nz a res d ∧
      List.Forall₂ (ImageVal t k nx ny nz a res c.supersample numY numX wl) vs r.planes := by
  obtain ⟨d, e1, hI, at', e2⟩ := load_ok hf hd ho o0 ho0
  obtain ⟨p, p0, p1, p2⟩ := parse_views hvs
  obtain ⟨ps, q1, q2⟩ := views_ok hf hr hI hlev hwm p2 wl o hdir (fun j hj => ⟨fun w => (hov j hj).cells d.bm at' w e2, (hov j hj).rays⟩) vs.length 0 none (by omega)
  refine ⟨⟨wl, ps⟩, d, ?_, rfl, hI, q2⟩
  unfold runRay3
  rw [p0, Outcome.ok_bind, wavelengths_of hwl, Outcome.ok_bind, hmode.1, hmode.2]
  simp only [Bool.false_eq_true, if_false, Bool.not_true, e1, Outcome.ok_bind, p1, List.range_eq_range', q1]

/-- **C92**: for every file, result and configuration in range, whatever the order of the kernels and whatever fresh
memory holds, a run of the tool ends without error, and for each view and wavelength asked for it writes for each pixel what
is seen along the line of sight from that pixel: through the gas with the populations and densities of the model run in the
tiles that are kept, in front of the boundary condition. -/
theorem C92_run_partial (hf : RayFits t k nx ny nz) (hr : RayReady t) (hd : Describes f cv (2 ^ k) nx ny nz a) (ho : OutputIs t cv f k nx ny nz a out n res)
    (hvs : AsksViews c vs numY numX) (hwl : AsksWavelengths c out wl) (hmode : c.givenFs = false ∧ c.promweaver = true)
    (hlev : (t.ad.atoms.map fun x => x.top + 1).sum ≤ res.levels) (hwm : t.haveH = false → WarmKept t k nx ny nz a res)
    (hdir : ∀ v ∈ vs, PlainDir v.dir ∧ GoodStarts t k nx ny nz a c.supersample v)
    (o0 : StartOrder) (ho0 : StartOrders t cv f k o0) (o : Nat → ViewOrder) (hov : ∀ j < vs.length, ViewOrders t cv f k o0 numY numX (o j)) :
    ∃ r h, runRay3 t c cv f out o0 o = .ok r ∧ r.wavelength = wl ∧ NeutralH t k nx ny nz a res h ∧
      List.Forall₂ (ImageIs t k nx ny nz a res h c.supersample numY numX wl) vs r.planes := by
  obtain ⟨r, d, e1, e2, hI, e4⟩ := run_images hf hr hd ho hvs hwl hmode hlev hwm hdir o0 ho0 o hov
  refine ⟨r, hOf t a res, e1, e2, hOf_neutral hr hwm, ?_⟩
  have key : ∀ vs' ps, (∀ v ∈ vs', v ∈ vs) → List.Forall₂ (ImageVal t k nx ny nz a res c.supersample numY numX wl) vs' ps →
      List.Forall₂ (ImageIs t k nx ny nz a res (hOf t a res) c.supersample numY numX wl) vs' ps := by
    intro vs' ps hsub h
    induction h with
    | nil => exact List.Forall₂.nil
    | cons h1 h2 ih =>
      obtain ⟨d1, d2⟩ := hdir _ (hsub _ List.mem_cons_self)
      exact List.Forall₂.cons (image_spec hf hr hI c.supersample numY numX wl _ d1 d2 _ h1) (ih fun v hv => hsub v (List.mem_cons_of_mem _ hv))
  exact key vs r.planes (fun v hv => hv) e4

/-- C92 without a threshold (every tile is kept): nothing need be known about where the rays enter the grid. -/
theorem C92_full (hcut : t.cutoff = 0) (hf : RayFits t k nx ny nz) (hr : RayReady t) (hd : Describes f cv (2 ^ k) nx ny nz a)
    (ho : OutputIs t cv f k nx ny nz a out n res) (hvs : AsksViews c vs numY numX) (hwl : AsksWavelengths c out wl)
    (hmode : c.givenFs = false ∧ c.promweaver = true) (hlev : (t.ad.atoms.map fun x => x.top + 1).sum ≤ res.levels)
    (hwm : t.haveH = false → WarmKept t k nx ny nz a res) (hdir : ∀ v ∈ vs, PlainDir v.dir)
    (o0 : StartOrder) (ho0 : StartOrders t cv f k o0) (o : Nat → ViewOrder) (hov : ∀ j < vs.length, ViewOrders t cv f k o0 numY numX (o j)) :
    ∃ r h, runRay3 t c cv f out o0 o = .ok r ∧ r.wavelength = wl ∧ NeutralH t k nx ny nz a res h ∧
      List.Forall₂ (ImageIs t k nx ny nz a res h c.supersample numY numX wl) vs r.planes :=
  C92_run_partial hf hr hd ho hvs hwl hmode hlev hwm (fun v hv => ⟨hdir v hv, fun _ _ r _ _ => full_start hcut r⟩) o0 ho0 o hov

/-- C92 (deterministic): two runs write the same file, whatever the orders of their kernels and what their memory held. -/
theorem C92_deterministic (hf : RayFits t k nx ny nz) (hr : RayReady t) (hd : Describes f cv (2 ^ k) nx ny nz a) (ho : OutputIs t cv f k nx ny nz a out n res)
    (hvs : AsksViews c vs numY numX) (hwl : AsksWavelengths c out wl) (hmode : c.givenFs = false ∧ c.promweaver = true)
    (hlev : (t.ad.atoms.map fun x => x.top + 1).sum ≤ res.levels) (hwm : t.haveH = false → WarmKept t k nx ny nz a res)
    (hdir : ∀ v ∈ vs, PlainDir v.dir ∧ GoodStarts t k nx ny nz a c.supersample v)
    (o0 o0' : StartOrder) (ho0 : StartOrders t cv f k o0) (ho0' : StartOrders t cv f k o0') (o o' : Nat → ViewOrder)
    (hov : ∀ j < vs.length, ViewOrders t cv f k o0 numY numX (o j)) (hov' : ∀ j < vs.length, ViewOrders t cv f k o0' numY numX (o' j)) :
    ∃ r r', runRay3 t c cv f out o0 o = .ok r ∧ runRay3 t c cv f out o0' o' = .ok r' ∧ r.wavelength = r'.wavelength ∧
      List.Forall₂ (fun p p' => p.waves = p'.waves ∧ p.ny = p'.ny ∧ p.nx = p'.nx ∧
        ∀ w < p.waves, ∀ y < p.ny, ∀ x < p.nx, p.get w y x = p'.get w y x) r.planes r'.planes := by
  obtain ⟨r, d, e1, e2, -, e4⟩ := run_images hf hr hd ho hvs hwl hmode hlev hwm hdir o0 ho0 o hov
  obtain ⟨r', d', f1, f2, -, f4⟩ := run_images hf hr hd ho hvs hwl hmode hlev hwm hdir o0' ho0' o' hov'
  refine ⟨r, r', e1, f1, by rw [e2, f2], ?_⟩
  have key : ∀ vs ps ps', List.Forall₂ (ImageVal t k nx ny nz a res c.supersample numY numX wl) vs ps →
      List.Forall₂ (ImageVal t k nx ny nz a res c.supersample numY numX wl) vs ps' →
      List.Forall₂ (fun p p' => p.waves = p'.waves ∧ p.ny = p'.ny ∧ p.nx = p'.nx ∧
        ∀ w < p.waves, ∀ y < p.ny, ∀ x < p.nx, p.get w y x = p'.get w y x) ps ps' := by
    intro vs ps ps' h h'
    induction h generalizing ps' with
    | nil => cases h'; exact List.Forall₂.nil
    | cons h1 h2 ih =>
      cases h' with
      | cons g1 g2 =>
        refine List.Forall₂.cons ⟨by rw [h1.rows, g1.rows], by rw [h1.height, g1.height], by rw [h1.width, g1.width], fun w hw y hy x hx => ?_⟩ (ih _ g2)
        rw [h1.rows] at hw
        rw [h1.height] at hy
        rw [h1.width] at hx
        rw [h1.value w hw y hy x hx, g1.value w hw y hy x hx]
  exact key vs _ _ e4 f4

/-- C92 (physics): with every tile kept, for a ray that passes through no corner of a cell and crosses no face in its first
2e-6, what is seen is the solution of the transfer equation: `I` along the ray (`x` counted from where it enters the grid,
away from the observer; the light comes the other way), equal to the background where the ray leaves the grid, has at the
entry the intensity that is written; and the optical depth written is that of the whole path. -/
theorem C92_exact (hcut : t.cutoff = 0) (ss : Nat) (v : View) (hv : PlainDir v.dir) (yi xi : Nat) (scale : ℝ)
    (gas : Coord3 → EO) (hchi : ∀ c, 0 ≤ (gas c).chi) (bI : ℝ) (x : ℝ × ℝ)
    (hsee : RaySees (rayEnv t k nx ny nz a) (pixelRay ss v yi xi) scale gas bI x)
    (r : DdaRay .three) (s : Dda .three) (hs : ddaStart (rayEnv t k nx ny nz a) (pixelRay ss v yi xi) = some (r, s))
    (hface : ∀ y, 0 ≤ y → y ≤ 2e-6 → ∀ i, r.d i ≠ 0 → ¬ OnFace r 1 y i)
    (hcorner : ∀ y, 0 ≤ y → y ≤ r.t1 → ∀ i j, r.d i ≠ 0 → r.d j ≠ 0 → OnFace r 1 y i → OnFace r 1 y j → i = j)
    (I τ : ℝ → ℝ) (hIT : I r.t1 = bI) (hτ0 : τ 0 = 0) (hIc : ContinuousOn I (Icc 0 r.t1)) (hτc : ContinuousOn τ (Icc 0 r.t1))
    (hI : ∀ y ∈ Ioo 0 r.t1, (∀ i, r.d i ≠ 0 → ¬ OnFace r 1 y i) →
      HasDerivAt I (-(scale * ((gas ⟨⌊r.pt y 0⌋, ⌊r.pt y 1⌋, ⌊r.pt y 2⌋⟩).eta - ((gas ⟨⌊r.pt y 0⌋, ⌊r.pt y 1⌋, ⌊r.pt y 2⌋⟩).chi + 1e-20) * I y))) y ∧
      HasDerivAt τ (scale * ((gas ⟨⌊r.pt y 0⌋, ⌊r.pt y 1⌋, ⌊r.pt y 2⌋⟩).chi + 1e-20)) y) :
    x = (I 0, τ r.t1) := by
  have hb : 1 ≤ (rayEnv t k nx ny nz a).block := env_block
  have hs' : ddaStart (geoArgs (rayEnv t k nx ny nz a) (pixelRay ss v yi xi)).env
      (geoArgs (rayEnv t k nx ny nz a) (pixelRay ss v yi xi)).seg = some (r, s) := hs
  obtain ⟨hi, hlen, -, -, hd, hins, -⟩ := started _ hb (seg_good (rayEnv t k nx ny nz a) ss v hv yi xi) r s hs'
  have hins : ∀ τ, 0 ≤ τ → τ ≤ r.t1 → ∀ i, 1e-4 ≤ r.pt τ i ∧ r.pt τ i ≤ ((rayEnv t k nx ny nz a).max i : ℝ) - 1e-4 := hins
  have ht1 := path_short ss v hv yi xi r s hs
  have hin : ∀ τ, 0 ≤ τ → τ ≤ r.t1 → ∀ i, 0 < r.pt τ i ∧ r.pt τ i < (rayEnv t k nx ny nz a).max i := fun τ p q i => by
    obtain ⟨y, z⟩ := hins τ p q i
    norm_num at y z
    constructor <;> linarith
  have hlvl : ∀ c, (rayEnv t k nx ny nz a).inBounds c → (rayEnv t k nx ny nz a).sampleLevel c = 0 := by
    intro c h
    have hk : Kept3 t k nx ny nz a ⟨c 0, c 1, c 2⟩ := by
      obtain ⟨a1, a2⟩ := h 0
      obtain ⟨b1, b2⟩ := h 1
      obtain ⟨c1, c2⟩ := h 2
      exact ⟨⟨a1, a2, b1, b2, c1, c2⟩, Or.inl hcut⟩
    have : (rayEnv t k nx ny nz a).lvl c = 0 := if_pos hk
    unfold DdaEnv.sampleLevel
    rw [this]
    rfl
  obtain ⟨s1, hs1, hst, hflat⟩ := flat_start (m := 0) hb le_rfl hlvl ht1 hlen (fun i => by
    have := hins 0 le_rfl (by norm_num at hlen; linarith) i
    simpa [DdaRay.pt] using this) hd hface
  have hi' : ddaInit (rayEnv t k nx ny nz a) r = some s := hi
  rw [hi'] at hs1
  obtain rfl := Option.some.inj hs1
  have hgood : GoodStart (rayEnv t k nx ny nz a) r := full_start hcut r
  unfold RaySees at hsee
  rw [hs] at hsee
  obtain ⟨N, l, hl, rfl⟩ := hsee
  obtain ⟨hvl, last, hl1, hl2⟩ := visitsEnd_some _ r N s l hl
  have hall := visits_flat hb le_rfl hlvl ht1 hin (sz := 2 ^ (0 : ℤ).toNat) (by simpa using hcorner) N s hflat
  obtain ⟨hch, hlev, hcov⟩ := C39_uniform _ r s hb ht1 hin 0 le_rfl hlvl hi' N
  have hbd := visits_bound _ r hb N s (goodStart_inv _ r s hb hgood hi')
  have hfil : l.filter (fun v => decide (0 ≤ v.mip)) = l := by
    rw [List.filter_eq_self]
    intro v hv
    rw [← hvl] at hv
    simp [(hlev v hv).1]
  rw [hfil]
  obtain ⟨l', hl'⟩ := visits_head (rayEnv t k nx ny nz a) r N s
  have hr0 : 0 ≤ r.t1 := by norm_num at hlen; linarith
  have hcovT := hcov last (by rw [hvl]; exact hl1) hl2 r.t1 (by rw [hst]; exact hr0) le_rfl
  have hsol := stack_solves scale gas hchi I τ r.t1 s l' (by rw [← hl']; exact hch) (by rw [← hl']; exact hbd) (by rw [hst]; exact hr0)
    (by rw [← hl']; obtain ⟨v, hv, -, q⟩ := hcovT; exact ⟨v, hv, q⟩) (by rw [hst]; exact hIc) (by rw [hst]; exact hτc) (by
      rw [← hl']
      intro v hv y hy
      have hfv := hall v hv
      have hcell := hfv.cell y hy
      have hc : ∀ j, v.coord j = ⌊r.pt y j⌋ := fun j => by
        have := congrFun hcell j
        rw [this]
        unfold maskCoord
        simp
      have hb' := hbd v hv
      have hv0 := hfv.inv.t0
      have hx1 : y < r.t1 := by
        rcases le_total v.t r.t1 with hle | hle
        · rw [max_eq_right hle] at hb'; linarith [hy.2, hb'.2]
        · rw [max_eq_left hle] at hb'; exfalso; linarith [hy.1, hy.2, hb'.2]
      obtain ⟨g1, g2⟩ := hI y ⟨by linarith [hy.1], hx1⟩ (fun j h0 => by
        have := hfv.noFace y hy j h0
        simpa using this)
      rw [hc 0, hc 1, hc 2]
      refine ⟨?_, g2⟩
      unfold SolvesAt
      rw [neg_mul]
      exact g1)
  rw [← hvl, hl', ← hIT, hsol.1, hsol.2, hst, hτ0, sub_zero]

/-- C92 (bounds): with non-negative opacities, what is seen is between bounds that hold for the background and for the
source function of every cell that is kept, and the optical depth is not negative. -/
theorem C92_bounds (seg : RaySeg 3) (scale lo hi bI : ℝ) (gas : Coord3 → EO) (hs : 0 ≤ scale) (h1 : lo ≤ bI) (h2 : bI ≤ hi)
    (hg : ∀ c, Kept3 t k nx ny nz a c → 0 ≤ (gas c).chi ∧ lo * ((gas c).chi + 1e-20) ≤ (gas c).eta ∧ (gas c).eta ≤ hi * ((gas c).chi + 1e-20))
    (x : ℝ × ℝ) (hsee : RaySees (rayEnv t k nx ny nz a) seg scale gas bI x) : lo ≤ x.1 ∧ x.1 ≤ hi ∧ 0 ≤ x.2 := by
  unfold RaySees at hsee
  cases hst : ddaStart (rayEnv t k nx ny nz a) seg with
  | none => rw [hst] at hsee; subst hsee; exact ⟨h1, h2, le_rfl⟩
  | some p =>
    obtain ⟨r, s⟩ := p
    rw [hst] at hsee
    obtain ⟨N, l, hl, rfl⟩ := hsee
    obtain ⟨c, b, -, -, hi'⟩ := ddaStart_some _ _ r s hst
    have hnn := C39_nonneg _ r s hi' N
    rw [(visitsEnd_some _ r N s l hl).1] at hnn
    have hslab : ∀ q ∈ (l.filter fun v => decide (0 ≤ v.mip)).map (slabOf scale gas), 0 ≤ q.tau ∧ lo ≤ q.S ∧ q.S ≤ hi := by
      intro q hq
      obtain ⟨v, hv, rfl⟩ := List.mem_map.1 hq
      obtain ⟨v1, v2⟩ := List.mem_filter.1 hv
      have v2' : 0 ≤ v.mip := by simpa using v2
      have hk : Kept3 t k nx ny nz a ⟨v.coord 0, v.coord 1, v.coord 2⟩ := by
        have hlv := (C39_level _ r s env_blk hi' N v (by rw [(visitsEnd_some _ r N s l hl).1]; exact v1)).1
        by_contra hno
        have h5 : (rayEnv t k nx ny nz a).lvl v.coord = -1 := if_neg hno
        rw [h5] at hlv
        have := min_le_left (-1 : ℤ) (rayEnv t k nx ny nz a).maxMip
        omega
      obtain ⟨g1, g2, g3⟩ := hg _ hk
      have hp : 0 < (gas ⟨v.coord 0, v.coord 1, v.coord 2⟩).chi + 1e-20 := by norm_num at g1 ⊢; linarith
      refine ⟨mul_nonneg (mul_nonneg hp.le (hnn v v1)) hs, ?_, ?_⟩
      · exact (le_div_iff₀ hp).2 g2
      · exact (div_le_iff₀ hp).2 g3
    obtain ⟨b1, b2⟩ := emergent_between _ bI lo hi h1 h2 hslab
    refine ⟨b1, b2, ?_⟩
    show 0 ≤ thickness _
    unfold thickness
    refine List.sum_nonneg fun y hy => ?_
    obtain ⟨q, hq, rfl⟩ := List.mem_map.1 hy
    exact (hslab q hq).1

/-- C92 (what is rejected): a configuration without one of the five keys of the views, with an empty list of vectors, with lists
of views, up and right vectors of different lengths, or with an image size that is not two numbers; one without wavelengths
if the output has none; one for a model run that had given emissivities or another boundary condition. -/
theorem C92_rejects (o0 : StartOrder) (o : Nat → ViewOrder) :
    ((c.view = none ∨ c.up = none ∨ c.right = none ∨ c.corner = none ∨ c.imageSize = none ∨
        c.view = some [] ∨ c.up = some [] ∨ c.right = some [] ∨ c.corner = some [] ∨
        (∃ v u, c.view = some v ∧ c.up = some u ∧ v.length ≠ u.length) ∨ (∃ v u, c.view = some v ∧ c.right = some u ∧ v.length ≠ u.length) ∨
        (∃ s, c.imageSize = some s ∧ s.length ≠ 2)) → runRay3 t c cv f out o0 o = .throws) ∧
    (AsksViews c vs numY numX → (c.wavelength = none ∨ c.wavelength = some []) → out.var "wavelength" = none →
      runRay3 t c cv f out o0 o = .throws) ∧
    (AsksViews c vs numY numX → AsksWavelengths c out wl → (c.givenFs = true ∨ c.promweaver = false) →
      runRay3 t c cv f out o0 o = .throws) := by
  refine ⟨fun h => ?_, fun h1 h2 h3 => ?_, fun h1 h2 h3 => ?_⟩
  · have : parse c = .throws := by
      unfold parse
      cases hv : c.view with
      | none => rfl
      | some v =>
      cases hu : c.up with
      | none => rfl
      | some u =>
      cases hr : c.right with
      | none => rfl
      | some r =>
      cases hc : c.corner with
      | none => rfl
      | some cs =>
      cases hs : c.imageSize with
      | none => rfl
      | some s =>
      simp only [need, Outcome.ok_bind]
      by_cases h0 : v.length = 0 ∨ u.length = 0 ∨ r.length = 0 ∨ cs.length = 0
      · rw [if_pos h0]
      rw [if_neg h0]
      by_cases h1 : checkViews v.length u.length r.length = true
      swap
      · rw [if_pos (by simpa using h1)]
      rw [if_neg (by simpa using h1)]
      have hne : v.length = u.length ∧ u.length = r.length := by
        unfold checkViews at h1
        simp at h1
        tauto
      rw [hv, hu, hr, hc, hs] at h
      simp only [Option.some.injEq, reduceCtorEq, false_or, exists_eq_left', exists_and_left] at h
      have hlen : s.length ≠ 2 := by
        rcases h with h | h | h | h | h | h | h
        · exact absurd (Or.inl (by rw [h]; rfl)) h0
        · exact absurd (Or.inr (Or.inl (by rw [h]; rfl))) h0
        · exact absurd (Or.inr (Or.inr (Or.inl (by rw [h]; rfl)))) h0
        · exact absurd (Or.inr (Or.inr (Or.inr (by rw [h]; rfl)))) h0
        · exact absurd hne.1 h
        · exact absurd (hne.1.trans hne.2) h
        · exact h
      match s, hlen with
      | [], _ => rfl
      | [_], _ => rfl
      | [_, _], h => exact absurd rfl h
      | _ :: _ :: _ :: _, _ => rfl
    unfold runRay3
    rw [this]; rfl
  · have : wavelengths3 c out = .throws := by
      unfold wavelengths3
      have h0 : (c.wavelength.getD []).length = 0 := by rcases h2 with h | h <;> rw [h] <;> rfl
      rw [if_pos h0]
      simp only [readVar, h3, need]
      rfl
    obtain ⟨p, p0, -⟩ := parse_views h1
    unfold runRay3
    rw [p0, Outcome.ok_bind, this]; rfl
  · obtain ⟨p, p0, -⟩ := parse_views h1
    unfold runRay3
    rw [p0, Outcome.ok_bind, wavelengths_of h2, Outcome.ok_bind]
    rcases h3 with h3 | h3
    · rw [h3, if_pos rfl]
    · by_cases hg : c.givenFs = true
      · rw [if_pos hg]
      · rw [if_neg hg, h3]; rfl

/-- C92, refuted part: an output of another model run, with fewer levels than the atoms of the configuration need, is not
rejected: the tool reads past the end of the populations. -/
theorem C92_refuted_levels (hf : RayFits t k nx ny nz) (hd : Describes f cv (2 ^ k) nx ny nz a) (ho : OutputIs t cv f k nx ny nz a out n res)
    (hvs : AsksViews c vs numY numX) (hwl : AsksWavelengths c out wl) (hne : wl ≠ []) (hmode : c.givenFs = false ∧ c.promweaver = true)
    (hlev : res.levels < (t.ad.atoms.map fun x => x.top + 1).sum) (hcell : ∃ p, Kept3 t k nx ny nz a p)
    (o0 : StartOrder) (ho0 : StartOrders t cv f k o0) (o : Nat → ViewOrder) (hov : ∀ j < vs.length, ViewOrders t cv f k o0 numY numX (o j)) :
    runRay3 t c cv f out o0 o = .ub := by
  obtain ⟨d, e1, hI, at', e2⟩ := load_ok hf hd ho o0 ho0
  have H := iterSpace3 k nx ny nz _ d.bm hf.axes.1 hf.axes.2.1 hf.axes.2.2 hI.map
  have hvl : 0 < vs.length := List.length_pos_of_ne_nil hvs.some'
  have hperm := (hov 0 hvl).cells d.bm at' 0 e2
  have hub : ∀ (val : Nat → Outcome EO), (∀ n, val n = .ub) → cells3 (2 ^ k) d.bm val ((o 0).cells 0) (o 0).oldEO = .ub := by
    intro val hval
    obtain ⟨p, hp⟩ := hcell
    obtain ⟨q, hq, -⟩ := H.ontoC p ((kept_iff _ _ _ _ _ _ _).1 hp)
    cases hc : (o 0).cells 0 with
    | nil =>
      have := hperm.mem_iff.2 hq
      rw [hc] at this
      simp at this
    | cons p0 rest =>
      have hm : p0 ∈ loopIters (2 ^ k * 2 ^ k * 2 ^ k) d.bm := hperm.mem_iff.1 (by rw [hc]; exact List.mem_cons_self)
      obtain ⟨c', c1, c2, c3⟩ := H.co p0 hm
      obtain ⟨r1, r2⟩ := H.rng p0 hm
      unfold cells3 writeLoop
      simp only [c1, Outcome.ok_bind]
      rw [if_neg (not_not.2 ⟨r1, r2⟩), hval]
      rfl
  obtain ⟨p, p0, p1, p2⟩ := parse_views hvs
  have hwv : waveStep t d c.supersample wl vs[0] (o 0) ((o 0).oldEO, allocate wl.length numY numX (o 0).fresh none) 0 = .ub := by
    unfold waveStep
    have h0 : 0 < wl.length := List.length_pos_of_ne_nil hne
    have hrd : readAt wl 0 = .ok wl[0] := by unfold readAt; simp [h0]
    rw [hrd, Outcome.ok_bind, hf.block, hub]
    · rfl
    · intro n
      unfold cellVal
      rw [if_pos]
      left
      rw [hI.rows]
      exact hlev
  unfold runRay3
  rw [p0, Outcome.ok_bind, wavelengths_of hwl, Outcome.ok_bind, hmode.1, hmode.2]
  simp only [Bool.false_eq_true, if_false, Bool.not_true, e1, Outcome.ok_bind, p1]
  obtain ⟨m, hm⟩ : ∃ m, vs.length = m + 1 := ⟨vs.length - 1, by omega⟩
  rw [hm, List.range_succ_eq_map]
  unfold viewLoop viewStep
  obtain ⟨n, hn⟩ : ∃ n, wl.length = n + 1 := ⟨wl.length - 1, by have := List.length_pos_of_ne_nil hne; omega⟩
  have hrange : List.range wl.length = 0 :: (List.range n).map Nat.succ := by rw [hn, List.range_succ_eq_map]
  rw [hrange]
  simp only [p2.dimX, p2.dimY, p2.read 0 hvl, Outcome.ok_bind, List.foldlM_cons, hwv]
  rfl

/-- C92, refuted part: the tool takes the output to be in sparse form. An output in the default, dense form, with `pops` by
level, z, y and x (or with a density by z, y and x), is never read: the tool stops with an error. -/
theorem C92_refuted_dense (hf : RayFits t k nx ny nz) (hd : Describes f cv (2 ^ k) nx ny nz a)
    (hpops : ∀ v, out.var "pops" = some v → v.dims.length = 4) (hne : ∀ v, out.var "ne" = some v → v.dims.length = 3)
    (hnh : ∀ v, out.var "nh_tot" = some v → v.dims.length = 3)
    (hvs : AsksViews c vs numY numX) (hwl : AsksWavelengths c out wl)
    (o0 : StartOrder) (ho0 : StartOrders t cv f k o0) (o : Nat → ViewOrder) : runRay3 t c cv f out o0 o = .throws := by
  obtain ⟨p, p0, -⟩ := parse_views hvs
  by_cases hmode : c.givenFs = false ∧ c.promweaver = true
  swap
  · refine (C92_rejects o0 o).2.2 hvs hwl ?_
    cases h1 : c.givenFs
    · cases h2 : c.promweaver
      · exact Or.inr rfl
      · exact absurd ⟨h1, h2⟩ hmode
    · exact Or.inl rfl
  obtain ⟨bm, s, hl, hm, -⟩ := load_cells hf hd o0.load ho0.load o0.junk
  obtain ⟨lk, lk', off, c1, c2, c3, c4, c5⟩ := configure_ok hf bm hm o0.tiles (ho0.rest bm s hl)
  have hread : ∀ name rank, (∀ v, out.var name = some v → v.dims.length ≠ rank) → readVar out name rank = .throws := by
    intro name rank h
    unfold readVar
    cases hv : out.var name with
    | none => rfl
    | some v =>
      simp only [need, Outcome.ok_bind]
      rw [if_neg (h v hv)]
  have hup : ∀ name old, (∀ v, out.var name = some v → v.dims.length = 3) → updateField3 (2 ^ k) bm out name old = .throws ∨
      updateField3 (2 ^ k) bm out name old = .ok old := by
    intro name old h
    unfold updateField3
    cases hv : out.var name with
    | none => exact Or.inr rfl
    | some v =>
      left
      simp only
      rw [hread name 1 (fun v hv => by rw [h v hv]; norm_num)]
      rfl
  have hlp : loadPops3 out = .throws := by
    unfold loadPops3
    rw [hread "pops" 2 (fun v hv => by rw [hpops v hv]; norm_num)]
    rfl
  have hload : load t cv f out o0 = .throws := by
    unfold load
    rw [hf.block]
    simp only [hl, c1, c2, c4, Outcome.ok_bind]
    rcases hup "ne" s.ne hne with h | h <;> rw [h]
    · rfl
    rw [Outcome.ok_bind]
    rcases hup "nh_tot" s.nhTot hnh with h | h <;> rw [h]
    · rfl
    rw [Outcome.ok_bind, hlp]
    rfl
  unfold runRay3
  rw [p0, Outcome.ok_bind, wavelengths_of hwl, Outcome.ok_bind, hmode.1, hmode.2]
  simp only [Bool.false_eq_true, if_false, Bool.not_true, hload]
  rfl

theorem loop_ub {d : Loaded} {p : Parsed} {ss : Nat} {o : Nat → ViewOrder} (bad : Nat) (hok : ∀ i s, i < bad → ∃ q, viewStep t d p ss wl i (o i) s = .ok q)
    (hbad : ∀ s, viewStep t d p ss wl bad (o bad) s = .ub) (m : Nat) : ∀ n i s, i + n = bad → viewLoop t d p ss wl o (List.range' i (n + 1 + m)) s = .ub
  | 0, i, s, h => by
    obtain rfl : i = bad := h
    rw [show 0 + 1 + m = m + 1 by omega, List.range'_succ]
    unfold viewLoop
    rw [hbad]; rfl
  | n + 1, i, s, h => by
    obtain ⟨q, e⟩ := hok i s (by omega)
    rw [show n + 1 + 1 + m = (n + 1 + m) + 1 by omega, List.range'_succ]
    unfold viewLoop
    rw [e, Outcome.ok_bind, loop_ub bad hok hbad m n (i + 1) (some q) (by omega)]
    rfl

/-- C92, refuted part: with fewer image corners than views the tool does not stop with an error: after the views that have one
it reads past the end of the list. -/
theorem C92_refuted_corner (hf : RayFits t k nx ny nz) (hr : RayReady t) (hd : Describes f cv (2 ^ k) nx ny nz a) (ho : OutputIs t cv f k nx ny nz a out n res)
    (hne : vs ≠ []) (h1 : c.view = some (vs.map View.dir)) (h2 : c.up = some (vs.map View.up)) (h3 : c.right = some (vs.map View.right))
    (m : Nat) (hm : 0 < m ∧ m < vs.length) (h4 : c.corner = some ((vs.take m).map View.corner)) (sx sy : ℝ) (h5 : c.imageSize = some [sx, sy])
    (hX : (numX : ℝ) ≤ sx * c.supersample ∧ sx * c.supersample < numX + 1) (hY : (numY : ℝ) ≤ sy * c.supersample ∧ sy * c.supersample < numY + 1)
    (hfit : numX < 2147483648 ∧ numY < 2147483648)
    (hwl : AsksWavelengths c out wl) (hmode : c.givenFs = false ∧ c.promweaver = true)
    (hlev : (t.ad.atoms.map fun x => x.top + 1).sum ≤ res.levels) (hwm : t.haveH = false → WarmKept t k nx ny nz a res)
    (hdir : ∀ v ∈ vs, PlainDir v.dir ∧ GoodStarts t k nx ny nz a c.supersample v)
    (o0 : StartOrder) (ho0 : StartOrders t cv f k o0) (o : Nat → ViewOrder) (hov : ∀ j < vs.length, ViewOrders t cv f k o0 numY numX (o j)) :
    runRay3 t c cv f out o0 o = .ub := by
  obtain ⟨d, e1, hI, at', e2⟩ := load_ok hf hd ho o0 ho0
  have hlen : (vs.take m).length = m := by rw [List.length_take]; omega
  have hp := parse_of hne h1 h2 h3 ((vs.take m).map View.corner) (fun h => by
    have := congrArg List.length h
    rw [List.length_map, hlen] at this
    simp at this; omega) h4 sx sy h5
  have hA : Asks ⟨vs.map View.dir, vs.map View.up, vs.map View.right, (vs.take m).map View.corner, (sx, sy)⟩ c.supersample numY numX (vs.take m) := by
    refine ⟨dim_of _ _ _ hX.1 hX.2 hfit.1, dim_of _ _ _ hY.1 hY.2 hfit.2, fun i hi => ?_⟩
    rw [hlen] at hi
    have hi' : i < vs.length := by omega
    unfold readView3 readAt
    simp [hi, hi']
  have hloop := loop_ub (t := t) (d := d) (p := ⟨vs.map View.dir, vs.map View.up, vs.map View.right, (vs.take m).map View.corner, (sx, sy)⟩) (ss := c.supersample)
    (wl := wl) (o := o) m (fun i s hi => by
      have hi' : i < vs.length := by omega
      obtain ⟨q1, q2⟩ := hdir vs[i] (List.getElem_mem hi')
      obtain ⟨q, e, -⟩ := view_ok hf hr hI hlev hwm hA wl i (by omega) (by rw [List.getElem_take]; exact q1) (by rw [List.getElem_take]; exact q2) (o i)
        (fun w => (hov i hi').cells d.bm at' w e2) (hov i hi').rays s
      exact ⟨q, e⟩) (fun s => by
      unfold viewStep
      rw [hA.dimX, Outcome.ok_bind, hA.dimY, Outcome.ok_bind]
      have : readView3 ⟨vs.map View.dir, vs.map View.up, vs.map View.right, (vs.take m).map View.corner, (sx, sy)⟩ m = .ub := by
        unfold readView3 readAt
        simp only
        rw [List.getElem?_eq_none (by rw [List.length_map]; omega)]
        rfl
      rw [this]; rfl) (vs.length - m - 1) m 0 none (by omega)
  unfold runRay3
  rw [hp, Outcome.ok_bind, wavelengths_of hwl, Outcome.ok_bind, hmode.1, hmode.2]
  simp only [Bool.false_eq_true, if_false, Bool.not_true, e1, Outcome.ok_bind, List.length_map, List.range_eq_range']
  rw [show vs.length = m + 1 + (vs.length - m - 1) by omega, hloop]
  rfl

end DexRT.RayRun3
