import Verif.Lemmas.RayExact
/-!
# C87: the ray-tracing tool as a whole, in 2D
-/
namespace DexRT.RayRun
open DexRT DexRT.AtmosFile DexRT.Emis DexRT.Ray DexRT.LteRun Set

variable {t : Tool} {k nx nz : Nat} {a : Cond} {res : Result} {W : Type} {cv : W → ℝ} {f : NcFile Coord2 W} {out : OutFile} {c : RayCfg}
  {vs : List (Num × Num)} {wl : List ℝ}

theorem views_of (h : AsksViews c vs) : views c = .ok vs := by
  obtain ⟨mx, mz, h1, h2, h3, h4, rfl⟩ := h
  unfold views
  rw [h1, h2]
  simp only [need, Outcome.ok_bind]
  rw [if_neg]
  rintro (h | h)
  · exact h h3.symm
  · exact h4 (List.length_eq_zero_iff.1 h)

theorem wavelengths_of (h : AsksWavelengths c out wl) : wavelengths c out = .ok wl := by
  unfold wavelengths
  rcases h with ⟨h1, h2⟩ | ⟨h1, v, h2, h3, h4⟩
  · rw [h1, Option.getD_some, if_neg (fun h => h2 (List.length_eq_zero_iff.1 h))]
  · have h0 : (c.wavelength.getD []).length = 0 := by rcases h1 with h | h <;> rw [h] <;> rfl
    rw [if_pos h0]
    simp only [readVar, h2, need, Outcome.ok_bind, h3, List.length_cons, List.length_nil, zero_add, if_true]
    congr 1
    refine List.ext_getElem (by simp) fun i hi hi' => ?_
    simp only [List.getElem_map, List.getElem_range]
    exact h4 i hi'

/-- The run, with the planes it writes. -/
theorem run_planes (hf : RayFits t k nx nz) (hr : RayReady t) (hd : Describes f cv (2 ^ k) nx nz a) (ho : OutputIs t cv f k nx nz a out res)
    (hvs : AsksViews c vs) (hwl : AsksWavelengths c out wl) (hmode : c.givenFs = false ∧ c.promweaver = true)
    (hlev : totalLevels t.ad ≤ res.levels) (hwm : t.haveH = false → WarmKept t k nx nz a res)
    (hdir : ∀ v ∈ vs, (v.1.v ≠ 0 ∨ v.2.v ≠ 0) ∧ GoodStarts t k nx nz a c.rotate v)
    (o0 : StartOrder) (ho0 : StartOrders t cv f k o0) (oldEO : Int → EO) (o : Nat → ViewOrder)
    (hov : ∀ j (h : j < vs.length), ViewOrders t cv f k o0 (raysOf c.rotate (nx * 2 ^ k) (nz * 2 ^ k) vs[j]) (o j)) :
    ∃ r d, runRay2 t c cv f out o0 oldEO o = .ok r ∧ r.wavelength = wl ∧ r.mu = vs.map (fun v => reportedMu v.1.v v.2.v) ∧
      IsLoaded t k nx nz a res d ∧ List.Forall₂ (PlaneVal t k nx nz a res c.rotate wl) vs r.planes := by
  obtain ⟨d, e1, hI, at', e2⟩ := load_ok hf hd ho o0 ho0
  obtain ⟨ps, p1, p2⟩ := views_ok hf hr hI hlev hwm c.rotate wl o vs 0 ⟨oldEO, none⟩ hdir (fun j hj => by
    rw [zero_add]
    exact ⟨fun w => (hov j hj).cells d.bm at' w e2, (hov j hj).rays⟩)
  refine ⟨⟨wl, vs.map fun v => reportedMu v.1.v v.2.v, ps⟩, d, ?_, rfl, rfl, hI, p2⟩
  unfold runRay2
  rw [views_of hvs, Outcome.ok_bind, wavelengths_of hwl, Outcome.ok_bind, hmode.1, hmode.2]
  simp only [Bool.false_eq_true, if_false, Bool.not_true, e1, Outcome.ok_bind, p1]

/-- **C87**: for every file, result and configuration in range, whatever the order of the kernels and whatever fresh
memory holds, a run of the tool ends without error, and for each view and wavelength asked for it writes for each ray what
is seen along that ray: through the gas with the populations and densities of the model run in the tiles that are kept,
in front of the boundary condition. -/
theorem C87_run_partial (hf : RayFits t k nx nz) (hr : RayReady t) (hd : Describes f cv (2 ^ k) nx nz a) (ho : OutputIs t cv f k nx nz a out res)
    (hvs : AsksViews c vs) (hwl : AsksWavelengths c out wl) (hmode : c.givenFs = false ∧ c.promweaver = true)
    (hlev : (t.ad.atoms.map fun x => x.top + 1).sum ≤ res.levels) (hwm : t.haveH = false → WarmKept t k nx nz a res)
    (hdir : ∀ v ∈ vs, (v.1.v ≠ 0 ∨ v.2.v ≠ 0) ∧ GoodStarts t k nx nz a c.rotate v)
    (o0 : StartOrder) (ho0 : StartOrders t cv f k o0) (oldEO : Int → EO) (o : Nat → ViewOrder)
    (hov : ∀ j (h : j < vs.length), ViewOrders t cv f k o0 (raysOf c.rotate (nx * 2 ^ k) (nz * 2 ^ k) vs[j]) (o j)) :
    ∃ r h, runRay2 t c cv f out o0 oldEO o = .ok r ∧ r.wavelength = wl ∧
      r.mu = vs.map (fun v => ⟨v.1.v, Real.sqrt (max 0 (1 - v.1.v ^ 2 - v.2.v ^ 2)), v.2.v⟩) ∧
      NeutralH t k nx nz a res h ∧ List.Forall₂ (PlaneIs t k nx nz a res h c.rotate wl) vs r.planes := by
  obtain ⟨r, d, e1, e2, e3, hI, e4⟩ := run_planes hf hr hd ho hvs hwl hmode hlev hwm hdir o0 ho0 oldEO o hov
  refine ⟨r, hOf t a res, e1, e2, e3, hOf_neutral hr hwm, ?_⟩
  have key : ∀ vs' ps, (∀ v ∈ vs', v ∈ vs) → List.Forall₂ (PlaneVal t k nx nz a res c.rotate wl) vs' ps →
      List.Forall₂ (PlaneIs t k nx nz a res (hOf t a res) c.rotate wl) vs' ps := by
    intro vs' ps hsub h
    induction h with
    | nil => exact List.Forall₂.nil
    | cons h1 h2 ih =>
      obtain ⟨d1, d2⟩ := hdir _ (hsub _ List.mem_cons_self)
      exact List.Forall₂.cons (plane_spec hf hr hI c.rotate wl _ d1 d2 _ h1) (ih fun v hv => hsub v (List.mem_cons_of_mem _ hv))
  exact key vs r.planes (fun v hv => hv) e4

/-- C87 without a threshold (every tile is kept): nothing need be known about where the rays enter the grid. -/
theorem C87_full (hcut : t.cutoff = 0) (hf : RayFits t k nx nz) (hr : RayReady t) (hd : Describes f cv (2 ^ k) nx nz a)
    (ho : OutputIs t cv f k nx nz a out res) (hvs : AsksViews c vs) (hwl : AsksWavelengths c out wl)
    (hmode : c.givenFs = false ∧ c.promweaver = true) (hlev : (t.ad.atoms.map fun x => x.top + 1).sum ≤ res.levels)
    (hwm : t.haveH = false → WarmKept t k nx nz a res) (hdir : ∀ v ∈ vs, v.1.v ≠ 0 ∨ v.2.v ≠ 0)
    (o0 : StartOrder) (ho0 : StartOrders t cv f k o0) (oldEO : Int → EO) (o : Nat → ViewOrder)
    (hov : ∀ j (h : j < vs.length), ViewOrders t cv f k o0 (raysOf c.rotate (nx * 2 ^ k) (nz * 2 ^ k) vs[j]) (o j)) :
    ∃ r h, runRay2 t c cv f out o0 oldEO o = .ok r ∧ r.wavelength = wl ∧
      r.mu = vs.map (fun v => ⟨v.1.v, Real.sqrt (max 0 (1 - v.1.v ^ 2 - v.2.v ^ 2)), v.2.v⟩) ∧
      NeutralH t k nx nz a res h ∧ List.Forall₂ (PlaneIs t k nx nz a res h c.rotate wl) vs r.planes :=
  C87_run_partial hf hr hd ho hvs hwl hmode hlev hwm (fun v hv => ⟨hdir v hv, fun _ r _ _ => full_start hcut r⟩) o0 ho0 oldEO o hov

/-- C87 (deterministic): two runs write the same file, whatever the orders of their kernels and what their memory held. -/
theorem C87_deterministic (hf : RayFits t k nx nz) (hr : RayReady t) (hd : Describes f cv (2 ^ k) nx nz a) (ho : OutputIs t cv f k nx nz a out res)
    (hvs : AsksViews c vs) (hwl : AsksWavelengths c out wl) (hmode : c.givenFs = false ∧ c.promweaver = true)
    (hlev : (t.ad.atoms.map fun x => x.top + 1).sum ≤ res.levels) (hwm : t.haveH = false → WarmKept t k nx nz a res)
    (hdir : ∀ v ∈ vs, (v.1.v ≠ 0 ∨ v.2.v ≠ 0) ∧ GoodStarts t k nx nz a c.rotate v)
    (o0 o0' : StartOrder) (ho0 : StartOrders t cv f k o0) (ho0' : StartOrders t cv f k o0') (oldEO oldEO' : Int → EO) (o o' : Nat → ViewOrder)
    (hov : ∀ j (h : j < vs.length), ViewOrders t cv f k o0 (raysOf c.rotate (nx * 2 ^ k) (nz * 2 ^ k) vs[j]) (o j))
    (hov' : ∀ j (h : j < vs.length), ViewOrders t cv f k o0' (raysOf c.rotate (nx * 2 ^ k) (nz * 2 ^ k) vs[j]) (o' j)) :
    ∃ r r', runRay2 t c cv f out o0 oldEO o = .ok r ∧ runRay2 t c cv f out o0' oldEO' o' = .ok r' ∧ r.wavelength = r'.wavelength ∧ r.mu = r'.mu ∧
      List.Forall₂ (fun p p' => p.starts = p'.starts ∧ p.data.rows = p'.data.rows ∧ p.data.cols = p'.data.cols ∧
        ∀ w < p.data.rows, ∀ i < p.data.cols, p.data.get w i = p'.data.get w i) r.planes r'.planes := by
  obtain ⟨r, d, e1, e2, e3, -, e4⟩ := run_planes hf hr hd ho hvs hwl hmode hlev hwm hdir o0 ho0 oldEO o hov
  obtain ⟨r', d', f1, f2, f3, -, f4⟩ := run_planes hf hr hd ho hvs hwl hmode hlev hwm hdir o0' ho0' oldEO' o' hov'
  refine ⟨r, r', e1, f1, by rw [e2, f2], by rw [e3, f3], ?_⟩
  have key : ∀ vs ps ps', List.Forall₂ (PlaneVal t k nx nz a res c.rotate wl) vs ps → List.Forall₂ (PlaneVal t k nx nz a res c.rotate wl) vs ps' →
      List.Forall₂ (fun p p' => p.starts = p'.starts ∧ p.data.rows = p'.data.rows ∧ p.data.cols = p'.data.cols ∧
        ∀ w < p.data.rows, ∀ i < p.data.cols, p.data.get w i = p'.data.get w i) ps ps' := by
    intro vs ps ps' h h'
    induction h generalizing ps' with
    | nil => cases h'; exact List.Forall₂.nil
    | cons h1 h2 ih =>
      cases h' with
      | cons g1 g2 =>
        refine List.Forall₂.cons ⟨by rw [h1.starts, g1.starts], by rw [h1.rows, g1.rows], by rw [h1.cols, g1.cols], fun w hw i hi => ?_⟩ (ih _ g2)
        rw [h1.rows] at hw
        rw [h1.cols] at hi
        rw [h1.value w hw i hi, g1.value w hw i hi]
  exact key vs _ _ e4 f4

/-- C87 (physics): with every tile kept, for a ray that passes through no corner of a cell and crosses no face in its first
2e-6, what is seen is the solution of the transfer equation: `I` along the ray (`x` counted from where it enters the grid,
away from the observer; the light comes the other way), equal to the background where the ray leaves the grid, has at the
entry the intensity that is written; and the optical depth written is that of the whole path. -/
theorem C87_exact (hcut : t.cutoff = 0) (hf : RayFits t k nx nz) (rotate : Bool) (v : Num × Num) (hv : v.1.v ≠ 0 ∨ v.2.v ≠ 0) (i : Nat) (scale : ℝ)
    (gas : Coord2 → EO) (hchi : ∀ c, 0 ≤ (gas c).chi) (bI : ℝ) (x : ℝ × ℝ)
    (hsee : RaySees (rayEnv t k nx nz a) (segOf rotate (nx * 2 ^ k) (nz * 2 ^ k) v i) scale gas bI x)
    (r : DdaRay .two) (s : Dda .two) (hs : ddaStart (rayEnv t k nx nz a) (segOf rotate (nx * 2 ^ k) (nz * 2 ^ k) v i) = some (r, s))
    (hface : ∀ y, 0 ≤ y → y ≤ 2e-6 → ∀ i, r.d i ≠ 0 → ¬ OnFace r 1 y i)
    (hcorner : ∀ y, 0 ≤ y → y ≤ r.t1 → ∀ i j, r.d i ≠ 0 → r.d j ≠ 0 → OnFace r 1 y i → OnFace r 1 y j → i = j)
    (I τ : ℝ → ℝ) (hIT : I r.t1 = bI) (hτ0 : τ 0 = 0) (hIc : ContinuousOn I (Icc 0 r.t1)) (hτc : ContinuousOn τ (Icc 0 r.t1))
    (hI : ∀ y ∈ Ioo 0 r.t1, (∀ i, r.d i ≠ 0 → ¬ OnFace r 1 y i) →
      HasDerivAt I (-(scale * ((gas ⟨⌊r.pt y 0⌋, ⌊r.pt y 1⌋⟩).eta - ((gas ⟨⌊r.pt y 0⌋, ⌊r.pt y 1⌋⟩).chi + 1e-20) * I y))) y ∧
      HasDerivAt τ (scale * ((gas ⟨⌊r.pt y 0⌋, ⌊r.pt y 1⌋⟩).chi + 1e-20)) y) :
    x = (I 0, τ r.t1) := by
  have hb : 1 ≤ (rayEnv t k nx nz a).block := env_block
  have hs' : ddaStart (geoArgs (rayEnv t k nx nz a) (segOf rotate (nx * 2 ^ k) (nz * 2 ^ k) v i)).env
      (geoArgs (rayEnv t k nx nz a) (segOf rotate (nx * 2 ^ k) (nz * 2 ^ k) v i)).seg = some (r, s) := hs
  obtain ⟨hi, hlen, -, -, hd, hins, -⟩ := started _ hb (seg_good (rayEnv t k nx nz a) rotate _ _ v hv i) r s hs'
  have hins : ∀ τ, 0 ≤ τ → τ ≤ r.t1 → ∀ i, 1e-4 ≤ r.pt τ i ∧ r.pt τ i ≤ ((rayEnv t k nx nz a).max i : ℝ) - 1e-4 := hins
  have ht1 := path_short hf rotate v hv i r s hs
  have hin : ∀ τ, 0 ≤ τ → τ ≤ r.t1 → ∀ i, 0 < r.pt τ i ∧ r.pt τ i < (rayEnv t k nx nz a).max i := fun τ p q i => by
    obtain ⟨y, z⟩ := hins τ p q i
    norm_num at y z
    constructor <;> linarith
  have hlvl : ∀ c, (rayEnv t k nx nz a).inBounds c → (rayEnv t k nx nz a).sampleLevel c = 0 := by
    intro c h
    have hk : Kept2 t k nx nz a ⟨c 0, c 1⟩ := by
      obtain ⟨a1, a2⟩ := h 0
      obtain ⟨b1, b2⟩ := h 1
      exact ⟨⟨a1, a2, b1, b2⟩, Or.inl hcut⟩
    have : (rayEnv t k nx nz a).lvl c = 0 := if_pos hk
    unfold DdaEnv.sampleLevel
    rw [this]
    rfl
  obtain ⟨s1, hs1, hst, hflat⟩ := flat_start (m := 0) hb le_rfl hlvl ht1 hlen (fun i => by
    have := hins 0 le_rfl (by norm_num at hlen; linarith) i
    simpa [DdaRay.pt] using this) hd hface
  have hi' : ddaInit (rayEnv t k nx nz a) r = some s := hi
  rw [hi'] at hs1
  obtain rfl := Option.some.inj hs1
  have hgood : GoodStart (rayEnv t k nx nz a) r := full_start hcut r
  unfold RaySees at hsee
  rw [hs] at hsee
  obtain ⟨N, l, hl, rfl⟩ := hsee
  obtain ⟨hvl, last, hl1, hl2⟩ := visitsEnd_some _ r N s l hl
  have hall := visits_flat hb le_rfl hlvl ht1 hin (sz := 2 ^ (0 : ℤ).toNat) (by simpa using hcorner) N s hflat
  obtain ⟨hch, hlev, hcov⟩ := C39_uniform _ r s hb ht1 hin 0 le_rfl hlvl hi' N
  have hbd := visits_bound _ r hb N s (goodStart_inv _ r s hb hgood hi')
  have hfil : l.filter (fun v => decide (0 ≤ v.mip)) = l := by
    rw [List.filter_eq_self]
    intro v hv
    rw [← hvl] at hv
    simp [(hlev v hv).1]
  rw [hfil]
  obtain ⟨l', hl'⟩ := visits_head (rayEnv t k nx nz a) r N s
  have hr0 : 0 ≤ r.t1 := by norm_num at hlen; linarith
  have hcovT := hcov last (by rw [hvl]; exact hl1) hl2 r.t1 (by rw [hst]; exact hr0) le_rfl
  have hsol := stack_solves scale gas hchi I τ r.t1 s l' (by rw [← hl']; exact hch) (by rw [← hl']; exact hbd) (by rw [hst]; exact hr0)
    (by rw [← hl']; obtain ⟨v, hv, -, q⟩ := hcovT; exact ⟨v, hv, q⟩) (by rw [hst]; exact hIc) (by rw [hst]; exact hτc) (by
      rw [← hl']
      intro v hv y hy
      have hfv := hall v hv
      have hcell := hfv.cell y hy
      have hc : ∀ j, v.coord j = ⌊r.pt y j⌋ := fun j => by
        have := congrFun hcell j
        rw [this]
        unfold maskCoord
        simp
      have hb' := hbd v hv
      have hv0 := hfv.inv.t0
      have hx1 : y < r.t1 := by
        rcases le_total v.t r.t1 with hle | hle
        · rw [max_eq_right hle] at hb'; linarith [hy.2, hb'.2]
        · rw [max_eq_left hle] at hb'; exfalso; linarith [hy.1, hy.2, hb'.2]
      obtain ⟨g1, g2⟩ := hI y ⟨by linarith [hy.1], hx1⟩ (fun j h0 => by
        have := hfv.noFace y hy j h0
        simpa using this)
      rw [hc 0, hc 1]
      refine ⟨?_, g2⟩
      unfold SolvesAt
      rw [neg_mul]
      exact g1)
  rw [← hvl, hl', ← hIT, hsol.1, hsol.2, hst, hτ0, sub_zero]

/-- C87 (bounds): with non-negative opacities, what is seen is between bounds that hold for the background and for the
source function of every cell that is kept, and the optical depth is not negative. -/
theorem C87_bounds (seg : RaySeg 2) (scale lo hi bI : ℝ) (gas : Coord2 → EO) (hs : 0 ≤ scale) (h1 : lo ≤ bI) (h2 : bI ≤ hi)
    (hg : ∀ c, Kept2 t k nx nz a c → 0 ≤ (gas c).chi ∧ lo * ((gas c).chi + 1e-20) ≤ (gas c).eta ∧ (gas c).eta ≤ hi * ((gas c).chi + 1e-20))
    (x : ℝ × ℝ) (hsee : RaySees (rayEnv t k nx nz a) seg scale gas bI x) : lo ≤ x.1 ∧ x.1 ≤ hi ∧ 0 ≤ x.2 := by
  unfold RaySees at hsee
  cases hst : ddaStart (rayEnv t k nx nz a) seg with
  | none => rw [hst] at hsee; subst hsee; exact ⟨h1, h2, le_rfl⟩
  | some p =>
    obtain ⟨r, s⟩ := p
    rw [hst] at hsee
    obtain ⟨N, l, hl, rfl⟩ := hsee
    obtain ⟨c, b, -, -, hi'⟩ := ddaStart_some _ _ r s hst
    have hnn := C39_nonneg _ r s hi' N
    rw [(visitsEnd_some _ r N s l hl).1] at hnn
    have hslab : ∀ q ∈ (l.filter fun v => decide (0 ≤ v.mip)).map (slabOf scale gas), 0 ≤ q.tau ∧ lo ≤ q.S ∧ q.S ≤ hi := by
      intro q hq
      obtain ⟨v, hv, rfl⟩ := List.mem_map.1 hq
      obtain ⟨v1, v2⟩ := List.mem_filter.1 hv
      have v2' : 0 ≤ v.mip := by simpa using v2
      have hk : Kept2 t k nx nz a ⟨v.coord 0, v.coord 1⟩ := by
        have hlv := (C39_level _ r s env_blk hi' N v (by rw [(visitsEnd_some _ r N s l hl).1]; exact v1)).1
        by_contra hno
        have h5 : (rayEnv t k nx nz a).lvl v.coord = -1 := if_neg hno
        rw [h5] at hlv
        have := min_le_left (-1 : ℤ) (rayEnv t k nx nz a).maxMip
        omega
      obtain ⟨g1, g2, g3⟩ := hg _ hk
      have hp : 0 < (gas ⟨v.coord 0, v.coord 1⟩).chi + 1e-20 := by norm_num at g1 ⊢; linarith
      refine ⟨mul_nonneg (mul_nonneg hp.le (hnn v v1)) hs, ?_, ?_⟩
      · exact (le_div_iff₀ hp).2 g2
      · exact (div_le_iff₀ hp).2 g3
    obtain ⟨b1, b2⟩ := emergent_between _ bI lo hi h1 h2 hslab
    refine ⟨b1, b2, ?_⟩
    show 0 ≤ thickness _
    unfold thickness
    refine List.sum_nonneg fun y hy => ?_
    obtain ⟨q, hq, rfl⟩ := List.mem_map.1 hy
    exact (hslab q hq).1

/-- C87 (what is rejected): a configuration without `mux` or `muz`, or with lists that are empty or of different lengths; one
without wavelengths if the output has none; one for a model run that had given emissivities or another boundary condition. -/
theorem C87_rejects (o0 : StartOrder) (oldEO : Int → EO) (o : Nat → ViewOrder) :
    ((c.mux = none ∨ c.muz = none ∨ (∃ mx mz, c.mux = some mx ∧ c.muz = some mz ∧ (mx.length ≠ mz.length ∨ mz = []))) →
      runRay2 t c cv f out o0 oldEO o = .throws) ∧
    (AsksViews c vs → (c.wavelength = none ∨ c.wavelength = some []) → out.var "wavelength" = none →
      runRay2 t c cv f out o0 oldEO o = .throws) ∧
    (AsksViews c vs → AsksWavelengths c out wl → (c.givenFs = true ∨ c.promweaver = false) →
      runRay2 t c cv f out o0 oldEO o = .throws) := by
  refine ⟨fun h => ?_, fun h1 h2 h3 => ?_, fun h1 h2 h3 => ?_⟩
  · have : views c = .throws := by
      unfold views
      rcases h with h | h | ⟨mx, mz, h1, h2, h3⟩
      · rw [h]; cases c.muz <;> rfl
      · rw [h]; rfl
      · rw [h1, h2]
        simp only [need, Outcome.ok_bind]
        rw [if_pos]
        rcases h3 with h3 | h3
        · exact Or.inl (Ne.symm h3)
        · exact Or.inr (by rw [h3]; rfl)
    unfold runRay2
    rw [this]; rfl
  · have : wavelengths c out = .throws := by
      unfold wavelengths
      have h0 : (c.wavelength.getD []).length = 0 := by rcases h2 with h | h <;> rw [h] <;> rfl
      rw [if_pos h0]
      simp only [readVar, h3, need]
      rfl
    unfold runRay2
    rw [views_of h1, Outcome.ok_bind, this]; rfl
  · unfold runRay2
    rw [views_of h1, Outcome.ok_bind, wavelengths_of h2, Outcome.ok_bind]
    rcases h3 with h3 | h3
    · rw [h3, if_pos rfl]
    · by_cases hg : c.givenFs = true
      · rw [if_pos hg]
      · rw [if_neg hg, h3]; rfl

/-- C87, refuted part: an output of another model run, with fewer levels than the atoms of the configuration need, is not
rejected: the tool reads past the end of the populations. -/
theorem C87_refuted_levels (hf : RayFits t k nx nz) (hd : Describes f cv (2 ^ k) nx nz a) (ho : OutputIs t cv f k nx nz a out res)
    (hvs : AsksViews c vs) (hwl : AsksWavelengths c out wl) (hne : wl ≠ []) (hmode : c.givenFs = false ∧ c.promweaver = true)
    (hlev : res.levels < (t.ad.atoms.map fun x => x.top + 1).sum) (hcell : ∃ p, Kept2 t k nx nz a p)
    (o0 : StartOrder) (ho0 : StartOrders t cv f k o0) (oldEO : Int → EO) (o : Nat → ViewOrder)
    (hov : ∀ j (h : j < vs.length), ViewOrders t cv f k o0 (raysOf c.rotate (nx * 2 ^ k) (nz * 2 ^ k) vs[j]) (o j)) :
    runRay2 t c cv f out o0 oldEO o = .ub := by
  obtain ⟨d, e1, hI, at', e2⟩ := load_ok hf hd ho o0 ho0
  have H := iterSpace2 k nx nz _ d.bm hf.axes.1 hf.axes.2 hI.map
  obtain ⟨v, vs', hv⟩ : ∃ v vs', vs = v :: vs' := by
    obtain ⟨mx, mz, -, -, q3, q4, rfl⟩ := hvs
    cases hz : mx.zip mz with
    | nil =>
      exfalso
      have := congrArg List.length hz
      rw [List.length_zip, q3, min_self] at this
      exact q4 (List.length_eq_zero_iff.1 this)
    | cons v vs' => exact ⟨v, vs', rfl⟩
  subst hv
  have hperm := (hov 0 (by simp)).cells d.bm at' 0 e2
  have hub : ∀ (val : Coord2 → Nat → Outcome EO), (∀ p n, val p n = .ub) → cells2 (2 ^ k) d.bm val ((o 0).cells 0) oldEO = .ub := by
    intro val hval
    obtain ⟨p, hp⟩ := hcell
    obtain ⟨q, hq, -⟩ := H.ontoC p ((kept_iff _ _ _ _ _ _).1 hp)
    cases hc : (o 0).cells 0 with
    | nil =>
      have := hperm.mem_iff.2 hq
      rw [hc] at this
      simp at this
    | cons p0 rest =>
      have hm : p0 ∈ loopIters (2 ^ k * 2 ^ k) d.bm := hperm.mem_iff.1 (by rw [hc]; exact List.mem_cons_self)
      obtain ⟨c', c1, c2, c3⟩ := H.co p0 hm
      obtain ⟨r1, r2⟩ := H.rng p0 hm
      unfold cells2 writeLoop
      simp only [c1, Outcome.ok_bind]
      rw [if_neg (not_not.2 ⟨r1, r2⟩), hval]
      rfl
  have hwv : waveStep t d c.rotate wl v (o 0) (oldEO, allocate wl.length (raysOf c.rotate d.bm.bboxMax.x.toNat d.bm.bboxMax.z.toNat v) (o 0).fresh none) 0 = .ub := by
    unfold waveStep
    have h0 : 0 < wl.length := List.length_pos_of_ne_nil hne
    have hrd : readAt wl 0 = .ok wl[0] := by unfold readAt; simp [h0]
    rw [hrd, Outcome.ok_bind, hf.block, hub]
    · rfl
    · intro p n
      unfold cellVal
      rw [if_pos]
      left
      rw [hI.rows]
      exact hlev
  unfold runRay2
  rw [views_of hvs, Outcome.ok_bind, wavelengths_of hwl, Outcome.ok_bind, hmode.1, hmode.2]
  simp only [Bool.false_eq_true, if_false, Bool.not_true, e1, Outcome.ok_bind]
  unfold viewLoop viewStep
  obtain ⟨n, hn⟩ : ∃ n, wl.length = n + 1 := ⟨wl.length - 1, by have := List.length_pos_of_ne_nil hne; omega⟩
  have hrange : List.range wl.length = 0 :: (List.range n).map Nat.succ := by rw [hn, List.range_succ_eq_map]
  rw [hrange]
  simp only [List.foldlM_cons, hwv]
  rfl

end DexRT.RayRun
