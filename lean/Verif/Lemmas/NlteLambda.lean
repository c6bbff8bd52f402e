import Verif.Lemmas.NlteLoop
import Verif.Lemmas.LteSolve
import Verif.Spec.NlteLambda
import Verif.Props.RadGamma
import Verif.Props.NlteRun
/-! Lemmas for C90: nothing is negative in a Lambda iteration with physical data. -/
namespace DexRT.Nlte
open DexRT DexRT.Fs DexRT.AtmosFile DexRT.Dir DexRT.Given DexRT.Emis DexRT.LteRun DexRT.RadGamma Classical

/-- a step adds light and lets some through, whatever the sign of the opacity -/
theorem marchStep_nonneg (es : Bool) {sc is : ℝ} (hsc : 0 ≤ sc) (his : 0 ≤ is) (v : MarchVars) (s : Step) (he : s.sample = true → 0 ≤ s.eta) (hd : 0 ≤ s.dt) (hv : 0 ≤ v.I) :
    0 ≤ (marchStep es sc is v s).I := by
  unfold marchStep
  cases hs : s.sample
  · simpa using hv
  · simp only [if_true]
    have h1 : 0 ≤ s.dt * sc * is := mul_nonneg (mul_nonneg hd hsc) his
    have heta := he hs
    refine add_nonneg (mul_nonneg hv (Real.exp_pos _).le) ?_
    rcases le_total 0 (chiUsed es s.chi) with h | h
    · refine mul_nonneg (div_nonneg heta h) ?_
      have : Real.exp (-(chiUsed es s.chi * s.dt * sc * is)) ≤ 1 := Real.exp_le_one_iff.2 (by
        have := mul_nonneg h h1
        nlinarith)
      linarith
    · refine mul_nonneg_of_nonpos_of_nonpos (div_nonpos_of_nonneg_of_nonpos heta h) ?_
      have : 1 ≤ Real.exp (-(chiUsed es s.chi * s.dt * sc * is)) := Real.one_le_exp (by
        have := mul_nonneg_of_nonpos_of_nonpos h (neg_nonpos.2 h1)
        nlinarith)
      linarith

theorem march_nonneg (es : Bool) {sc is I0 : ℝ} (hsc : 0 ≤ sc) (his : 0 ≤ is) (h0 : 0 ≤ I0) (l : List Step) (hl : ∀ s ∈ l, (s.sample = true → 0 ≤ s.eta) ∧ 0 ≤ s.dt) :
    0 ≤ (marchInterval es sc is I0 l).I := by
  unfold marchInterval march
  simp only
  suffices h : ∀ (l : List Step), (∀ s ∈ l, (s.sample = true → 0 ≤ s.eta) ∧ 0 ≤ s.dt) → ∀ v : MarchVars, 0 ≤ v.I → 0 ≤ (l.foldl (marchStep es sc is) v).I by
    exact h l hl _ h0
  intro l
  induction l with
  | nil => intro _ v hv; exact hv
  | cons s l ih =>
    intro hl v hv
    rw [List.foldl_cons]
    exact ih (fun t ht => hl t (List.mem_cons_of_mem _ ht)) _ (marchStep_nonneg es hsc his v s (hl s List.mem_cons_self).1 (hl s List.mem_cons_self).2 hv)

theorem raymarch_nonneg {dim : DdaDim} (a : RaymarchArgs dim) (hsc : 0 ≤ a.scale) (heta : ∀ m c, 0 ≤ a.eta m c) (hst : ∀ b, 0 ≤ startI a b)
    (fuel : ℕ) (res : Interval) (h : raymarch a fuel = some res) : 0 ≤ (segOf res).I ∧ 0 ≤ (segOf res).T := by
  refine ⟨?_, (Real.exp_pos _).le⟩
  show 0 ≤ res.I
  rcases raymarch_cases a fuel res h with ⟨-, rfl⟩ | ⟨r, s, l, -, -, hl, rfl⟩
  · exact hst _
  · refine march_nonneg _ hsc (invSin_nonneg a) (hst _) _ fun s hs => ?_
    obtain ⟨v, hv, rfl⟩ := List.mem_map.1 hs
    exact ⟨fun _ => heta _ _, hl v (mem_loopStates hv)⟩

theorem radiance2_nonneg (march : Bool → Nat → ProbeIdx2 → Seg ℝ) (Nx Nz : Nat) (b : Nat → Nat) (num : Nat) (V : Nat → ProbeIdx2 → Prop)
    (hV : ∀ n p U W r, n < num → V n p → U < probesOn Nx (n + 1) → W < probesOn Nz (n + 1) → r < b n → V (n + 1) { p with u := U, v := W, dir := p.dir * b n + r })
    (hf : ∀ n p, n < num → V n p → 0 ≤ (march false n p).I ∧ 0 ≤ (march false n p).T)
    (ht : ∀ p, V num p → 0 ≤ (march true num p).I) (m : Nat) (hm : m ≤ num) (p : ProbeIdx2) (hp : V (num - m) p) :
    0 ≤ radiance2 march Nx Nz b num m p ∧ (0 < m → (march false (num - m) p).I ≤ radiance2 march Nx Nz b num m p) := by
  induction m generalizing p with
  | zero => unfold radiance2; exact ⟨ht p hp, fun h => absurd h (by omega)⟩
  | succ m ih =>
    obtain ⟨f1, f2⟩ := hf _ p (by omega) hp
    have key : 0 ≤ (march false (num - (m + 1)) p).T *
      ∑ U ∈ Finset.range (probesOn Nx (num - (m + 1) + 1)), ∑ V ∈ Finset.range (probesOn Nz (num - (m + 1) + 1)),
        ((axisWeight (probesOn Nx (num - (m + 1) + 1)) p.u U * axisWeight (probesOn Nz (num - (m + 1) + 1)) p.v V : ℚ) : ℝ) *
          ((∑ r ∈ Finset.range (b (num - (m + 1))), radiance2 march Nx Nz b num m
            { p with u := U, v := V, dir := p.dir * b (num - (m + 1)) + r }) / (b (num - (m + 1)) : ℝ)) := by
      refine mul_nonneg f2 (Finset.sum_nonneg fun U hU => Finset.sum_nonneg fun W hW => mul_nonneg ?_ (div_nonneg (Finset.sum_nonneg fun r hr => ?_) (Nat.cast_nonneg _)))
      · exact_mod_cast mul_nonneg (le_max_left 0 _) (le_max_left 0 _)
      · refine (ih (by omega) _ ?_).1
        have := hV (num - (m + 1)) p U W r (by omega) hp (Finset.mem_range.1 hU) (Finset.mem_range.1 hW) (Finset.mem_range.1 hr)
        rwa [show num - (m + 1) + 1 = num - m by omega] at this
    unfold radiance2
    exact ⟨add_nonneg f1 key, fun _ => le_add_of_nonneg_right key⟩

variable {q : Setup} {k nx nz : Nat} {a : Cond} {pf : Coord2 → Emis.Pops} {h : Coord2 → ℝ}

theorem lte_pos (hp : PhysicalRun q k nx nz a) (c : Coord2) (hc : Given.InGrid k nx nz c) (ia : Nat) (x : Atom) (hx : q.r.ad.atoms[ia]? = some x) (l : Nat) (hl : l < x.top + 1) :
    0 < ltePop q.r a c ia l := by
  obtain ⟨-, -, -, -, -, k7, k8, k9⟩ := hp.consts
  obtain ⟨c1, c2, c3⟩ := hp.cells c hc
  obtain ⟨x1, x2⟩ := hp.atoms x (List.mem_of_getElem? hx)
  have := (C27_total (kB := q.r.k.kB) (dbc := q.r.k.dbc) (fmin := q.r.k.fmin) (lv := x.lv) (T := a.temperature c) (ne := a.ne c) (ntot := x.abundance * a.nhTot c)
      ⟨k7, k8, k9, x2, c1, c2, mul_pos x1 c3⟩).1 ⟨l, hl⟩
  unfold ltePop EmisSpec.lte
  rw [hx]
  simp only [Option.bind_some, hl, dif_pos, Option.getD_some]
  exact this

theorem lte_nonneg (hp : PhysicalRun q k nx nz a) (c : Coord2) (hc : Given.InGrid k nx nz c) (ia l : Nat) : 0 ≤ ltePop q.r a c ia l := by
  cases hx : q.r.ad.atoms[ia]? with
  | none => unfold ltePop EmisSpec.lte; rw [hx]; simp
  | some x =>
    by_cases hl : l < x.top + 1
    · exact (lte_pos hp c hc ia x hx l hl).le
    · unfold ltePop EmisSpec.lte; rw [hx, Option.bind_some, dif_neg hl]; simp

theorem getD_wave (hp : PhysicalRun q k nx nz a) (la : Nat) : 0 ≤ q.r.ad.wavelength.getD la 0 := by
  rw [List.getD_eq_getElem?_getD]
  exact getD_nonneg hp.wave la

theorem gas_eta_nonneg (hq : NlteReady q) (hp : PhysicalRun q k nx nz a) (hn : NoNegative q k nx nz pf) (c : Coord2) (hc : Given.InGrid k nx nz c) (la : Nat) (mu : Fin 3 → ℝ) :
    0 ≤ (gasOf q.r a h pf la mu c).eta := by
  obtain ⟨k1, k2, k3, k4, k5, -, -, -⟩ := hp.consts
  have hw := getD_wave hp la
  have ee : (gasOf q.r a h pf la mu c).eta = (EmisSpec.lines q.r.k q.r.phi q.r.ad la (pf c) (point a h (a.vx c * mu 0 + a.vy c * mu 1 + a.vz c * mu 2) c) (q.r.ad.wavelength.getD la 0)).eta +
    (EmisSpec.conts q.r.k q.r.ad la (EmisSpec.sigma la) (pf c) (ltePop q.r a c) (point a h (a.vx c * mu 0 + a.vy c * mu 1 + a.vz c * mu 2) c) (q.r.ad.wavelength.getD la 0)).eta := rfl
  rw [ee]
  unfold EmisSpec.lines EmisSpec.conts
  refine add_nonneg (List.sum_nonneg fun y hy => ?_) (List.sum_nonneg fun y hy => ?_)
  · obtain ⟨l, hl, rfl⟩ := List.mem_map.1 hy
    have hl1 := (List.mem_filter.1 hl).1
    obtain ⟨x, x1, x2, x3⟩ := hq.ready.levels.1 l hl1
    obtain ⟨a1, a2, a3, a4⟩ := hp.lines l hl1
    have hnj := hn c hc _ x x1 _ x3
    unfold EmisSpec.lineEmissivity
    refine mul_nonneg (mul_nonneg (mul_nonneg (by positivity) hnj) a1) ?_
    unfold EmisSpec.profile EmisSpec.dopplerWidth
    refine div_nonneg (hp.phi _ _) ?_
    have := Real.sqrt_nonneg (2 * q.r.k.kBu * (point a h (a.vx c * mu 0 + a.vy c * mu 1 + a.vz c * mu 2) c).temperature / EmisSpec.massOf q.r.ad l +
      (point a h (a.vx c * mu 0 + a.vy c * mu 1 + a.vz c * mu 2) c).vturb ^ 2)
    positivity
  · obtain ⟨t, ht, rfl⟩ := List.mem_map.1 hy
    have ht1 := (List.mem_filter.1 ht).1
    obtain ⟨x, x1, x2, x3⟩ := hq.ready.levels.2 t ht1
    have hnj := hn c hc _ x x1 _ x3
    have s1 := lte_nonneg hp c hc t.atom t.i
    have s2 := lte_nonneg hp c hc t.atom t.j
    have hs : 0 ≤ EmisSpec.sigma la t := getD_nonneg (hp.sigma t ht1) _
    unfold EmisSpec.contEmissivity
    refine mul_nonneg (mul_nonneg (mul_nonneg (mul_nonneg hnj (div_nonneg s1 s2)) (Real.exp_pos _).le) ?_) hs
    positivity

/-- what the marched rays bring to a cell -/
theorem rays_nonneg (hf : Fits q.r.s k nx nz) (hq : NlteReady q) (hp : PhysicalRun q k nx nz a) (hn : NoNegative q k nx nz pf) (march : Marched) (hL : Light q k nx nz a pf h march)
    (c : Coord2) (hc : Given.InGrid k nx nz c) (la : Nat) (hla : la < q.r.ad.wavelength.length) (x : Nat × Nat) (hx1 : x.1 < q.r.s.cfg.p0rays) (hx2 : x.2 < q.r.s.incl) :
    0 ≤ arriving q.r.s (nx * 2 ^ k) (nz * 2 ^ k) march c la x ∧ (march (la / q.r.s.W * q.r.s.W) false 0 (rayAt q.r.s c la x)).I ≤ arriving q.r.s (nx * 2 ^ k) (nz * 2 ^ k) march c la x := by
  obtain ⟨b1, b2⟩ := batch_pos hf la hla
  have d1 : la / q.r.s.W * q.r.s.W ≤ la := Nat.div_mul_le_self _ _
  have m1 := hL.rays (la / q.r.s.W * q.r.s.W) (by omega) (Dvd.intro_left _ rfl)
  set la0 := la / q.r.s.W * q.r.s.W with hla0
  obtain ⟨E, hE⟩ : ∃ E : ℤ → (Fin 3 → ℝ) → Coord2 → ℝ, E = fun _ mu c => if Given.InGrid k nx nz c then (gasOf q.r a h pf la mu c).eta else 0 := ⟨_, rfl⟩
  obtain ⟨X, hX⟩ : ∃ X : ℤ → (Fin 3 → ℝ) → Coord2 → ℝ, X = fun _ mu c => (gasOf q.r a h pf la mu c).chi := ⟨_, rfl⟩
  have hE0 : ∀ l mu c, 0 ≤ E l mu c := by
    intro l mu c
    rw [hE]
    by_cases hc : Given.InGrid k nx nz c
    · simp only [if_pos hc]; exact gas_eta_nonneg hq hp hn c hc la mu
    · simp only [if_neg hc]; exact le_rfl
  obtain ⟨w, hw⟩ : ∃ w : World .two, w = { gasWorld (q.r.rearranged q.r.s.W q.r.s.onCpu q.r.maxLines) k nx nz a h pf with eta := fun l mu _ c => E l mu ⟨c 0, c 1⟩, chi := fun l mu _ c => X l mu ⟨c 0, c 1⟩ } := ⟨_, rfl⟩
  have hmr : ∀ bc m (p : ProbeIdx2), m ≤ q.r.s.num → p.wave = la % q.r.s.W →
      MarchRay2 (gasWorld q.r k nx nz a h pf) (envOf q.r.s (nx * 2 ^ k) (nz * 2 ^ k) (march la0)) (raysFrom q.r.s la0) bc m p (march la0 bc m p) →
      MarchRay2 w (envOf q.r.s (nx * 2 ^ k) (nz * 2 ^ k) (march la0)) (raysFrom q.r.s la0) bc m p (march la0 bc m p) := by
    intro bc m p hm hpw hh
    have e : p = { p with wave := la % q.r.s.W } := by rw [← hpw]
    rw [e] at hh ⊢
    rw [hw]
    exact (march_congr hf hq.ready.noMips q.r.s.W q.r.s.onCpu q.r.maxLines E X la la0 la0 _ _ b1 b1 (fun c hc mu => by
      rw [hE, hX]; simp only [if_pos hc]; exact ⟨trivial, trivial⟩) (march la0) (march la0) bc m hm p _).1 hh
  have hsc' : 0 ≤ w.scale := by rw [hw]; exact hp.scale
  set e := envOf q.r.s (nx * 2 ^ k) (nz * 2 ^ k) (march la0) with he
  have hx : c.x.toNat < nx * 2 ^ k := by have := hc.1; have := hc.2.1; omega
  have hz : c.z.toNat < nz * 2 ^ k := by have := hc.2.2.1; have := hc.2.2.2; omega
  have key := radiance2_nonneg (march la0) (nx * 2 ^ k) (nz * 2 ^ k) (upperTexelsPerRay q.r.s.cfg) q.r.s.num
    (fun m p => Ray2 e (min q.r.s.W (q.r.ad.wavelength.length - la0)) m p ∧ p.wave = la % q.r.s.W)
    (fun m p U V j _ hq hU hV hj => ⟨ray2_child e hf.valid hf.mode _ m p U V j hq.1 hU hV hj, hq.2⟩)
    (fun m p hm hv => ?_) (fun p hv => ?_) q.r.s.num le_rfl (rayAt q.r.s c la x) (by rw [Nat.sub_self]; exact ⟨ray_zero hf (march la0) _ _ _ x.1 x.2 _ hx hz hx1 hx2 b2, rfl⟩)
  · obtain ⟨g1, g2⟩ := key
    rw [Nat.sub_self] at g2
    exact ⟨g1, g2 hq.ready.cascades⟩
  · obtain ⟨seg, fuel, res, -, k2, k3⟩ := hmr false m p hm.le hv.2 (m1.1 m p hm hv.1)
    rw [k3]
    exact raymarch_nonneg (w.args2 e (raysFrom q.r.s _) false m p seg) hsc' (fun m c => by subst hw; exact hE0 _ _ _) (fun b => by rw [startI_false _ _ rfl]) fuel res k2
  · obtain ⟨seg, fuel, res, -, k2, k3⟩ := hmr true q.r.s.num p le_rfl hv.2 (m1.2 p hv.1)
    rw [k3]
    refine (raymarch_nonneg (w.args2 e (raysFrom q.r.s _) true e.num p seg) hsc' (fun m c => by subst hw; exact hE0 _ _ _) (fun b => ?_) fuel res k2).1
    have hbc : 0 ≤ (w.args2 e (raysFrom q.r.s la0) true e.num p seg).bc := by
      subst hw
      exact hp.outside _ _ _
    unfold startI
    split
    · split
      · exact hbc
      · exact le_rfl
    · exact le_rfl

/-- the collisional rates -/
theorem coll_rates (hq : NlteReady q) (hp : PhysicalRun q k nx nz a) (c : Coord2) (hc : Given.InGrid k nx nz c) (hh : 0 ≤ h c) (ia : Nat) (x : Atom)
    (hx : q.r.ad.atoms[ia]? = some x) (C : Fin (x.top + 1) → Fin (x.top + 1) → ℝ) (hC : Collisional q a h c ia x C) :
    (∀ i j, 0 ≤ C i j) ∧ ∀ i j : Fin (x.top + 1), i ≠ j → Joined (q.colls ia) i j → 0 < C i j := by
  obtain ⟨c1, c2, c3⟩ := hp.cells c hc
  obtain ⟨x1, x2⟩ := hp.atoms x (List.mem_of_getElem? hx)
  have hin : DexRT.CollInput q.ck x.lv { temperature := a.temperature c, ne := a.ne c, nhTot := a.nhTot c, nh0 := h c } (fun l : Fin (x.top + 1) => ltePop q.r a c ia l) :=
    ⟨hp.collConsts.1, hp.collConsts.2.1, hp.collConsts.2.2, x2, c1, c2, c3.le, hh, fun i => lte_pos hp c hc ia x hx i i.2⟩
  have hmem : ∀ co ∈ atomColls (x.top + 1) (q.colls ia), ∃ rc ∈ q.colls ia, rc.type = co.type ∧ rc.i = co.i ∧ rc.j = co.j ∧ rc.temps = co.temps ∧ rc.rates = co.rates := by
    intro co hco
    obtain ⟨rc, r1, r2⟩ := List.mem_filterMap.1 hco
    split at r2
    · obtain rfl := Option.some.inj r2
      exact ⟨rc, r1, rfl, rfl, rfl, rfl, rfl⟩
    · cases r2
  have hgood : ∀ co ∈ atomColls (x.top + 1) (q.colls ia), DexRT.GoodTable co := by
    intro co hco
    obtain ⟨rc, r1, -, -, -, r5, r6⟩ := hmem co hco
    obtain ⟨-, -, g3, g4, g5⟩ := hq.colls ia x hx rc r1
    unfold DexRT.GoodTable
    rw [← r5, ← r6]
    exact ⟨g3, g4, g5, hp.tables ia x hx rc r1⟩
  let r : DexRT.Lte.Coll (x.top + 1) → ℝ × ℝ := fun coll => if hg : DexRT.GoodTable coll then
    ((DexRT.rates_ok hin coll hg).choose, (DexRT.rates_ok hin coll hg).choose_spec.choose) else 0
  have hr : ∀ coll, DexRT.GoodTable coll → DexRT.Lte.collRates q.ck x.lv { temperature := a.temperature c, ne := a.ne c, nhTot := a.nhTot c, nh0 := h c } (fun l : Fin (x.top + 1) => ltePop q.r a c ia l) coll = .ok (r coll) ∧ 0 ≤ (r coll).1 ∧ 0 ≤ (r coll).2 := by
    intro coll hg
    have := (DexRT.rates_ok hin coll hg).choose_spec.choose_spec
    simp only [r, hg, dif_pos]
    exact ⟨this.1, this.2.1, this.2.2.1⟩
  have hC' := DexRT.Lte.compute_eq q.ck x.lv _ _ r _ (fun coll hc => (hr coll (hgood coll hc)).1) (fun _ _ => 0)
  have hCe : C = fun a b => 0 + ((atomColls (x.top + 1) (q.colls ia)).map fun coll => DexRT.Lte.store coll.i coll.j (fun _ _ => 0) (r coll).1 (r coll).2 a b).sum := by
    have := hC.symm.trans hC'
    injection this
  have hst : ∀ co ∈ atomColls (x.top + 1) (q.colls ia), ∀ i j, 0 ≤ DexRT.Lte.store co.i co.j (fun _ _ => 0) (r co).1 (r co).2 i j := by
    intro co hco i j
    obtain ⟨-, h1, h2⟩ := hr co (hgood co hco)
    unfold DexRT.Lte.store
    split <;> split <;> simp <;> first | exact add_nonneg h2 h1 | exact h2 | exact h1 | skip
  constructor
  · intro i j
    rw [hCe]
    simp only [zero_add]
    refine List.sum_nonneg fun y hy => ?_
    obtain ⟨co, hco, rfl⟩ := List.mem_map.1 hy
    exact hst co hco i j
  · rintro i j hij ⟨rc, r1, r2, r3, r4⟩
    obtain ⟨g1, g2, -, -, g5⟩ := hq.colls ia x hx rc r1
    have hco : (⟨rc.type, ⟨rc.i, g1⟩, ⟨rc.j, g2⟩, rc.temps, rc.rates⟩ : DexRT.Lte.Coll (x.top + 1)) ∈ atomColls (x.top + 1) (q.colls ia) :=
      List.mem_filterMap.2 ⟨rc, r1, dif_pos ⟨g1, g2⟩⟩
    set co : DexRT.Lte.Coll (x.top + 1) := ⟨rc.type, ⟨rc.i, g1⟩, ⟨rc.j, g2⟩, rc.temps, rc.rates⟩ with hcod
    have hgo := hgood co hco
    obtain ⟨e1, -, -⟩ := hr co hgo
    have hpos : 0 < (r co).1 ∧ 0 < (r co).2 := by
      obtain ⟨rate, i1, ⟨y0, y1, y2⟩, -⟩ := DexRT.interp_range co.temps co.rates hgo.1 hgo.2.1 hgo.2.2.1 (a.temperature c)
      have hrate : 0 < rate := lt_of_lt_of_le (r3 y0 y1) y2
      unfold DexRT.Lte.collRates at e1
      simp only [i1, Outcome.ok_bind] at e1
      have ni := hin.nStar co.i
      have nj := hin.nStar co.j
      have gi := hin.g co.i
      have gj := hin.g co.j
      have hse := hin.seaton
      have hsq := Real.sqrt_pos.mpr c1
      have he : 0 < Real.exp (-((x.lv co.j).energy - (x.lv co.i).energy) / (q.ck.kB * a.temperature c)) := Real.exp_pos _
      have hty : DexRT.ByElectrons co.type := r2
      cases ht : co.type <;> rw [ht] at e1 hty <;> simp only [Outcome.ok.injEq] at e1
      · rw [← e1]; exact ⟨by positivity, by positivity⟩
      · rw [← e1]; exact ⟨by positivity, by positivity⟩
      · rw [← e1]; exact ⟨by positivity, by positivity⟩
      all_goals exact absurd hty (by simp [DexRT.ByElectrons])
    rw [hCe]
    simp only [zero_add]
    have hone : 0 < DexRT.Lte.store co.i co.j (fun _ _ => 0) (r co).1 (r co).2 i j := by
      unfold DexRT.Lte.store
      rcases r4 with ⟨s1, s2⟩ | ⟨s1, s2⟩
      · have t1 : i = co.i := Fin.ext s1.symm
        have t2 : j = co.j := Fin.ext s2.symm
        rw [if_pos ⟨t1, t2⟩]
        split <;> linarith [hpos.1, hpos.2]
      · have t1 : j = co.i := Fin.ext s1.symm
        have t2 : i = co.j := Fin.ext s2.symm
        rw [if_pos (c := i = co.j ∧ j = co.i) ⟨t2, t1⟩]
        split <;> linarith [hpos.1, hpos.2]
    refine lt_of_lt_of_le hone (List.single_le_sum ?_ _ (List.mem_map.2 ⟨co, hco, rfl⟩))
    intro y hy
    obtain ⟨co', hco', rfl⟩ := List.mem_map.1 hy
    exact hst co' hco' i j

theorem lineProfile_nonneg (hp : PhysicalRun q k nx nz a) (cell : RadGamma.Cell) (l : Line) (hl : l ∈ q.r.ad.lines) (lambda vel : ℝ) : 0 ≤ lineProfile (rateData q) cell l lambda vel := by
  obtain ⟨k1, k2, k3, k4, k5, -, -, -⟩ := hp.consts
  exact div_nonneg (hp.phi _ _) (mul_nonneg k4.le (dop_nonneg q.r.k k1.le _ _ _ _ (hp.lines l hl).2.2.2))

theorem rayWeight_nonneg (hp : PhysicalRun q k nx nz a) (x : Nat × Nat) : 0 ≤ rayWeight q.r.s x :=
  mul_nonneg (div_nonneg zero_le_one (Nat.cast_nonneg _)) (getD_nonneg hp.weights _)

theorem signs (hp : PhysicalRun q k nx nz a) (c : Coord2) (hc : Given.InGrid k nx nz c) (march : Marched) (lam : Bool) :
    Signs (rateData q) (gasCell q.r a h pf c) (lineFactor q (gasCell q.r a h pf c)) (cellRays q k nx nz a h pf march lam c) := by
  obtain ⟨k1, k2, k3, k4, k5, -, -, -⟩ := hp.consts
  refine ⟨⟨k2.le, k3.le, k4.le, k1.le, k5.le⟩, hp.phi, hp.wave, hp.bins, hp.lines, hp.sigma, fun ia i => lte_nonneg hp c hc ia i, fun kr => ?_, fun x _ => rayWeight_nonneg hp x⟩
  unfold lineFactor
  cases hl : q.r.ad.lines[kr]? with
  | none => exact le_rfl
  | some l =>
    simp only
    have : 0 ≤ profileSum q (gasCell q.r a h pf c) l := by
      unfold profileSum
      refine Finset.sum_nonneg fun la _ => Finset.sum_nonneg fun x _ => ?_
      exact mul_nonneg (mul_nonneg (getD_nonneg hp.bins _) (rayWeight_nonneg hp x)) (lineProfile_nonneg hp _ l (List.mem_of_getElem? hl) _ _)
    split
    · exact zero_le_one
    · exact div_nonneg zero_le_one this

/-- rates that are not negative and connect the levels, if the operator is small enough -/
theorem solvable_of (hf : Fits q.r.s k nx nz) (hq : NlteReady q) (hp : PhysicalRun q k nx nz a) (hn : NoNegative q k nx nz pf) (lam : Bool)
    (hpre : ∀ h march, Light q k nx nz a pf h march → ∀ c, Given.InGrid k nx nz c → ∀ ia, Preconditioned (rateData q) (gasCell q.r a h pf c) (cellRays q k nx nz a h pf march lam c) ia) :
    Solvable q k nx nz a lam pf := by
  intro h march hL c hc ia x hx C hC
  have hh : 0 ≤ h c := by
    have := hL.neutral c hc
    split at this
    · rename_i hH
      rw [this]
      obtain ⟨y, ys, hy⟩ := List.exists_cons_of_ne_nil (hq.ready.hydrogen hH)
      exact hn c hc 0 y (by rw [hy]; rfl) 0 (by omega)
    · exact this.1
  obtain ⟨n1, n2⟩ := coll_rates hq hp c hc hh ia x hx C hC
  have hrad := C80_nonneg (rateData q) (gasCell q.r a h pf c) (lineFactor q (gasCell q.r a h pf c)) (Finset.range q.r.ad.wavelength.length)
    (fun la hla => Finset.mem_range.1 hla) (cellRays q k nx nz a h pf march lam c) (signs hp c hc march lam) ia (x.top + 1) (hpre h march hL c hc ia) (fun _ _ => 0) (fun _ _ _ => le_rfl)
  have hge : ∀ i j : Fin (x.top + 1), i ≠ j → C i j ≤ rate q k nx nz a h pf march lam c ia (x.top + 1) C i j := by
    intro i j hij
    have := hrad i j hij
    simp only [zero_add] at this
    exact le_add_of_nonneg_right this
  refine ⟨fun i j hij => le_trans (n1 i j) (hge i j hij), fun e j => ?_⟩
  -- follow the collisions
  have step : ∀ i j : Nat, ∀ hi : i < x.top + 1, Relation.ReflTransGen (Joined (q.colls ia)) i j → ∃ hj : j < x.top + 1,
      Relation.ReflTransGen (fun u v => u ≠ v ∧ 0 < rate q k nx nz a h pf march lam c ia (x.top + 1) C v u) (⟨i, hi⟩ : Fin (x.top + 1)) ⟨j, hj⟩ := by
    intro i j hi hij
    induction hij with
    | refl => exact ⟨hi, .refl⟩
    | tail _ hbc ih =>
      rename_i b d _
      obtain ⟨hb, ih⟩ := ih
      obtain ⟨rc, r1, r2, r3, r4⟩ := id hbc
      obtain ⟨g1, g2, -⟩ := hq.colls ia x hx rc r1
      have hd : d < x.top + 1 := by rcases r4 with ⟨-, rfl⟩ | ⟨rfl, -⟩ <;> assumption
      refine ⟨hd, ?_⟩
      by_cases hbd : b = d
      · subst hbd; exact ih
      · refine ih.tail ⟨fun e => hbd (congrArg Fin.val e), ?_⟩
        have hne : (⟨d, hd⟩ : Fin (x.top + 1)) ≠ ⟨b, hb⟩ := fun e => hbd (congrArg Fin.val e).symm
        refine lt_of_lt_of_le (n2 ⟨d, hd⟩ ⟨b, hb⟩ hne ?_) (hge _ _ hne)
        exact ⟨rc, r1, r2, r3, r4.symm.imp (fun z => ⟨z.1, z.2⟩) (fun z => ⟨z.1, z.2⟩)⟩
  obtain ⟨_, s⟩ := step j e j.2 (hp.connected ia x hx j e j.2 e.2)
  exact s

theorem solvable_lambda (hf : Fits q.r.s k nx nz) (hq : NlteReady q) (hp : PhysicalRun q k nx nz a) (hn : NoNegative q k nx nz pf) : Solvable q k nx nz a true pf := by
  refine solvable_of hf hq hp hn true fun h march hL c hc ia la hla x hx lambda _ => ?_
  have hx1 := Finset.mem_range.1 (Finset.mem_product.1 hx).1
  have hx2 := Finset.mem_range.1 (Finset.mem_product.1 hx).2
  have hI := (rays_nonneg hf hq hp hn march hL c hc la hla x hx1 hx2).1
  have hpsi : (cellRays q k nx nz a h pf march true c).psi la x = 0 := by
    show operator q.r.s true march c la x = 0
    unfold operator; rw [if_pos rfl]
  rw [hpsi]
  exact ⟨fun l _ _ _ _ => ⟨by rw [zero_mul]; exact hI, by rw [mul_zero]; exact zero_le_one⟩, fun l _ _ _ _ => ⟨by rw [zero_mul]; exact hI, by rw [mul_zero]; exact zero_le_one⟩⟩

end DexRT.Nlte
