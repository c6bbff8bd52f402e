import Verif.Lemmas.LteBatch
import Verif.Props.Lte
import Verif.Props.Emis
/-! Lemmas for C86: what determines J. -/
namespace DexRT.LteRun
open DexRT DexRT.Fs DexRT.AtmosFile DexRT.Dir DexRT.Given DexRT.Emis Classical

variable {r : Lte} {k nx nz : Nat} {a : Cond} {h : Coord2 → ℝ} {pf : Coord2 → Emis.Pops}

/-- Populations that agree on the levels the atoms have. -/
def SameLevels (r : Lte) (pf pf' : Coord2 → Emis.Pops) (c : Coord2) : Prop :=
  ∀ ia at', r.ad.atoms[ia]? = some at' → ∀ l, l < at'.top + 1 → pf c ia l = pf' c ia l

/-- The gas depends on the populations of the levels that exist. -/
theorem gas_congr (hl : LevelsExist r.ad) (pf pf' : Coord2 → Emis.Pops) (c : Coord2) (hs : SameLevels r pf pf' c) (la : Nat) (mu : Fin 3 → ℝ) :
    gasOf r a h pf la mu c = gasOf r a h pf' la mu c := by
  unfold gasOf EmisSpec.total
  have e := conts_congr (r := r) hl (pf c) (pf' c) (ltePop r a c) (ltePop r a c) hs (fun _ _ _ _ _ => rfl) la
    (point a h (a.vx c * mu 0 + a.vy c * mu 1 + a.vz c * mu 2) c) (a.vx c * mu 0 + a.vy c * mu 1 + a.vz c * mu 2) (r.ad.wavelength.getD la 0)
  have e2 := lines_congr (r := r) hl (pf c) (pf' c) hs la (point a h (a.vx c * mu 0 + a.vy c * mu 1 + a.vz c * mu 2) c) (r.ad.wavelength.getD la 0)
  have e3 : ({ point a h (a.vx c * mu 0 + a.vy c * mu 1 + a.vz c * mu 2) c with vel := a.vx c * mu 0 + a.vy c * mu 1 + a.vz c * mu 2 } : Point) =
    point a h (a.vx c * mu 0 + a.vy c * mu 1 + a.vz c * mu 2) c := rfl
  rw [e3] at e
  simp only [e, e2]

theorem march_congr (hf : Fits r.s k nx nz) (hm : topLevel r.s = 0) (W' : Nat) (b' : Bool) (m' : Nat) (E' X' : ℤ → (Fin 3 → ℝ) → Coord2 → ℝ) (la la0 la0' w w' : Nat)
    (h1 : la0 + w = la) (h2 : la0' + w' = la)
    (he : ∀ c, Given.InGrid k nx nz c → ∀ mu, (gasOf r a h pf la mu c).eta = E' la mu c ∧ (gasOf r a h pf la mu c).chi = X' la mu c)
    (march march' : Bool → Nat → ProbeIdx2 → Seg ℝ) (bc : Bool) (n : Nat) (hn : n ≤ r.s.num) (p : ProbeIdx2) (sg : Seg ℝ) :
    MarchRay2 (gasWorld r k nx nz a h pf) (envOf r.s (nx * 2 ^ k) (nz * 2 ^ k) march) (raysFrom r.s la0) bc n { p with wave := w } sg ↔
      MarchRay2 { gasWorld (r.rearranged W' b' m') k nx nz a h pf with eta := fun l mu _ c => E' l mu ⟨c 0, c 1⟩, chi := fun l mu _ c => X' l mu ⟨c 0, c 1⟩ }
        (envOf (r.rearranged W' b' m').s (nx * 2 ^ k) (nz * 2 ^ k) march') (raysFrom (r.rearranged W' b' m').s la0') bc n { p with wave := w' } sg := by
  have hl1 : (la0 : ℤ) + (w : ℤ) = la := by exact_mod_cast h1
  have hl2 : (la0' : ℤ) + (w' : ℤ) = la := by exact_mod_cast h2
  set A : RaySeg 2 → RaymarchArgs .two := fun seg => (gasWorld r k nx nz a h pf).args2 (envOf r.s (nx * 2 ^ k) (nz * 2 ^ k) march)
    (raysFrom r.s la0) bc n { p with wave := w } seg with ha
  set w2 : World .two := { gasWorld (r.rearranged W' b' m') k nx nz a h pf with eta := fun l mu _ c => E' l mu ⟨c 0, c 1⟩, chi := fun l mu _ c => X' l mu ⟨c 0, c 1⟩ } with hw2
  set mu := invertedMu (rayProps r.s.cfg r.s.len r.s.num n (cascadeComputeSize r.s.cfg (envOf r.s (nx * 2 ^ k) (nz * 2 ^ k) march).c0 n).dirs p.u p.v p.dir) (r.s.muy p.incl) with hmu
  have harg : ∀ seg, w2.args2 (envOf (r.rearranged W' b' m').s (nx * 2 ^ k) (nz * 2 ^ k) march') (raysFrom (r.rearranged W' b' m').s la0') bc n
        { p with wave := w' } seg = { A seg with eta := fun _ c => E' la mu ⟨c 0, c 1⟩, chi := fun _ c => X' la mu ⟨c 0, c 1⟩ } := by
    intro seg
    rw [hw2, ha]
    unfold World.args2
    show RaymarchArgs.mk (dim := .two) _ _ (fun _ c => E' ((la0' : ℤ) + (w' : ℤ)) mu ⟨c 0, c 1⟩)
      (fun _ c => X' ((la0' : ℤ) + (w' : ℤ)) mu ⟨c 0, c 1⟩) _ _ _ _ _ _ ((la0' : ℤ) + (w' : ℤ)) (r.bc ((la0' : ℤ) + (w' : ℤ)) _ mu) =
      RaymarchArgs.mk (dim := .two) _ _ _ _ _ _ _ _ _ _ ((la0 : ℤ) + (w : ℤ)) (r.bc ((la0 : ℤ) + (w : ℤ)) _ mu)
    rw [hl2, hl1]
    rfl
  have hray : ∀ seg fuel, raymarch (w2.args2 (envOf (r.rearranged W' b' m').s (nx * 2 ^ k) (nz * 2 ^ k) march') (raysFrom (r.rearranged W' b' m').s la0') bc n
        { p with wave := w' } seg) fuel = raymarch (A seg) fuel := by
    intro seg fuel
    rw [harg]
    refine raymarch_congr (A seg) _ _ (fun c m hm => file_blk (eta := fun _ _ => 0) (chi := fun _ _ => 0) (scale := a.scale) hf (fun _ => 0) n hn c m hm) (fun c hc0 => ?_) fuel
    change 0 ≤ ((gasWorld r k nx nz a h pf).env n).sampleLevel c at hc0
    have hcin : Given.InGrid k nx nz ⟨c 0, c 1⟩ := by
      by_contra hno
      have : ((gasWorld r k nx nz a h pf).env n).lvl c = -1 := if_neg hno
      unfold DdaEnv.sampleLevel at hc0
      rw [this] at hc0
      have := min_le_left (-1 : ℤ) ((gasWorld r k nx nz a h pf).env n).maxMip
      omega
    constructor
    · show E' la mu ⟨c 0, c 1⟩ = (gasOf r a h pf ((la0 : ℤ) + (w : ℤ)).toNat mu ⟨c 0, c 1⟩).eta
      rw [hl1]; exact ((he _ hcin mu).1).symm
    · show X' la mu ⟨c 0, c 1⟩ = (gasOf r a h pf ((la0 : ℤ) + (w : ℤ)).toNat mu ⟨c 0, c 1⟩).chi
      rw [hl1]; exact ((he _ hcin mu).2).symm
  unfold MarchRay2
  refine exists_congr fun seg => exists_congr fun fuel => exists_congr fun res => ?_
  refine and_congr Iff.rfl (and_congr ?_ Iff.rfl)
  rw [hray]

/-- The radiance at cascade 0 is determined by the gas in the grid. -/
theorem radiance_congr (hl : LevelsExist r.ad) (pf' : Coord2 → Emis.Pops) (hpf : ∀ c, Given.InGrid k nx nz c → SameLevels r pf pf' c) (hf : Fits r.s k nx nz) (hm0 : topLevel r.s = 0) (W' : Nat) (b' : Bool) (m' : Nat) (h' : Coord2 → ℝ) (la la0 la0' w w' wv wv' : Nat)
    (h1 : la0 + w = la) (h2 : la0' + w' = la) (hw : w < wv) (hw' : w' < wv')
    (he : ∀ c, Given.InGrid k nx nz c → h c = h' c)
    (march march' : Bool → Nat → ProbeIdx2 → Seg ℝ)
    (hm : Marches2 (gasWorld r k nx nz a h pf) (envOf r.s (nx * 2 ^ k) (nz * 2 ^ k) march) (raysFrom r.s la0) wv)
    (hm' : Marches2 (gasWorld (r.rearranged W' b' m') k nx nz a h' pf')
      (envOf (r.rearranged W' b' m').s (nx * 2 ^ k) (nz * 2 ^ k) march') (raysFrom (r.rearranged W' b' m').s la0') wv')
    (x z d th : Nat) (hx : x < nx * 2 ^ k) (hz : z < nz * 2 ^ k) (hd : d < r.s.cfg.p0rays) (ht : th < r.s.incl) :
    radiance2 march (nx * 2 ^ k) (nz * 2 ^ k) (upperTexelsPerRay r.s.cfg) r.s.num r.s.num ⟨x, z, d, th, w⟩ =
      radiance2 march' (nx * 2 ^ k) (nz * 2 ^ k) (upperTexelsPerRay r.s.cfg) r.s.num r.s.num ⟨x, z, d, th, w'⟩ := by
  have e1 := radiance2_wave march (nx * 2 ^ k) (nz * 2 ^ k) (upperTexelsPerRay r.s.cfg) r.s.num w r.s.num ⟨x, z, d, th, w⟩
  have e2 := radiance2_wave march' (nx * 2 ^ k) (nz * 2 ^ k) (upperTexelsPerRay r.s.cfg) r.s.num w' r.s.num ⟨x, z, d, th, w⟩
  simp only at e1 e2
  rw [e1, e2]
  have hray' : ∀ n p, Ray2 (envOf r.s (nx * 2 ^ k) (nz * 2 ^ k) march) wv n p →
      Ray2 (envOf (r.rearranged W' b' m').s (nx * 2 ^ k) (nz * 2 ^ k) march') wv' n { p with wave := w' } :=
    fun n p h => ⟨h.u, h.v, h.dir, hw', h.incl⟩
  have hrw : ∀ n p, Ray2 (envOf r.s (nx * 2 ^ k) (nz * 2 ^ k) march) wv n p →
      Ray2 (envOf r.s (nx * 2 ^ k) (nz * 2 ^ k) march) wv n { p with wave := w } :=
    fun n p h => ⟨h.u, h.v, h.dir, hw, h.incl⟩
  have hgas : ∀ c, Given.InGrid k nx nz c → ∀ mu, gasOf r a h pf la mu c = gasOf r a h' pf' la mu c := by
    intro c hc mu
    rw [gas_congr hl pf pf' c (hpf c hc) la mu]
    unfold gasOf point
    rw [he c hc]
  have hseg : ∀ bc n (p : ProbeIdx2), n ≤ r.s.num → MarchRay2 (gasWorld r k nx nz a h pf) (envOf r.s (nx * 2 ^ k) (nz * 2 ^ k) march) (raysFrom r.s la0) bc n
        { p with wave := w } (march bc n { p with wave := w }) →
      MarchRay2 (gasWorld (r.rearranged W' b' m') k nx nz a h' pf')
        (envOf (r.rearranged W' b' m').s (nx * 2 ^ k) (nz * 2 ^ k) march') (raysFrom (r.rearranged W' b' m').s la0') bc n
        { p with wave := w' } (march' bc n { p with wave := w' }) → march bc n { p with wave := w } = march' bc n { p with wave := w' } := by
    intro bc n p hn a1 a2
    exact marchRay2_unique _ _ _ _ _ _ _ _ ((march_congr hf hm0 W' b' m' (fun l mu c => (gasOf r a h' pf' l.toNat mu c).eta) (fun l mu c => (gasOf r a h' pf' l.toNat mu c).chi) la la0 la0' w w' h1 h2
      (fun c hc mu => ⟨congrArg EO.eta (hgas c hc mu), congrArg EO.chi (hgas c hc mu)⟩) march march' bc n hn p _).1 a1) a2
  refine radiance2_congr _ _ _ _ _ r.s.num (Ray2 (envOf r.s (nx * 2 ^ k) (nz * 2 ^ k) march) wv)
    (fun n q U V j _ hq hU hV hr => ray2_child (envOf r.s (nx * 2 ^ k) (nz * 2 ^ k) march) hf.valid hf.mode wv n q U V j hq hU hV hr)
    (fun n q hn hq => ?_) (fun q hq => ?_) r.s.num le_rfl _ (by rw [Nat.sub_self]; exact ray_zero hf march wv x z d th w hx hz hd ht hw)
  · have := hseg false n q hn.le (hm.1 n _ hn (hrw n q hq)) (hm'.1 n _ hn (hray' n q hq))
    simp only [this]; exact ⟨trivial, trivial⟩
  · have := hseg true r.s.num q le_rfl (hm.2 _ (hrw _ q hq)) (hm'.2 _ (hray' _ q hq))
    simp only [this]

/-- The neutral hydrogen density of the cells is unique. -/
theorem neutral_unique (hs : 0 ≤ r.sahaConst) (hw : r.haveH = false → Warm k nx nz a) (h' : Coord2 → ℝ) (h1 : NeutralOf r k nx nz a pf h) (h2 : NeutralOf r k nx nz a pf h') :
    ∀ c, Given.InGrid k nx nz c → h c = h' c := by
  intro c hc
  have e1 := h1 c hc
  have e2 := h2 c hc
  cases hH : r.haveH with
  | true => rw [hH, if_pos rfl] at e1 e2; rw [e1, e2]
  | false =>
    rw [hH] at e1 e2
    simp only [Bool.false_eq_true, if_false] at e1 e2
    obtain ⟨-, -, u, u1, u2⟩ := e1
    obtain ⟨-, -, v, v1, v2⟩ := e2
    rw [u1] at v1
    obtain rfl := Outcome.ok.inj v1
    obtain ⟨u', w1, w2, -⟩ := C50_partition (a.temperature c)
    rw [u1] at w1
    obtain rfl := Outcome.ok.inj w1
    obtain ⟨hT, hne, -⟩ := hw hH c hc
    have hp : 0 ≤ (r.sahaConst * a.temperature c) ^ (3 / 2 : ℝ) * Real.exp (-r.ionE / a.temperature c) :=
      mul_nonneg (Real.rpow_nonneg (mul_nonneg hs hT.le) _) (Real.exp_pos _).le
    have hk : 0 < a.ne c * u := mul_pos hne (by linarith)
    set q := (r.sahaConst * a.temperature c) ^ (3 / 2 : ℝ) * Real.exp (-r.ionE / a.temperature c) with hq
    have e3 : h c * (a.ne c * u + 2 * q) = h' c * (a.ne c * u + 2 * q) := by
      have a1 : h c * 2 * (r.sahaConst * a.temperature c) ^ (3 / 2 : ℝ) * Real.exp (-r.ionE / a.temperature c) = h c * (2 * q) := by rw [hq]; ring
      have a2 : h' c * 2 * (r.sahaConst * a.temperature c) ^ (3 / 2 : ℝ) * Real.exp (-r.ionE / a.temperature c) = h' c * (2 * q) := by rw [hq]; ring
      rw [a1] at u2
      rw [a2] at v2
      nlinarith
    exact mul_right_cancel₀ (by linarith) e3

/-- Source function of the gas of a cell that emits thermally: between 0 and `hi`. -/
theorem gas_between (hr : LevelsExist r.ad) (la : Nat) (ht : Thermal r k nx nz a la) (c : Coord2) (hc : Given.InGrid k nx nz c) (mu : Fin 3 → ℝ) (hi : ℝ)
    (h1 : EmisSpec.planck r.k (r.ad.wavelength.getD la 0) (a.temperature c) ≤ hi)
    (h2 : ∀ l ∈ r.ad.lines, l.blue ≤ la → la < l.red → EmisSpec.planck r.k l.lambda0 (a.temperature c) ≤ hi) :
    0 ≤ (gas r a h la mu c).chi ∧ 0 ≤ (gas r a h la mu c).eta ∧ (gas r a h la mu c).eta ≤ hi * (gas r a h la mu c).chi := by
  obtain ⟨k1, k2, k3, k4, k5, k6, k7, k8, k9⟩ := ht.consts
  obtain ⟨c1, c2, c3⟩ := ht.cells c hc
  have hw := ht.wave
  set w := r.ad.wavelength.getD la 0 with hwd
  set n := ltePop r a c with hn
  set p := point a h (a.vx c * mu 0 + a.vy c * mu 1 + a.vz c * mu 2) c with hp
  have hT : p.temperature = a.temperature c := rfl
  have hpos : ∀ ia at', r.ad.atoms[ia]? = some at' → ∀ l, l < at'.top + 1 → 0 < n ia l := by
    intro ia x hx l hl
    obtain ⟨x1, x2⟩ := ht.atoms x (List.mem_of_getElem? hx)
    have := (C27_total (kB := r.k.kB) (dbc := r.k.dbc) (fmin := r.k.fmin) (lv := x.lv) (T := a.temperature c) (ne := a.ne c) (ntot := x.abundance * a.nhTot c)
      ⟨k7, k8, k9, x2, c1, c2, mul_pos x1 c3⟩).1 ⟨l, hl⟩
    rw [hn]
    unfold ltePop EmisSpec.lte
    rw [hx]
    simp only [Option.bind_some, hl, dif_pos, Option.getD_some]
    exact this
  have hsum : ∀ {T : Type} (l : List T) (f g : T → ℝ), (∀ x ∈ l, 0 ≤ g x ∧ 0 ≤ f x ∧ f x ≤ hi * g x) →
      0 ≤ (l.map g).sum ∧ 0 ≤ (l.map f).sum ∧ (l.map f).sum ≤ hi * (l.map g).sum := by
    intro T l f g hl
    induction l with
    | nil => simp
    | cons x l ih =>
      obtain ⟨i1, i2, i3⟩ := ih fun y hy => hl y (List.mem_cons_of_mem _ hy)
      obtain ⟨j1, j2, j3⟩ := hl x List.mem_cons_self
      simp only [List.map_cons, List.sum_cons]
      refine ⟨by linarith, by linarith, by rw [mul_add]; linarith⟩
  have hplanck : ∀ v, 0 < v → 0 ≤ EmisSpec.planck r.k v (a.temperature c) := by
    intro v hv
    unfold EmisSpec.planck
    have hx : 0 < r.k.hck / (v * a.temperature c) := by positivity
    have : 0 < Real.exp (r.k.hck / (v * a.temperature c)) - 1 := by
      have := Real.add_one_lt_exp hx.ne'
      linarith
    positivity
  have hline := hsum (r.ad.lines.filter fun l => l.blue ≤ la ∧ la < l.red)
    (fun l => EmisSpec.lineEmissivity r.k r.phi l (EmisSpec.massOf r.ad l) n p w) (fun l => EmisSpec.lineOpacity r.k r.phi l (EmisSpec.massOf r.ad l) n p w) (fun l hl => ?_)
  · have hcont := hsum (r.ad.conts.filter fun l => l.blue ≤ la ∧ la < l.red)
      (fun x => EmisSpec.contEmissivity r.k x (EmisSpec.sigma la x) n n p w) (fun x => EmisSpec.contOpacity r.k x (EmisSpec.sigma la x) n n p w) (fun x hx => ?_)
    · obtain ⟨i1, i2, i3⟩ := hline
      obtain ⟨j1, j2, j3⟩ := hcont
      have ee : (gas r a h la mu c) = ⟨(EmisSpec.lines r.k r.phi r.ad la n p w).eta + (EmisSpec.conts r.k r.ad la (EmisSpec.sigma la) n n p w).eta,
        (EmisSpec.lines r.k r.phi r.ad la n p w).chi + (EmisSpec.conts r.k r.ad la (EmisSpec.sigma la) n n p w).chi⟩ := rfl
      rw [ee]
      unfold EmisSpec.lines EmisSpec.conts
      refine ⟨add_nonneg i1 j1, add_nonneg i2 j2, ?_⟩
      show _ + _ ≤ hi * (_ + _)
      rw [mul_add]
      exact add_le_add i3 j3
    · obtain ⟨hx1, hx2⟩ := List.mem_filter.1 hx
      obtain ⟨at', ha1, ha2, ha3⟩ := hr.2 x hx1
      have pi := hpos _ _ ha1 _ ha2
      have pj := hpos _ _ ha1 _ ha3
      have hs : 0 ≤ EmisSpec.sigma la x := by
        unfold EmisSpec.sigma
        cases hq : x.sigma[la - x.blue]? with
        | none => simp
        | some v => simpa using ht.sigma x hx1 v (List.mem_of_getElem? hq)
      have e1 := C54_planck_continuum r.k x (EmisSpec.sigma la x) w n p pi.ne' pj.ne' k6 hw c1
      have e2 : 0 ≤ EmisSpec.contOpacity r.k x (EmisSpec.sigma la x) n n p w := by
        unfold EmisSpec.contOpacity
        refine mul_nonneg ?_ hs
        have e3 : n x.atom x.j * (n x.atom x.i / n x.atom x.j) = n x.atom x.i := by field_simp
        rw [e3]
        have : Real.exp (-r.k.hck / (w * p.temperature)) ≤ 1 := Real.exp_le_one_iff.2 (div_nonpos_of_nonpos_of_nonneg (by linarith) (mul_pos hw c1).le)
        nlinarith
      rw [e1]
      exact ⟨e2, mul_nonneg (hplanck w hw) e2, mul_le_mul_of_nonneg_right h1 e2⟩
  · obtain ⟨hl1, hl2⟩ := List.mem_filter.1 hl
    have hl3 : l.blue ≤ la ∧ la < l.red := by simpa using hl2
    obtain ⟨l1, l2, gi, gj, l3, l4, l5, l6, l7⟩ := ht.lines l hl1 hl3.1 hl3.2
    obtain ⟨at', ha1, ha2, ha3⟩ := hr.1 l hl1
    have pi := hpos _ _ ha1 _ ha2
    have e1 := C54_planck_line r.k r.phi l (EmisSpec.massOf r.ad l) w gi gj n p ⟨l3, l4⟩ l5 l6 (l7 c hc) k6 l1 c1
    have e2 : 0 ≤ EmisSpec.lineOpacity r.k r.phi l (EmisSpec.massOf r.ad l) n p w := by
      unfold EmisSpec.lineOpacity
      have hb : l.bij = gj / gi * l.bji := by field_simp; linarith
      refine mul_nonneg (mul_nonneg (by positivity) ?_) ?_
      · rw [show n l.atom l.j = _ from l7 c hc, hb]
        have : Real.exp (-r.k.hck / (l.lambda0 * a.temperature c)) ≤ 1 := Real.exp_le_one_iff.2 (div_nonpos_of_nonpos_of_nonneg (by linarith) (mul_pos l1 c1).le)
        have h0 : 0 ≤ n l.atom l.i * (gj / gi) * l.bji := mul_nonneg (mul_nonneg pi.le (by positivity)) l2
        nlinarith
      · unfold EmisSpec.profile EmisSpec.dopplerWidth
        refine div_nonneg (ht.phi _ _) ?_
        have := Real.sqrt_nonneg (2 * r.k.kBu * p.temperature / EmisSpec.massOf r.ad l + p.vturb ^ 2)
        positivity
    rw [e1]
    exact ⟨e2, mul_nonneg (hplanck _ l1) e2, mul_le_mul_of_nonneg_right (h2 l hl1 hl3.1 hl3.2) e2⟩

end DexRT.LteRun
