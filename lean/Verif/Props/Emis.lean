import Verif.Lemmas.Emis
import Verif.Props.Interp
/-!
# C54, C57: emissivity and opacity
-/
namespace DexRT
open Emis

variable (k : Consts) (phi : ℝ → ℝ → ℝ) (ad : AData)

/-! ### C54 -/

/-- C54 (value): for all well-formed atomic data, every wavelength of the grid, all populations, every cell, every mode,
and with or without lists of active transitions, the result is the sum of the textbook contributions of the active
transitions the mode selects, no access is out of bounds, and the LTE populations used for continua are those of the
cell (`update`) or the ones passed in. -/
theorem C54_emis_opac_partial (hw : EmisSpec.WellFormed ad) (la : Nat) (w : ℝ) (hla : ad.wavelength[la]? = some w)
    (n scratch : Pops) (p : Point) (active activeCont : Option (List Nat)) (h1 : IsSetL ad la active)
    (h2 : IsSetC ad la activeCont) (update : Bool) (mode : Mode) :
    ∃ nStar scratch', emisOpac k phi ad la n scratch p active activeCont update mode =
        .ok (EmisSpec.total k phi ad la n nStar p w mode, scratch') ∧
      (if update then EmisSpec.HoldsLte k ad p nStar else nStar = scratch) ∧
      (scratch' = scratch ∨ scratch' = nStar) := by
  refine ⟨if update then freshLte k ad p scratch else scratch, _,
    emisOpac_eq k phi ad hw la w hla n scratch p active activeCont h1 h2 update mode, ?_, ?_⟩
  · cases update
    · simp
    · simpa using holds_fresh k ad p scratch
  · split
    · next h =>
      cases update
      · simp at h
      · simp
    · exact Or.inl rfl

/-- C54 (no part lost or counted twice): what is computed for everything is what is computed for the continua plus what
is computed for the lines. -/
theorem C54_modes (hw : EmisSpec.WellFormed ad) (la : Nat) (w : ℝ) (hla : ad.wavelength[la]? = some w)
    (n scratch : Pops) (p : Point) (active activeCont : Option (List Nat)) (h1 : IsSetL ad la active)
    (h2 : IsSetC ad la activeCont) (update : Bool) :
    ∃ a s d x y z, emisOpac k phi ad la n scratch p active activeCont update .All = .ok (a, x) ∧
      emisOpac k phi ad la n scratch p active activeCont update .StaticOnly = .ok (s, y) ∧
      emisOpac k phi ad la n scratch p active activeCont update .DynamicOnly = .ok (d, z) ∧
      a.eta = s.eta + d.eta ∧ a.chi = s.chi + d.chi := by
  refine ⟨_, _, _, _, _, _, emisOpac_eq k phi ad hw la w hla n scratch p active activeCont h1 h2 update _,
    emisOpac_eq k phi ad hw la w hla n scratch p active activeCont h1 h2 update _,
    emisOpac_eq k phi ad hw la w hla n scratch p active activeCont h1 h2 update _, ?_, ?_⟩ <;>
    simp only [EmisSpec.total] <;> ring

/-- C54 (lists of active transitions): passing the lists or letting the function search gives the same result. -/
theorem C54_sets (hw : EmisSpec.WellFormed ad) (la : Nat) (n scratch : Pops) (p : Point)
    (active activeCont active' activeCont' : Option (List Nat)) (h1 : IsSetL ad la active) (h2 : IsSetC ad la activeCont)
    (h1' : IsSetL ad la active') (h2' : IsSetC ad la activeCont') (update : Bool) (mode : Mode) :
    emisOpac k phi ad la n scratch p active activeCont update mode =
      emisOpac k phi ad la n scratch p active' activeCont' update mode := by
  cases hla : ad.wavelength[la]? with
  | none => unfold emisOpac; simp [readAt, hla]
  | some w =>
    rw [emisOpac_eq k phi ad hw la w hla n scratch p active activeCont h1 h2,
      emisOpac_eq k phi ad hw la w hla n scratch p active' activeCont' h1' h2']

/-- C54 (LTE, continua): if the populations are the LTE populations, the source function of every continuum is the Planck
function. -/
theorem C54_planck_continuum (c : Cont) (s w : ℝ) (n : Pops) (p : Point) (hi : n c.atom c.i ≠ 0) (hj : n c.atom c.j ≠ 0)
    (hk : 0 < k.hck) (hw : 0 < w) (hT : 0 < p.temperature) :
    EmisSpec.contEmissivity k c s n n p w = EmisSpec.planck k w p.temperature * EmisSpec.contOpacity k c s n n p w := by
  unfold EmisSpec.contEmissivity EmisSpec.contOpacity EmisSpec.planck
  have hx : 0 < k.hck / (w * p.temperature) := by positivity
  have he : Real.exp (-k.hck / (w * p.temperature)) = (Real.exp (k.hck / (w * p.temperature)))⁻¹ := by
    rw [← Real.exp_neg]; congr 1; ring
  have h1 : Real.exp (k.hck / (w * p.temperature)) - 1 ≠ 0 := by
    have := Real.add_one_lt_exp hx.ne'
    linarith
  have h0 : Real.exp (k.hck / (w * p.temperature)) ≠ 0 := (Real.exp_pos _).ne'
  rw [he]
  generalize Real.exp (k.hck / (w * p.temperature)) = E at *
  field_simp

/-- C54 (LTE, lines): with Einstein coefficients that satisfy the Einstein relations and populations in Boltzmann's
ratio, the source function of a line is the Planck function at its rest wavelength. -/
theorem C54_planck_line (l : Line) (mass w gi gj : ℝ) (n : Pops) (p : Point) (hg : 0 < gi ∧ 0 < gj)
    (hB : gi * l.bij = gj * l.bji) (hA : l.aji = 10 ^ 18 * k.twohc2 / l.lambda0 ^ 5 * l.bji)
    (hn : n l.atom l.j = n l.atom l.i * (gj / gi) * Real.exp (-k.hck / (l.lambda0 * p.temperature)))
    (hk : 0 < k.hck) (h0 : 0 < l.lambda0) (hT : 0 < p.temperature) :
    EmisSpec.lineEmissivity k phi l mass n p w =
      EmisSpec.planck k l.lambda0 p.temperature * EmisSpec.lineOpacity k phi l mass n p w := by
  unfold EmisSpec.lineEmissivity EmisSpec.lineOpacity EmisSpec.planck
  obtain ⟨hgi, hgj⟩ := hg
  have hx : 0 < k.hck / (l.lambda0 * p.temperature) := by positivity
  have he : Real.exp (-k.hck / (l.lambda0 * p.temperature)) = (Real.exp (k.hck / (l.lambda0 * p.temperature)))⁻¹ := by
    rw [← Real.exp_neg]; congr 1; ring
  have h1 : Real.exp (k.hck / (l.lambda0 * p.temperature)) - 1 ≠ 0 := by
    have := Real.add_one_lt_exp hx.ne'
    linarith
  have hE : Real.exp (k.hck / (l.lambda0 * p.temperature)) ≠ 0 := (Real.exp_pos _).ne'
  have hB' : l.bij = gj / gi * l.bji := by field_simp; linarith
  rw [hn, hA, hB', he]
  generalize Real.exp (k.hck / (l.lambda0 * p.temperature)) = E at *
  generalize EmisSpec.profile k phi l mass p w = P
  field_simp

/-! ### C54: any wavelength -/

/-- The cross-section between grid points: linear between the grid points `la` and `la + 1` if both belong to the
continuum, else that at `la`. -/
noncomputable def sigmaBetween (ad : AData) (la : Nat) (lambda : ℝ) (c : Cont) : ℝ :=
  if la + 1 < c.red then
    EmisSpec.sigma la c + (lambda - (ad.wavelength[la]?).getD 0) /
      ((ad.wavelength[la + 1]?).getD 0 - (ad.wavelength[la]?).getD 0) * (EmisSpec.sigma (la + 1) c - EmisSpec.sigma la c)
  else EmisSpec.sigma la c

theorem contSpec_accum (hw : EmisSpec.WellFormed ad) (la : Nat) (n nStar : Pops) (p : Point) (w : ℝ) (r : EO) :
    accum (contTermSpec k ad n nStar p la w) (scan Cont.isActive ad.conts la) r =
      .ok (r.add (EmisSpec.conts k ad la (sigmaBetween ad la w) n nStar p w)) := by
  have hdef : ∀ kr ∈ scan Cont.isActive ad.conts la, contTermSpec k ad n nStar p la w kr =
      .ok (((ad.conts[kr]?).map (contEO k n nStar p w (sigmaBetween ad la w))).getD ⟨0, 0⟩) := by
    intro kr hk
    obtain ⟨t, ht, h2⟩ := (mem_scan _ _ _ _).mp hk
    rw [cont_isActive] at h2
    have hs := hw.sigma t (List.mem_of_getElem? ht)
    have hg := hw.grid t (List.mem_of_getElem? ht)
    unfold contTermSpec
    rw [readAt_some _ _ _ ht, ht]
    simp only [Outcome.ok_bind, Option.map_some, Option.getD_some]
    by_cases h3 : la + 1 < t.red
    · have hm : min (la + 1) (t.red - 1) = la + 1 := by omega
      have e0 : ad.wavelength[la]? = some ad.wavelength[la] := List.getElem?_eq_getElem (by omega)
      have e1 : ad.wavelength[la + 1]? = some ad.wavelength[la + 1] := List.getElem?_eq_getElem (by omega)
      rw [hm, if_neg (by omega), sigmaAt_eq t la h2.1 h2.2 hs, sigmaAt_eq t (la + 1) (by omega) h3 hs]
      simp only [readAt_some _ _ _ e0, readAt_some _ _ _ e1, Outcome.ok_bind, cont_uv]
      unfold contEO sigmaBetween
      rw [if_pos h3, e0, e1]
      simp only [Option.getD_some]
      congr 3 <;> ring
    · have hm : min (la + 1) (t.red - 1) = la := by omega
      rw [hm, if_pos rfl, sigmaAt_eq t la h2.1 h2.2 hs]
      simp only [Outcome.ok_bind, cont_uv]
      unfold contEO sigmaBetween
      rw [if_neg h3]
      congr 3 <;> ring
  rw [accum_eq _ _ _ _ hdef, scan_map Cont.isActive ad.conts la _ (contEO k n nStar p w (sigmaBetween ad la w)) fun kr t h => by rw [h]; rfl]
  have ef : (ad.conts.filter fun t => t.isActive la) = ad.conts.filter fun l => l.blue ≤ la ∧ la < l.red :=
    List.filter_congr fun l _ => by rw [Bool.eq_iff_iff, cont_isActive]; simp
  rw [ef]
  unfold sumEO EmisSpec.conts
  simp only [List.map_map]
  rfl

theorem emisOpacSpec_at (hw : EmisSpec.WellFormed ad) (n scratch : Pops) (p : Point) (lambda : ℝ) (la : Nat)
    (hub : upperBound ad.wavelength (some lambda) = .ok (la + 1)) :
    emisOpacSpec k phi ad lambda n scratch p =
      .ok ((EmisSpec.lines k phi ad la n p lambda).add
        (EmisSpec.conts k ad la (sigmaBetween ad la lambda) n (freshLte k ad p scratch) p lambda),
        if ad.conts.any (fun t => t.isActive la) then freshLte k ad p scratch else scratch) := by
  unfold emisOpacSpec
  rw [hub]
  simp only [Outcome.ok_bind, Nat.succ_ne_zero, if_false, Nat.add_sub_cancel, lines_accum k phi ad hw, eo_zero_add]
  by_cases h : (ad.conts.any fun t => t.isActive la) = true
  · simp only [h, Bool.not_true, Bool.false_eq_true, if_false, contSpec_accum k ad hw, Outcome.ok_bind, if_true]
  · rw [Bool.not_eq_true] at h
    simp only [h, Bool.not_false, if_true, Bool.false_eq_true, if_false, no_active ad la h, eo_add_zero]

/-- C54 (any wavelength): for a sorted grid and every wavelength at or above its first, with `la` the last grid point not
above it: the transitions active at `la` contribute at the wavelength asked for, continua with the linearly interpolated
cross-section; no access is out of bounds. Below the grid the result is zero. -/
theorem C54_any_wavelength (hw : EmisSpec.WellFormed ad) (hs : ad.wavelength.Pairwise (· < ·)) (n scratch : Pops)
    (p : Point) (lambda : ℝ) :
    ((∀ w ∈ ad.wavelength, lambda < w) → emisOpacSpec k phi ad lambda n scratch p = .ok (⟨0, 0⟩, scratch)) ∧
    ∀ la (h : la < ad.wavelength.length), ad.wavelength[la] ≤ lambda →
      (∀ h' : la + 1 < ad.wavelength.length, lambda < ad.wavelength[la + 1]) →
      ∃ nStar scratch', EmisSpec.HoldsLte k ad p nStar ∧ emisOpacSpec k phi ad lambda n scratch p =
        .ok ((EmisSpec.lines k phi ad la n p lambda).add
          (EmisSpec.conts k ad la (sigmaBetween ad la lambda) n nStar p lambda), scratch') := by
  obtain ⟨u, hu, hul, hb, ha⟩ := C37_upper_bound ad.wavelength (hs.imp le_of_lt) lambda
  refine ⟨fun h => ?_, fun la h h1 h2 => ?_⟩
  · have : u = 0 := by
      rcases Nat.eq_zero_or_pos u with h0 | h0
      · exact h0
      · exact absurd (h _ (List.getElem_mem (show 0 < ad.wavelength.length by omega)))
          (not_lt.mpr (hb 0 (by omega) h0))
    unfold emisOpacSpec
    rw [hu, this]; simp
  · have hlau : la < u := by
      by_contra hc
      exact absurd (ha la h (by omega)) (not_lt.mpr h1)
    have : u = la + 1 := by
      rcases Nat.lt_or_ge (la + 1) u with h3 | h3
      · exact absurd (h2 (by omega)) (not_lt.mpr (hb (la + 1) (by omega) h3))
      · omega
    rw [this] at hu
    exact ⟨_, _, holds_fresh k ad p scratch, emisOpacSpec_at k phi ad hw n scratch p lambda la hu⟩

/-- C54 (consistency): asked for a wavelength of the grid by its value, the result is that for the grid point. -/
theorem C54_on_grid (hw : EmisSpec.WellFormed ad) (hs : ad.wavelength.Pairwise (· < ·)) (n scratch : Pops) (p : Point)
    (la : Nat) (w : ℝ) (hla : ad.wavelength[la]? = some w) :
    emisOpacSpec k phi ad w n scratch p = emisOpac k phi ad la n scratch p none none true .All := by
  obtain ⟨u, hu, hul, hb, ha⟩ := C37_upper_bound ad.wavelength (hs.imp le_of_lt) w
  obtain ⟨hlt, hwe⟩ := List.getElem?_eq_some_iff.mp hla
  have hlau : la < u := by
    by_contra hc
    exact absurd (ha la hlt (by omega)) (not_lt.mpr hwe.le)
  have : u = la + 1 := by
    rcases Nat.lt_or_ge (la + 1) u with h3 | h3
    · have h4 := hb (la + 1) (by omega) h3
      have h5 := List.pairwise_iff_getElem.mp hs la (la + 1) hlt (by omega) (by omega)
      rw [hwe] at h5
      exact absurd h5 (not_lt.mpr h4)
    · omega
  rw [this] at hu
  rw [emisOpacSpec_at k phi ad hw n scratch p w la hu,
    emisOpac_eq k phi ad hw la w hla n scratch p none none (Or.inl rfl) (Or.inl rfl)]
  have e : ∀ c, sigmaBetween ad la w c = EmisSpec.sigma la c := by
    intro c
    unfold sigmaBetween
    split
    · rw [hla]; simp
    · rfl
  have e2 : sigmaBetween ad la w = EmisSpec.sigma la := funext e
  rw [e2]
  simp [EmisSpec.total, EO.add]

/-- One continuum on the two wavelengths `w0 < w1`, ending at the first. -/
noncomputable def edgeData : AData :=
  ⟨[1, 2], [], [⟨0, 1, 0, 0, 1, [1]⟩], [⟨1, 1, 1, fun _ => ⟨0, 1, 0⟩⟩]⟩

/-- C54 (refuted: no contribution beyond the edge): a continuum keeps its last cross-section at all wavelengths between
its last grid point and the next (and, at the end of the grid, at all longer wavelengths): here the continuum ends at
wavelength 1, and at every wavelength between 1 and 2 it still contributes. -/
theorem C54_edge_refuted (lambda : ℝ) (h1 : 1 < lambda) (h2 : lambda < 2) :
    sigmaBetween edgeData 0 lambda ⟨0, 1, 0, 0, 1, [1]⟩ = 1 ∧
      ∀ n scratch p, ∃ nStar scratch', EmisSpec.HoldsLte k edgeData p nStar ∧
        emisOpacSpec k phi edgeData lambda n scratch p =
          .ok (⟨EmisSpec.contEmissivity k ⟨0, 1, 0, 0, 1, [1]⟩ 1 n nStar p lambda,
            EmisSpec.contOpacity k ⟨0, 1, 0, 0, 1, [1]⟩ 1 n nStar p lambda⟩, scratch') := by
  have hsig : sigmaBetween edgeData 0 lambda ⟨0, 1, 0, 0, 1, [1]⟩ = 1 := by
    unfold sigmaBetween EmisSpec.sigma; simp
  refine ⟨hsig, fun n scratch p => ?_⟩
  have hwf : EmisSpec.WellFormed edgeData := by
    constructor <;> simp [edgeData]
  have hs : edgeData.wavelength.Pairwise (· < ·) := by simp [edgeData]
  obtain ⟨nStar, scratch', h3, h4⟩ := (C54_any_wavelength k phi edgeData hwf hs n scratch p lambda).2 0 (by simp [edgeData])
    (by simpa [edgeData] using h1.le) (fun _ => by simpa [edgeData] using h2)
  refine ⟨nStar, scratch', h3, ?_⟩
  rw [h4]
  congr 2
  simp only [EmisSpec.lines, EmisSpec.conts, EO.add]
  have e1 : edgeData.lines = [] := rfl
  have e2 : edgeData.conts = [⟨0, 1, 0, 0, 1, [1]⟩] := rfl
  rw [e1, e2]
  simp [hsig]

/-! ### C54: the classic scheme -/

/-- C54 (classic scheme): whatever the comparison of speeds says, a cell sampled by a ray has every active line and every
active continuum exactly once: lines are either in the base value (at rest) or added for the ray (moving). -/
theorem C54_classic_once (hw : EmisSpec.WellFormed ad) (la : Nat) (w : ℝ) (hla : ad.wavelength[la]? = some w)
    (n scratch : Pops) (p rest : Point) (staticOnly : Bool) :
    ∃ base s' nStar, emisOpac k phi ad la n scratch rest (some (scan Line.isActive ad.lines la))
        (some (scan Cont.isActive ad.conts la)) true (baseMode .VelocityDependent staticOnly) = .ok (base, s') ∧
      EmisSpec.HoldsLte k ad rest nStar ∧
      classicSample k phi ad la n p (dynamicOpac ad staticOnly la) base =
        .ok ((EmisSpec.conts k ad la (EmisSpec.sigma la) n nStar rest w).add
          (EmisSpec.lines k phi ad la n (if staticOnly then p else rest) w)) := by
  obtain ⟨nStar, s', h1, h2, _⟩ := C54_emis_opac_partial k phi ad hw la w hla n scratch rest
    (some (scan Line.isActive ad.lines la)) (some (scan Cont.isActive ad.conts la)) (Or.inr rfl) (Or.inr rfl) true
    (baseMode .VelocityDependent staticOnly)
  rw [if_pos rfl] at h2
  refine ⟨_, s', nStar, h1, h2, ?_⟩
  by_cases h0 : (scan Line.isActive ad.lines la).length = 0
  · have hl : ∀ q, EmisSpec.lines k phi ad la n q w = ⟨0, 0⟩ := by
      intro q
      have h3 := lines_accum k phi ad hw la n q w ⟨0, 0⟩
      rw [List.length_eq_zero_iff.mp h0, eo_zero_add] at h3
      simp only [accum] at h3
      exact (Outcome.ok.inj h3).symm
    unfold classicSample
    simp only [h0, gt_iff_lt, lt_irrefl, decide_false, Bool.and_false, Bool.false_eq_true, if_false]
    cases staticOnly <;> simp [baseMode, EmisSpec.total, hl, eo_add_zero]
  · obtain ⟨nS, s2, h3, _, _⟩ := C54_emis_opac_partial k phi ad hw la w hla n (fun _ _ => 0) p
      (some (scan Line.isActive ad.lines la)) none (Or.inr rfl) (Or.inl rfl) true .DynamicOnly
    have hd : dynamicOpac ad staticOnly la = staticOnly := by
      unfold dynamicOpac; simp [h0]
    unfold classicSample
    rw [hd, h3]
    cases staticOnly with
    | true =>
      have : (scan Line.isActive ad.lines la).length > 0 := by omega
      simp [this, baseMode, EmisSpec.total]
    | false =>
      simp only [Bool.false_and, Bool.false_eq_true, if_false, baseMode, EmisSpec.total, EO.add]
      congr 2 <;> ring

/-! ### C57: LTE populations used for a batch of wavelengths -/

theorem base_total (la : Nat) (n nStar : Pops) (p : Point) (w : ℝ) (contents : BaseMip) (moving : Bool) :
    EmisSpec.total k phi ad la n nStar p w (baseMode contents moving) =
      EmisSpec.base k phi ad la n nStar p w contents moving := by
  cases contents <;> cases moving <;> simp [baseMode, EmisSpec.total, EmisSpec.base, EmisSpec.linesInBase]

theorem fillMip0_total (hw : EmisSpec.WellFormed ad) (n scratch : Pops) (p : Point) (contents : BaseMip)
    (static : Nat → Bool) (laStart laEnd : Nat) (hg : laEnd ≤ ad.wavelength.length) (hlt : laStart < laEnd)
    (h : (∃ c ∈ ad.conts, c.blue ≤ laStart ∧ laStart < c.red) ∨
      ∀ c ∈ ad.conts, ∀ la, laStart ≤ la → la < laEnd → ¬ (c.blue ≤ la ∧ la < c.red)) :
    ∃ res scratch' nStar, fillMip0 k phi ad n p contents static laStart laEnd scratch = .ok (res, scratch') ∧
      EmisSpec.HoldsLte k ad p nStar ∧ res.length = laEnd - laStart ∧
      (∀ wave (hwv : wave < res.length) w, ad.wavelength[laStart + wave]? = some w →
        res[wave] = EmisSpec.total k phi ad (laStart + wave) n nStar p w (baseMode contents (static wave))) ∧
      ((∃ c ∈ ad.conts, c.blue ≤ laStart ∧ laStart < c.red) → scratch' = nStar) := by
  -- a batch from `first` on, with a scratch array that is not changed any more
  have tail : ∀ count first (sc : Pops), 0 < first → laStart + first + count ≤ ad.wavelength.length →
      ∃ res, fillWaves k phi ad n p contents static laStart count first sc = .ok (res, sc) ∧ res.length = count ∧
        ∀ wave (hwv : wave < res.length) w, ad.wavelength[laStart + (first + wave)]? = some w →
          res[wave] = EmisSpec.total k phi ad (laStart + (first + wave)) n sc p w (baseMode contents (static (first + wave))) := by
    intro count
    induction count with
    | zero => intro first sc _ _; exact ⟨[], rfl, rfl, fun wave h => absurd h (by simp)⟩
    | succ count ih =>
      intro first sc hf hb
      have hla : ad.wavelength[laStart + first]? = some ad.wavelength[laStart + first] :=
        List.getElem?_eq_getElem (by omega)
      obtain ⟨nS, s', e1, e2, e3⟩ := C54_emis_opac_partial k phi ad hw (laStart + first) _ hla n sc p
        (some (scan Line.isActive ad.lines (laStart + first))) (some (scan Cont.isActive ad.conts (laStart + first)))
        (Or.inr rfl) (Or.inr rfl) (decide (first = 0)) (baseMode contents (static first))
      rw [if_neg (by simp; omega)] at e2
      have hs' : s' = sc := by rcases e3 with h | h <;> rw [h]; exact e2
      subst hs'
      subst e2
      obtain ⟨res, r1, r2, r3⟩ := ih (first + 1) nS (by omega) (by omega)
      refine ⟨EmisSpec.total k phi ad (laStart + first) n nS p ad.wavelength[laStart + first]
        (baseMode contents (static first)) :: res, ?_, by rw [List.length_cons, r2], ?_⟩
      · rw [fillWaves]
        simp only [e1, r1, Outcome.ok_bind]
      · intro wave hwv w hwl
        cases wave with
        | zero =>
          simp only [Nat.add_zero] at hwl ⊢
          rw [hla] at hwl
          rw [← Option.some.inj hwl]; rfl
        | succ wave =>
          have := r3 wave (by simpa using hwv) w (by rw [show first + 1 + wave = first + (wave + 1) by omega]; exact hwl)
          rw [List.getElem_cons_succ, this, show first + 1 + wave = first + (wave + 1) by omega]
  obtain ⟨count, hc⟩ : ∃ count, laEnd - laStart = count + 1 := ⟨laEnd - laStart - 1, by omega⟩
  have hla : ad.wavelength[laStart + 0]? = some ad.wavelength[laStart + 0] := List.getElem?_eq_getElem (by omega)
  have hla' : ad.wavelength[laStart]? = some ad.wavelength[laStart] := hla
  unfold fillMip0
  rw [hc]
  -- the first wavelength
  have hstep : ∃ scr, emisOpac k phi ad (laStart + 0) n scratch p (some (scan Line.isActive ad.lines (laStart + 0)))
      (some (scan Cont.isActive ad.conts (laStart + 0))) (decide (0 = 0)) (baseMode contents (static 0)) =
        .ok (EmisSpec.total k phi ad (laStart + 0) n (freshLte k ad p scratch) p ad.wavelength[laStart + 0]
          (baseMode contents (static 0)), scr) ∧
      scr = if ad.conts.any (fun t => t.isActive laStart) then freshLte k ad p scratch else scratch := by
    refine ⟨_, emisOpac_eq k phi ad hw (laStart + 0) _ hla n scratch p _ _ (Or.inr rfl) (Or.inr rfl) _ _, ?_⟩
    have hb : baseMode contents (static 0) ≠ .DynamicOnly := by
      cases contents <;> simp [baseMode]; cases static 0 <;> simp
    simp [hb]
  obtain ⟨scr, hs1, hs2⟩ := hstep
  obtain ⟨res, r1, r2, r3⟩ := tail count 1 scr (by omega) (by omega)
  refine ⟨EmisSpec.total k phi ad (laStart + 0) n (freshLte k ad p scratch) p ad.wavelength[laStart + 0]
    (baseMode contents (static 0)) :: res, scr, freshLte k ad p scratch, ?_, holds_fresh k ad p scratch, by rw [List.length_cons, r2], ?_, ?_⟩
  · have hd : decide ((0 : ℕ) = 0) = true := rfl
    rw [fillWaves]
    rw [hd] at hs1
    simp only [decide_true, hs1, r1, Outcome.ok_bind, Nat.zero_add]
  · intro wave hwv w hwl
    cases wave with
    | zero =>
      rw [hla] at hwl
      rw [← Option.some.inj hwl]; rfl
    | succ wave =>
      have hw' : wave < res.length := by simpa using hwv
      have h3 := r3 wave hw' w (by rw [show 1 + wave = wave + 1 by omega]; exact hwl)
      rw [List.getElem_cons_succ, h3, show 1 + wave = wave + 1 by omega]
      rcases h with ⟨c, hcm, hca⟩ | h
      · have : (ad.conts.any fun t => t.isActive laStart) = true := by
          rw [List.any_eq_true]; exact ⟨c, hcm, (cont_isActive c laStart).mpr hca⟩
        rw [hs2, this]; rfl
      · have hno : (ad.conts.any fun t => t.isActive (laStart + (wave + 1))) = false := by
          rw [List.any_eq_false]
          intro c hcm hc'
          exact h c hcm _ (by omega) (by omega) ((cont_isActive c _).mp hc')
        unfold EmisSpec.total
        simp only [no_active ad _ hno]
  · rintro ⟨c, hcm, hca⟩
    have : (ad.conts.any fun t => t.isActive laStart) = true := by
      rw [List.any_eq_true]; exact ⟨c, hcm, (cont_isActive c laStart).mpr hca⟩
    rw [hs2, this]; rfl

/-- C57 (partial): if a continuum is active at the first wavelength of the batch, or none at any, then for every initial
content of the scratch array each wavelength of the batch gets the textbook value with the LTE populations of the cell;
in the first case these are also what the scratch array holds afterwards (it is read again for the rates). What is
missing is refuted below. -/
theorem C57_fill_partial (hw : EmisSpec.WellFormed ad) (n scratch : Pops) (p : Point) (contents : BaseMip)
    (static : Nat → Bool) (laStart laEnd : Nat) (hg : laEnd ≤ ad.wavelength.length) (hlt : laStart < laEnd)
    (h : (∃ c ∈ ad.conts, c.blue ≤ laStart ∧ laStart < c.red) ∨
      ∀ c ∈ ad.conts, ∀ la, laStart ≤ la → la < laEnd → ¬ (c.blue ≤ la ∧ la < c.red)) :
    ∃ res scratch' nStar, fillMip0 k phi ad n p contents static laStart laEnd scratch = .ok (res, scratch') ∧
      EmisSpec.HoldsLte k ad p nStar ∧ res.length = laEnd - laStart ∧
      (∀ wave (hwv : wave < res.length) w, ad.wavelength[laStart + wave]? = some w →
        res[wave] = EmisSpec.base k phi ad (laStart + wave) n nStar p w contents (static wave)) ∧
      ((∃ c ∈ ad.conts, c.blue ≤ laStart ∧ laStart < c.red) → scratch' = nStar) := by
  obtain ⟨res, scratch', nStar, h1, h2, h3, h4, h5⟩ :=
    fillMip0_total k phi ad hw n scratch p contents static laStart laEnd hg hlt h
  exact ⟨res, scratch', nStar, h1, h2, h3, fun wave hwv w hwl => (h4 wave hwv w hwl).trans (base_total k phi ad _ n nStar p w _ _), h5⟩

/-- One continuum, active at the second of two wavelengths only. -/
noncomputable def lateData : AData :=
  ⟨[1, 2], [], [⟨1, 2, 0, 0, 1, [1]⟩], [⟨1, 1, 1, fun _ => ⟨0, 1, 0⟩⟩]⟩

/-- C57 (refuted): if no continuum is active at the first wavelength of a batch but one is at a later wavelength, the
result depends on what happened to be in the freshly allocated scratch memory: for all constants, every cell and every
kind of base data, two contents give different opacities at the second wavelength. -/
theorem C57_refuted (p : Point) (contents : BaseMip) (static : Nat → Bool) :
    EmisSpec.WellFormed lateData ∧ ∃ (s1 s2 : Pops) (r1 r2 : List EO), r1 ≠ r2 ∧
      fillMip0 k phi lateData (fun _ _ => 1) p contents static 0 2 s1 = .ok (r1, s1) ∧
      fillMip0 k phi lateData (fun _ _ => 1) p contents static 0 2 s2 = .ok (r2, s2) := by
  have hwf : EmisSpec.WellFormed lateData := by constructor <;> simp [lateData]
  have hw0 : lateData.wavelength[0]? = some 1 := rfl
  have hw1 : lateData.wavelength[1]? = some 2 := rfl
  have key : ∀ sc : Pops, fillMip0 k phi lateData (fun _ _ => 1) p contents static 0 2 sc =
      .ok ([⟨0, 0⟩, ⟨EmisSpec.contEmissivity k ⟨1, 2, 0, 0, 1, [1]⟩ 1 (fun _ _ => 1) sc p 2,
        EmisSpec.contOpacity k ⟨1, 2, 0, 0, 1, [1]⟩ 1 (fun _ _ => 1) sc p 2⟩], sc) := by
    intro sc
    have hb : ∀ i, baseMode contents (static i) = .All ∨ baseMode contents (static i) = .StaticOnly := by
      intro i; cases contents <;> simp [baseMode]
    have s0 : emisOpac k phi lateData 0 (fun _ _ => 1) sc p (some (scan Line.isActive lateData.lines 0))
        (some (scan Cont.isActive lateData.conts 0)) true (baseMode contents (static 0)) = .ok (⟨0, 0⟩, sc) := by
      have hn : (lateData.conts.any fun t => t.isActive 0) = false := rfl
      have e : EmisSpec.lines k phi lateData 0 (fun _ _ => 1) p 1 = ⟨0, 0⟩ := by
        unfold EmisSpec.lines lateData; simp
      rw [emisOpac_eq k phi lateData hwf 0 1 hw0 _ sc p _ _ (Or.inr rfl) (Or.inr rfl)]
      rcases hb 0 with h | h <;> rw [h] <;> simp [EmisSpec.total, e, no_active lateData 0 hn, hn]
    have s1 : emisOpac k phi lateData 1 (fun _ _ => 1) sc p (some (scan Line.isActive lateData.lines 1))
        (some (scan Cont.isActive lateData.conts 1)) false (baseMode contents (static 1)) =
        .ok (⟨EmisSpec.contEmissivity k ⟨1, 2, 0, 0, 1, [1]⟩ 1 (fun _ _ => 1) sc p 2,
        EmisSpec.contOpacity k ⟨1, 2, 0, 0, 1, [1]⟩ 1 (fun _ _ => 1) sc p 2⟩, sc) := by
      have e : EmisSpec.lines k phi lateData 1 (fun _ _ => 1) p 2 = ⟨0, 0⟩ := by
        unfold EmisSpec.lines lateData; simp
      have e2 : EmisSpec.conts k lateData 1 (EmisSpec.sigma 1) (fun _ _ => 1) sc p 2 =
          ⟨EmisSpec.contEmissivity k ⟨1, 2, 0, 0, 1, [1]⟩ 1 (fun _ _ => 1) sc p 2,
            EmisSpec.contOpacity k ⟨1, 2, 0, 0, 1, [1]⟩ 1 (fun _ _ => 1) sc p 2⟩ := by
        unfold EmisSpec.conts lateData; simp [EmisSpec.sigma]
      rw [emisOpac_eq k phi lateData hwf 1 2 hw1 _ sc p _ _ (Or.inr rfl) (Or.inr rfl)]
      rcases hb 1 with h | h <;> rw [h] <;> simp [EmisSpec.total, e, e2]
    unfold fillMip0
    simp only [fillWaves, Nat.zero_add, decide_true, s0, Outcome.ok_bind, s1, decide_false,
      show decide (1 = 0) = false from rfl]
  refine ⟨hwf, fun _ _ => 1, fun _ l => if l = 0 then 2 else 1, _, _, ?_, key _, key _⟩
  intro h
  simp only [List.cons.injEq, true_and, and_true, EO.mk.injEq] at h
  have h2 := h.2
  unfold EmisSpec.contOpacity at h2
  have := Real.exp_pos (-k.hck / (2 * p.temperature))
  norm_num at h2

/-! ### The hypotheses are met by concrete data -/

/-- A line and two continua of one atom on three wavelengths. -/
noncomputable def demoData : AData :=
  ⟨[1, 2, 3], [⟨1, 3, 0, 0, 1, 1, 1, 1, 1, 2, []⟩], [⟨0, 2, 0, 0, 1, [1, 1 / 2]⟩, ⟨1, 3, 0, 0, 1, [3, 4]⟩],
    [⟨1, 1, 1, fun _ => ⟨0, 1, 0⟩⟩]⟩

example : EmisSpec.WellFormed demoData ∧ demoData.wavelength.Pairwise (· < ·) ∧ demoData.wavelength[1]? = some 2 ∧
    scan Line.isActive demoData.lines 1 = [0] ∧ scan Cont.isActive demoData.conts 1 = [0, 1] ∧
    (∃ c ∈ demoData.conts, c.blue ≤ 0 ∧ 0 < c.red) := by
  refine ⟨⟨?_, ?_, ?_⟩, ?_, rfl, rfl, rfl, ⟨_, List.mem_cons_self, by decide, by decide⟩⟩
  · simp [demoData]
  · simp [demoData]
  · simp [demoData]
  · simp [demoData]; norm_num

/-- Einstein relations and Boltzmann's ratio hold for some line. -/
example : ∃ (k : Consts) (l : Line) (n : Pops) (p : Point) (gi gj : ℝ), 0 < gi ∧ 0 < gj ∧ gi * l.bij = gj * l.bji ∧
    l.aji = 10 ^ 18 * k.twohc2 / l.lambda0 ^ 5 * l.bji ∧ 0 < l.bji ∧ 0 < k.hck ∧ 0 < l.lambda0 ∧ 0 < p.temperature ∧
    n l.atom l.j = n l.atom l.i * (gj / gi) * Real.exp (-k.hck / (l.lambda0 * p.temperature)) ∧ 0 < n l.atom l.i :=
  ⟨⟨1, 1, 1, 1, 1, 1, 1, 1, 1, 1⟩, ⟨0, 1, 0, 0, 1, 1, 10 ^ 18 * 1 / 1 ^ 5 * 1, 1, 3, 1, []⟩,
    fun _ l => if l = 0 then 1 else 1 * (3 / 1) * Real.exp (-1 / (1 * 1)), ⟨1, 1, 1, 1, 1, 1⟩, 1, 3, by norm_num,
    by norm_num, by norm_num, by norm_num, by norm_num, by norm_num, by norm_num, by norm_num, by simp, by simp⟩

end DexRT
