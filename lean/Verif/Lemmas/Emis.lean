import Verif.Spec.Emis
import Verif.Lemmas.Interp
import Mathlib.Tactic.Ring
import Mathlib.Tactic.FieldSimp
import Mathlib.Tactic.Linarith
/-!
Lemmas about emissivity and opacity.
-/
namespace DexRT
namespace Emis

theorem broadTerm_eq (x e : ℝ) : broadTerm x e = x ^ e := by
  unfold broadTerm
  split
  · next h => rw [h, Real.rpow_zero]
  · split
    · next h => rw [h, Real.rpow_one]
    · rfl

theorem foldl_add {α : Type} (f : α → ℝ) (l : List α) (x : ℝ) : l.foldl (fun g b => g + f b) x = x + (l.map f).sum := by
  induction l generalizing x with
  | nil => simp
  | cons a l ih => rw [List.foldl_cons, ih, List.map_cons, List.sum_cons]; ring

theorem gamma_eq (l : Line) (p : Point) : gammaFromBroadening l p.temperature p.ne p.nh0 = EmisSpec.damping l p := by
  unfold gammaFromBroadening EmisSpec.damping
  rw [foldl_add]
  congr 2
  refine List.map_congr_left fun b _ => ?_
  rw [broadTerm_eq, broadTerm_eq, broadTerm_eq]; ring

theorem doppler_eq (k : Consts) (l : Line) (mass : ℝ) (p : Point) :
    dopplerWidth k l.lambda0 mass p.temperature p.vturb = EmisSpec.dopplerWidth k l mass p := by
  unfold dopplerWidth EmisSpec.dopplerWidth; ring

theorem readAt_some {α : Type} (xs : List α) (i : Nat) (x : α) (h : xs[i]? = some x) : readAt xs i = .ok x := by
  simp [readAt, h]

/-- The contribution of a line. -/
noncomputable def lineEO (k : Consts) (phi : ℝ → ℝ → ℝ) (ad : AData) (n : Pops) (p : Point) (w : ℝ) (l : Line) : EO :=
  ⟨EmisSpec.lineEmissivity k phi l (EmisSpec.massOf ad l) n p w, EmisSpec.lineOpacity k phi l (EmisSpec.massOf ad l) n p w⟩

/-- The contribution of a continuum. -/
noncomputable def contEO (k : Consts) (n nStar : Pops) (p : Point) (w : ℝ) (sig : Cont → ℝ) (c : Cont) : EO :=
  ⟨EmisSpec.contEmissivity k c (sig c) n nStar p w, EmisSpec.contOpacity k c (sig c) n nStar p w⟩

theorem profile_arg (k : Consts) (phi : ℝ → ℝ → ℝ) (l : Line) (mass : ℝ) (p : Point) (w : ℝ) :
    phi (dampingFromGamma k (gammaFromBroadening l p.temperature p.ne p.nh0) w
        (dopplerWidth k l.lambda0 mass p.temperature p.vturb))
      (((w - l.lambda0) + (p.vel * l.lambda0) / k.c) / dopplerWidth k l.lambda0 mass p.temperature p.vturb) /
      (k.sqrtPi * dopplerWidth k l.lambda0 mass p.temperature p.vturb) = EmisSpec.profile k phi l mass p w := by
  rw [gamma_eq, doppler_eq]
  unfold EmisSpec.profile dampingFromGamma
  simp only
  congr 2
  · rw [show (10 : ℝ) ^ 9 = 1000000000 by norm_num]
    generalize EmisSpec.dopplerWidth k l mass p = D
    generalize EmisSpec.damping l p = g
    simp only [div_eq_mul_inv, mul_inv]; ring
  · congr 1; ring

theorem lineTerm_eq (k : Consts) (phi : ℝ → ℝ → ℝ) (ad : AData) (n : Pops) (p : Point) (w : ℝ) (kr : Nat) (l : Line)
    (hl : ad.lines[kr]? = some l) (ha : l.atom < ad.atoms.length) :
    lineTerm k phi ad n p w kr = .ok (lineEO k phi ad n p w l) := by
  have h2 : ad.atoms[l.atom]? = some ad.atoms[l.atom] := List.getElem?_eq_getElem ha
  unfold lineTerm uvLineAt
  rw [readAt_some _ _ _ hl]
  simp only [Outcome.ok_bind]
  rw [readAt_some _ _ _ h2]
  simp only [Outcome.ok_bind]
  congr 1
  have hm : EmisSpec.massOf ad l = ad.atoms[l.atom].mass := by simp [EmisSpec.massOf, h2]
  unfold contribution lineEO uvLine EmisSpec.lineEmissivity EmisSpec.lineOpacity
  rw [hm]
  simp only [profile_arg, Bool.false_eq_true, if_false]
  have e : 1 / w * (k.hc / k.fourPi) = k.hc / (k.fourPi * w) := by
    rw [div_mul_div_comm, one_mul, mul_comm w]
  rw [e]
  ext <;> simp only <;> ring

theorem cont_uv (k : Consts) (c : Cont) (s : ℝ) (n nStar : Pops) (p : Point) (w : ℝ) :
    contribution (uvContOf k s (thermalRatio k nStar c w p.temperature) w) (n c.atom c.i) (n c.atom c.j) =
      ⟨EmisSpec.contEmissivity k c s n nStar p w, EmisSpec.contOpacity k c s n nStar p w⟩ := by
  unfold contribution uvContOf thermalRatio EmisSpec.contEmissivity EmisSpec.contOpacity
  have e : k.twohc2 / (w ^ 3 * w ^ 2 * (1 / 1000000000000000000)) = 10 ^ 18 * k.twohc2 / w ^ 5 := by
    rw [div_eq_mul_inv, div_eq_mul_inv, mul_inv, ← pow_add]; norm_num; ring
  simp only [e]
  ext <;> simp only <;> ring

theorem sigmaAt_eq (c : Cont) (la : Nat) (h1 : c.blue ≤ la) (h2 : la < c.red) (h3 : c.sigma.length = c.red - c.blue) :
    sigmaAt c la = .ok (EmisSpec.sigma la c) := by
  have hlt : la - c.blue < c.sigma.length := by omega
  unfold sigmaAt EmisSpec.sigma
  rw [if_neg (by omega), readAt_some _ _ _ (List.getElem?_eq_getElem hlt), List.getElem?_eq_getElem hlt]; rfl

theorem contTerm_eq (k : Consts) (ad : AData) (n nStar : Pops) (p : Point) (la : Nat) (w : ℝ) (kr : Nat) (c : Cont)
    (hl : ad.conts[kr]? = some c) (h1 : c.blue ≤ la) (h2 : la < c.red) (h3 : c.sigma.length = c.red - c.blue) :
    contTerm k ad n nStar p la w kr = .ok (contEO k n nStar p w (EmisSpec.sigma la) c) := by
  unfold contTerm uvCont
  rw [readAt_some _ _ _ hl]
  simp only [Outcome.ok_bind, sigmaAt_eq c la h1 h2 h3, Bool.false_eq_true, if_false]
  rw [cont_uv]; rfl

/-- Sum of contributions. -/
noncomputable def sumEO (l : List EO) : EO := ⟨(l.map EO.eta).sum, (l.map EO.chi).sum⟩

theorem accum_eq (f : Nat → Outcome EO) (g : Nat → EO) (set : List Nat) (r : EO) (h : ∀ kr ∈ set, f kr = .ok (g kr)) :
    accum f set r = .ok (r.add (sumEO (set.map g))) := by
  induction set generalizing r with
  | nil => simp [accum, EO.add, sumEO]
  | cons a s ih =>
    rw [accum, h a (by simp)]
    simp only
    rw [ih _ fun kr hk => h kr (by simp [hk])]
    congr 1
    simp only [EO.add, sumEO, List.map_cons, List.sum_cons]
    ext <;> simp only <;> ring

theorem mem_scan {α : Type} (act : α → Nat → Bool) (ts : List α) (la kr : Nat) :
    kr ∈ scan act ts la ↔ ∃ t, ts[kr]? = some t ∧ act t la = true := by
  simp only [scan, List.mem_filter, List.mem_range]
  constructor
  · rintro ⟨h, h2⟩
    rw [List.getElem?_eq_getElem h] at h2 ⊢
    exact ⟨_, rfl, h2⟩
  · rintro ⟨t, h, h2⟩
    rw [h]
    exact ⟨(List.getElem?_eq_some_iff.mp h).1, h2⟩

/-- Mapping over the scanned indices is mapping over the active transitions. -/
theorem scan_map {α β : Type} (act : α → Nat → Bool) (ts : List α) (la : Nat) (f : Nat → β) (g : α → β)
    (h : ∀ kr t, ts[kr]? = some t → f kr = g t) :
    (scan act ts la).map f = (ts.filter fun t => act t la).map g := by
  unfold scan
  induction ts using List.reverseRecOn with
  | nil => simp
  | append_singleton ts t ih =>
    rw [List.length_append, List.length_singleton, List.range_succ, List.filter_append, List.filter_append,
      List.map_append, List.map_append]
    have h1 := ih fun kr t hk => h kr t (by
      rw [List.getElem?_append_left (List.getElem?_eq_some_iff.mp hk).1]; exact hk)
    rw [← h1]
    congr 1
    · congr 1
      refine List.filter_congr fun kr hk => ?_
      rw [List.getElem?_append_left (List.mem_range.mp hk)]
    · have e : (ts ++ [t])[ts.length]? = some t := by simp
      by_cases ha : act t la = true
      · simp [List.filter_cons, ha, h _ _ e]
      · simp [List.filter_cons, ha]

theorem scan_length_pos (ad : AData) (la : Nat) :
    decide ((scan Cont.isActive ad.conts la).length > 0) = ad.conts.any fun t => t.isActive la := by
  rw [Bool.eq_iff_iff]
  simp only [decide_eq_true_eq, List.any_eq_true, gt_iff_lt, List.length_pos_iff_exists_mem, mem_scan]
  constructor
  · rintro ⟨kr, t, h, h2⟩
    exact ⟨t, List.mem_of_getElem? h, h2⟩
  · rintro ⟨t, h, h2⟩
    obtain ⟨i, hi⟩ := List.getElem?_of_mem h
    exact ⟨i, t, hi, h2⟩

theorem line_isActive (l : Line) (la : Nat) : l.isActive la = true ↔ l.blue ≤ la ∧ la < l.red := by
  simp [Line.isActive]
theorem cont_isActive (l : Cont) (la : Nat) : l.isActive la = true ↔ l.blue ≤ la ∧ la < l.red := by
  simp [Cont.isActive]

theorem lines_accum (k : Consts) (phi : ℝ → ℝ → ℝ) (ad : AData) (hw : EmisSpec.WellFormed ad) (la : Nat) (n : Pops)
    (p : Point) (w : ℝ) (r : EO) :
    accum (lineTerm k phi ad n p w) (scan Line.isActive ad.lines la) r =
      .ok (r.add (EmisSpec.lines k phi ad la n p w)) := by
  have hdef : ∀ kr ∈ scan Line.isActive ad.lines la, lineTerm k phi ad n p w kr =
      .ok (((ad.lines[kr]?).map (lineEO k phi ad n p w)).getD ⟨0, 0⟩) := by
    intro kr hk
    obtain ⟨t, ht, _⟩ := (mem_scan _ _ _ _).mp hk
    rw [lineTerm_eq k phi ad n p w kr t ht (hw.atoms t (List.mem_of_getElem? ht)), ht]; rfl
  rw [accum_eq _ _ _ _ hdef, scan_map Line.isActive ad.lines la _ (lineEO k phi ad n p w) fun kr t h => by rw [h]; rfl]
  have ef : (ad.lines.filter fun t => t.isActive la) = ad.lines.filter fun l => l.blue ≤ la ∧ la < l.red :=
    List.filter_congr fun l _ => by rw [Bool.eq_iff_iff, line_isActive]; simp
  rw [ef]
  unfold sumEO EmisSpec.lines
  simp only [List.map_map]
  rfl

theorem conts_accum (k : Consts) (ad : AData) (hw : EmisSpec.WellFormed ad) (la : Nat) (n nStar : Pops)
    (p : Point) (w : ℝ) (r : EO) :
    accum (contTerm k ad n nStar p la w) (scan Cont.isActive ad.conts la) r =
      .ok (r.add (EmisSpec.conts k ad la (EmisSpec.sigma la) n nStar p w)) := by
  have hdef : ∀ kr ∈ scan Cont.isActive ad.conts la, contTerm k ad n nStar p la w kr =
      .ok (((ad.conts[kr]?).map (contEO k n nStar p w (EmisSpec.sigma la))).getD ⟨0, 0⟩) := by
    intro kr hk
    obtain ⟨t, ht, h2⟩ := (mem_scan _ _ _ _).mp hk
    rw [cont_isActive] at h2
    rw [contTerm_eq k ad n nStar p la w kr t ht h2.1 h2.2 (hw.sigma t (List.mem_of_getElem? ht)), ht]; rfl
  rw [accum_eq _ _ _ _ hdef, scan_map Cont.isActive ad.conts la _ (contEO k n nStar p w (EmisSpec.sigma la)) fun kr t h => by rw [h]; rfl]
  have ef : (ad.conts.filter fun t => t.isActive la) = ad.conts.filter fun l => l.blue ≤ la ∧ la < l.red :=
    List.filter_congr fun l _ => by rw [Bool.eq_iff_iff, cont_isActive]; simp
  rw [ef]
  unfold sumEO EmisSpec.conts
  simp only [List.map_map]
  rfl

theorem no_active (ad : AData) (la : Nat) (h : (ad.conts.any fun t => t.isActive la) = false) (k : Consts) (sig : Cont → ℝ)
    (n nStar : Pops) (p : Point) (w : ℝ) : EmisSpec.conts k ad la sig n nStar p w = ⟨0, 0⟩ := by
  have ef : (ad.conts.filter fun l => l.blue ≤ la ∧ la < l.red) = [] := by
    rw [List.filter_eq_nil_iff]
    intro c hc
    rw [List.any_eq_false] at h
    have := h c hc
    rw [cont_isActive] at this
    simpa using this
  unfold EmisSpec.conts
  rw [ef]; simp

theorem eo_add_zero (r : EO) : r.add ⟨0, 0⟩ = r := by simp [EO.add]
theorem eo_zero_add (r : EO) : EO.add ⟨0, 0⟩ r = r := by simp [EO.add]

/-- An active set that is either not given or lists the active continua. -/
def IsSetC (ad : AData) (la : Nat) (s : Option (List Nat)) : Prop := s = none ∨ s = some (scan Cont.isActive ad.conts la)
/-- An active set that is either not given or lists the active lines. -/
def IsSetL (ad : AData) (la : Nat) (s : Option (List Nat)) : Prop := s = none ∨ s = some (scan Line.isActive ad.lines la)

theorem contPart_eq (k : Consts) (ad : AData) (hw : EmisSpec.WellFormed ad) (la : Nat) (n scratch : Pops) (p : Point)
    (s : Option (List Nat)) (hs : IsSetC ad la s) (update : Bool) (w : ℝ) (r : EO) :
    contPart k ad la n scratch p s update w r =
      .ok (r.add (EmisSpec.conts k ad la (EmisSpec.sigma la) n (if update then freshLte k ad p scratch else scratch) p w),
        if update && ad.conts.any (fun t => t.isActive la) then freshLte k ad p scratch else scratch) := by
  unfold contPart
  by_cases h : (ad.conts.any fun t => t.isActive la) = true
  · rcases hs with hs | hs <;> subst hs <;> simp only [scan_length_pos, h, Bool.not_true, Bool.false_eq_true, if_false,
      conts_accum k ad hw, Outcome.ok_bind, Bool.and_true, Option.getD_none, Option.getD_some]
  · rw [Bool.not_eq_true] at h
    rcases hs with hs | hs <;> subst hs <;> simp only [scan_length_pos, h, Bool.not_false, if_true, Bool.and_false,
      Bool.false_eq_true, if_false, no_active ad la h, eo_add_zero]

theorem linePart_eq (k : Consts) (phi : ℝ → ℝ → ℝ) (ad : AData) (hw : EmisSpec.WellFormed ad) (la : Nat) (n : Pops)
    (p : Point) (s : Option (List Nat)) (hs : IsSetL ad la s) (w : ℝ) :
    linePart k phi ad la n p s w = .ok (EmisSpec.lines k phi ad la n p w) := by
  unfold linePart
  have e : s.getD (scan Line.isActive ad.lines la) = scan Line.isActive ad.lines la := by
    rcases hs with h | h <;> subst h <;> rfl
  rw [e, lines_accum k phi ad hw, eo_zero_add]

/-- Everything `emis_opac` returns. -/
theorem emisOpac_eq (k : Consts) (phi : ℝ → ℝ → ℝ) (ad : AData) (hw : EmisSpec.WellFormed ad) (la : Nat) (w : ℝ)
    (hla : ad.wavelength[la]? = some w) (n scratch : Pops) (p : Point) (active activeCont : Option (List Nat))
    (h1 : IsSetL ad la active) (h2 : IsSetC ad la activeCont) (update : Bool) (mode : Mode) :
    emisOpac k phi ad la n scratch p active activeCont update mode =
      .ok (EmisSpec.total k phi ad la n (if update then freshLte k ad p scratch else scratch) p w mode,
        if update && ad.conts.any (fun t => t.isActive la) && decide (mode ≠ .DynamicOnly) then freshLte k ad p scratch
        else scratch) := by
  unfold emisOpac
  rw [readAt_some _ _ _ hla]
  cases mode <;> simp [linePart_eq k phi ad hw la n p active h1, contPart_eq k ad hw la n scratch p activeCont h2,
    EmisSpec.total, eo_zero_add]
  rfl

theorem holds_fresh (k : Consts) (ad : AData) (p : Point) (scratch : Pops) :
    EmisSpec.HoldsLte k ad p (freshLte k ad p scratch) := by
  intro ia l x hx
  unfold EmisSpec.lte at hx
  unfold freshLte
  cases ha : ad.atoms[ia]? with
  | none => rw [ha] at hx; simp at hx
  | some a =>
    rw [ha] at hx
    simp only [Option.bind_some] at hx
    simp only
    split at hx
    · next h => rw [dif_pos h]; exact Option.some.inj hx
    · cases hx

end Emis
end DexRT
