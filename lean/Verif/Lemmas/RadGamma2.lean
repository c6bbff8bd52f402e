import Verif.Lemmas.RadGamma
import Mathlib.Algebra.BigOperators.Intervals
/-! Lemmas for C80: one ray, all transitions of an atom. -/
namespace DexRT.RadGamma
open DexRT Emis Rates Dir Finset

theorem sum_filter_list {ι : Type} (l : List ι) (q : ι → Bool) (f : ι → ℝ) :
    ((l.filter q).map f).sum = (l.map fun x => if q x then f x else 0).sum := by
  induction l with
  | nil => rfl
  | cons x xs ih =>
    by_cases h : q x
    · rw [List.filter_cons_of_pos h, List.map_cons, List.sum_cons, List.map_cons, List.sum_cons, ih, if_pos h]
    · rw [List.filter_cons_of_neg h, List.map_cons, List.sum_cons, ih, if_neg h, zero_add]

theorem sum_range_map (n : Nat) (f : Nat → ℝ) : ((List.range n).map f).sum = ∑ i ∈ range n, f i := by
  induction n with
  | zero => rfl
  | succ n ih => rw [List.range_succ, List.map_append, List.sum_append, ih, Finset.sum_range_succ]; simp

theorem sum_filter_fin {α : Type} (ts : List α) (q : Nat → Bool) (P : α → Prop) [DecidablePred P] (f : Nat → ℝ)
    (h : ∀ kr : Fin ts.length, q kr = true ↔ P ts[kr]) :
    (((List.range ts.length).filter q).map f).sum = ∑ kr : Fin ts.length, if P ts[kr] then f kr else 0 := by
  rw [sum_filter_list, sum_range_map, Finset.sum_range]
  refine Finset.sum_congr rfl fun kr _ => ?_
  by_cases hp : P ts[kr]
  · rw [if_pos hp, if_pos ((h kr).2 hp)]
  · rw [if_neg hp, if_neg fun c => hp ((h kr).1 c)]

/-- A loop over a range of indices is the sum over the transitions in the range. -/
theorem sum_range_fin {α : Type} (ts : List α) (r : Nat × Nat) (hr : r.1 + r.2 ≤ ts.length) (P : α → Prop) [DecidablePred P]
    (f : Nat → ℝ) (h : ∀ kr : Fin ts.length, (r.1 ≤ (kr : Nat) ∧ (kr : Nat) < r.1 + r.2) ↔ P ts[kr]) :
    (((List.range r.2).map (r.1 + ·)).map f).sum = ∑ kr : Fin ts.length, if P ts[kr] then f kr else 0 := by
  have h1 : (∑ kr : Fin ts.length, if P ts[kr] then f kr else 0) =
      ∑ kr : Fin ts.length, if r.1 ≤ (kr : Nat) ∧ (kr : Nat) < r.1 + r.2 then f kr else 0 := by
    refine Finset.sum_congr rfl fun kr _ => ?_
    by_cases hp : P ts[kr]
    · rw [if_pos hp, if_pos ((h kr).2 hp)]
    · rw [if_neg hp, if_neg fun c => hp ((h kr).1 c)]
  rw [h1, ← Finset.sum_range (fun i => if r.1 ≤ i ∧ i < r.1 + r.2 then f i else 0), ← Finset.sum_filter, List.map_map, sum_range_map]
  have h2 : (range ts.length).filter (fun i => r.1 ≤ i ∧ i < r.1 + r.2) = Finset.Ico r.1 (r.1 + r.2) := by
    ext i; simp only [Finset.mem_filter, Finset.mem_range, Finset.mem_Ico]; omega
  rw [h2, Finset.sum_Ico_eq_sum_range]
  simp

/-- Is the transition with index `kr` active? -/
def actAt {α : Type} (act : α → Nat → Bool) (ts : List α) (la kr : Nat) : Bool := ((ts[kr]?).map fun t => act t la).getD false

theorem scan_actAt {α : Type} (act : α → Nat → Bool) (ts : List α) (la : Nat) :
    scan act ts la = (List.range ts.length).filter (actAt act ts la) := by
  unfold scan
  congr 1
  funext kr
  unfold actAt
  cases ts[kr]? <;> rfl

/-- What one ray adds for atom `ia`. -/
noncomputable def atomVal (e : Env) (c : Cell) (wphi : Nat → ℝ) (ia : Nat) (s : Sample) (lambda bw : ℝ) (d : Elem) : ℝ :=
  if d.1 = ia ∧ d.2.2.2 = c.ks then bw * rayRate e c wphi ia d.2.1 d.2.2.1 s.la lambda s.vel s.I s.psi else 0

theorem ite_sum {ι : Type} (s : Finset ι) (p : Prop) [Decidable p] (f : ι → ℝ) (bw : ℝ) :
    (if p then bw * ∑ x ∈ s, f x else 0) = ∑ x ∈ s, if p then bw * f x else 0 := by
  by_cases h : p
  · simp only [if_pos h, Finset.mul_sum]
  · simp only [if_neg h, Finset.sum_const_zero]

theorem atomVal_eq (e : Env) (c : Cell) (wphi : Nat → ℝ) (ia : Nat) (s : Sample) (lambda bw : ℝ) (d : Elem) :
    atomVal e c wphi ia s lambda bw d =
      (∑ kr : Fin e.ad.lines.length, if e.ad.lines[kr].atom = ia ∧ e.ad.lines[kr].blue ≤ s.la ∧ s.la < e.ad.lines[kr].red then
        (if d.1 = ia ∧ d.2.2.2 = c.ks then bw * (wphi kr * pairRate e.ad.lines[kr].i e.ad.lines[kr].j d.2.1 d.2.2.1
          (lineDown e c e.ad.lines[kr] lambda s.vel s.I s.psi) (lineUp e c e.ad.lines[kr] lambda s.vel s.I s.psi)) else 0) else 0) +
      ∑ kr : Fin e.ad.conts.length, if e.ad.conts[kr].atom = ia ∧ e.ad.conts[kr].blue ≤ s.la ∧ s.la < e.ad.conts[kr].red then
        (if d.1 = ia ∧ d.2.2.2 = c.ks then bw * pairRate e.ad.conts[kr].i e.ad.conts[kr].j d.2.1 d.2.2.1
          (contDown e c e.ad.conts[kr] s.la lambda s.I s.psi) (contUp e c e.ad.conts[kr] s.la lambda s.I s.psi) else 0) else 0 := by
  unfold atomVal rayRate
  by_cases hd : d.1 = ia ∧ d.2.2.2 = c.ks
  · simp only [if_pos hd, mul_add, Finset.mul_sum, mul_ite, mul_zero]
  · simp only [if_neg hd, ite_self, Finset.sum_const_zero, add_zero]

/-- Line part of `atomVal` as a function of the index. -/
noncomputable def lineVal (e : Env) (c : Cell) (wphi : Nat → ℝ) (ia : Nat) (s : Sample) (lambda bw : ℝ) (kr : Nat) (d : Elem) : ℝ :=
  match e.ad.lines[kr]? with
  | some l => if d.1 = ia ∧ d.2.2.2 = c.ks then bw * (wphi kr * pairRate l.i l.j d.2.1 d.2.2.1
      (lineDown e c l lambda s.vel s.I s.psi) (lineUp e c l lambda s.vel s.I s.psi)) else 0
  | none => 0

/-- Continuum part of `atomVal` as a function of the index. -/
noncomputable def contVal (e : Env) (c : Cell) (ia : Nat) (s : Sample) (lambda bw : ℝ) (kr : Nat) (d : Elem) : ℝ :=
  match e.ad.conts[kr]? with
  | some t => if d.1 = ia ∧ d.2.2.2 = c.ks then bw * pairRate t.i t.j d.2.1 d.2.2.1
      (contDown e c t s.la lambda s.I s.psi) (contUp e c t s.la lambda s.I s.psi) else 0
  | none => 0

theorem lineVal_fin (e : Env) (c : Cell) (wphi : Nat → ℝ) (ia : Nat) (s : Sample) (lambda bw : ℝ) (kr : Fin e.ad.lines.length) (d : Elem) :
    lineVal e c wphi ia s lambda bw kr d = if d.1 = ia ∧ d.2.2.2 = c.ks then bw * (wphi kr * pairRate e.ad.lines[kr].i e.ad.lines[kr].j d.2.1 d.2.2.1
          (lineDown e c e.ad.lines[kr] lambda s.vel s.I s.psi) (lineUp e c e.ad.lines[kr] lambda s.vel s.I s.psi)) else 0 := by
  have : e.ad.lines[(kr : Nat)]? = some e.ad.lines[kr] := List.getElem?_eq_getElem kr.2
  unfold lineVal; rw [this]

theorem contVal_fin (e : Env) (c : Cell) (ia : Nat) (s : Sample) (lambda bw : ℝ) (kr : Fin e.ad.conts.length) (d : Elem) :
    contVal e c ia s lambda bw kr d = if d.1 = ia ∧ d.2.2.2 = c.ks then bw * pairRate e.ad.conts[kr].i e.ad.conts[kr].j d.2.1 d.2.2.1
          (contDown e c e.ad.conts[kr] s.la lambda s.I s.psi) (contUp e c e.ad.conts[kr] s.la lambda s.I s.psi) else 0 := by
  have : e.ad.conts[(kr : Nat)]? = some e.ad.conts[kr] := List.getElem?_eq_getElem kr.2
  unfold contVal; rw [this]

/-- Hypotheses on the wavelength of a sample. -/
structure WaveOk (e : Env) (s : Sample) (lambda bw : ℝ) : Prop where
  lam : e.ad.wavelength[s.la]? = some lambda
  ne0 : lambda ≠ 0
  hc : e.k.hc ≠ 0
  fp : e.k.fourPi ≠ 0
  wt : s.wt = lambda * bw

theorem atomOps2_total {e : Env} (he : e.Consistent) (c : Cell) (wphi : Nat → ℝ) {ia : Nat} (hia : ia < e.numLevel.length)
    (s : Sample) (lambda bw : ℝ) (hw : WaveOk e s lambda bw) :
    ∃ ops, atomOps2 e c wphi ia s = .ok ops ∧ ∀ d, total ops d = atomVal e c wphi ia s lambda bw d := by
  obtain ⟨rl, hrl⟩ : ∃ r, e.lineRange[ia]? = some r := ⟨_, List.getElem?_eq_getElem (by rw [he.nline]; exact hia)⟩
  obtain ⟨rc, hrc⟩ : ∃ r, e.contRange[ia]? = some r := ⟨_, List.getElem?_eq_getElem (by rw [he.ncont]; exact hia)⟩
  obtain ⟨-, hl⟩ := he.lineIn ia _ hrl
  obtain ⟨-, hc⟩ := he.contIn ia _ hrc
  have hq : ∀ kr : Fin e.ad.lines.length, (actAt Line.isActive e.ad.lines s.la kr &&
      inRange rl kr) = true ↔ e.ad.lines[kr].atom = ia ∧ e.ad.lines[kr].blue ≤ s.la ∧ s.la < e.ad.lines[kr].red := by
    intro kr
    have h1 : e.ad.lines[(kr : Nat)]? = some e.ad.lines[kr] := List.getElem?_eq_getElem kr.2
    unfold actAt
    rw [h1]
    simp only [Option.map_some, Option.getD_some, Bool.and_eq_true, line_isActive, inRange, decide_eq_true_eq]
    rw [← hl kr _ h1]
    exact ⟨fun h => ⟨⟨h.2.1, h.2.2⟩, h.1⟩, fun h => ⟨h.2, h.1.1, h.1.2⟩⟩
  have hqc : ∀ kr : Fin e.ad.conts.length, (actAt Cont.isActive e.ad.conts s.la kr &&
      inRange rc kr) = true ↔ e.ad.conts[kr].atom = ia ∧ e.ad.conts[kr].blue ≤ s.la ∧ s.la < e.ad.conts[kr].red := by
    intro kr
    have h1 : e.ad.conts[(kr : Nat)]? = some e.ad.conts[kr] := List.getElem?_eq_getElem kr.2
    unfold actAt
    rw [h1]
    simp only [Option.map_some, Option.getD_some, Bool.and_eq_true, cont_isActive, inRange, decide_eq_true_eq]
    rw [← hc kr _ h1]
    exact ⟨fun h => ⟨⟨h.2.1, h.2.2⟩, h.1⟩, fun h => ⟨h.2, h.1.1, h.1.2⟩⟩
  obtain ⟨a, a1, a2⟩ := opsLoop_total (lineOps e c wphi ia s) ((scan Line.isActive e.ad.lines s.la).filter (inRange rl))
    (lineVal e c wphi ia s lambda bw) (by
      intro kr hkr
      rw [List.mem_filter, scan_actAt, List.mem_filter, List.mem_range] at hkr
      obtain ⟨⟨hk1, hk2⟩, hk3⟩ := hkr
      have h1 : e.ad.lines[kr]? = some (e.ad.lines[kr]'hk1) := List.getElem?_eq_getElem hk1
      have := (hq ⟨kr, hk1⟩).1 (by rw [Bool.and_eq_true]; exact ⟨hk2, hk3⟩)
      obtain ⟨o, o1, o2⟩ := lineOps_total he c wphi hia s lambda bw hw.lam hw.ne0 hw.hc hw.fp hw.wt kr _ h1 this.1
      exact ⟨o, o1, fun d => by rw [o2]; unfold lineVal; rw [h1]⟩)
  obtain ⟨b, b1, b2⟩ := opsLoop_total (contOps e c ia s) ((scan Cont.isActive e.ad.conts s.la).filter (inRange rc))
    (contVal e c ia s lambda bw) (by
      intro kr hkr
      rw [List.mem_filter, scan_actAt, List.mem_filter, List.mem_range] at hkr
      obtain ⟨⟨hk1, hk2⟩, hk3⟩ := hkr
      have h1 : e.ad.conts[kr]? = some (e.ad.conts[kr]'hk1) := List.getElem?_eq_getElem hk1
      have := (hqc ⟨kr, hk1⟩).1 (by rw [Bool.and_eq_true]; exact ⟨hk2, hk3⟩)
      obtain ⟨o, o1, o2⟩ := contOps_total he c hia s lambda bw hw.lam hw.ne0 hw.hc hw.fp hw.wt kr _ h1 this.1 this.2
      exact ⟨o, o1, fun d => by rw [o2]; unfold contVal; rw [h1]⟩)
  refine ⟨a ++ b, ?_, fun d => ?_⟩
  · unfold atomOps2
    rw [readAt_some _ _ _ hrl, Outcome.ok_bind, a1, Outcome.ok_bind, readAt_some _ _ _ hrc, Outcome.ok_bind, b1, Outcome.ok_bind]
  · rw [total_append, a2, b2, atomVal_eq, scan_actAt, scan_actAt, List.filter_filter, List.filter_filter]
    congr 1
    · rw [sum_filter_fin e.ad.lines _ (fun l => l.atom = ia ∧ l.blue ≤ s.la ∧ s.la < l.red) _
        (fun kr => by rw [Bool.and_comm]; exact hq kr)]
      exact Finset.sum_congr rfl fun kr _ => by rw [lineVal_fin]
    · rw [sum_filter_fin e.ad.conts _ (fun l => l.atom = ia ∧ l.blue ≤ s.la ∧ s.la < l.red) _
        (fun kr => by rw [Bool.and_comm]; exact hqc kr)]
      exact Finset.sum_congr rfl fun kr _ => by rw [contVal_fin]

theorem atomOps3_total {e : Env} (he : e.Consistent) (c : Cell) (wphi : Nat → ℝ) {ia : Nat} (hia : ia < e.numLevel.length)
    (s : Sample) (lambda bw : ℝ) (hw : WaveOk e s lambda bw) :
    ∃ ops, atomOps3 e c wphi ia s = .ok ops ∧ ∀ d, total ops d = atomVal e c wphi ia s lambda bw d := by
  obtain ⟨rl, hrl⟩ : ∃ r, e.lineRange[ia]? = some r := ⟨_, List.getElem?_eq_getElem (by rw [he.nline]; exact hia)⟩
  obtain ⟨rc, hrc⟩ : ∃ r, e.contRange[ia]? = some r := ⟨_, List.getElem?_eq_getElem (by rw [he.ncont]; exact hia)⟩
  obtain ⟨hlb, hl⟩ := he.lineIn ia _ hrl
  obtain ⟨hcb, hc⟩ := he.contIn ia _ hrc
  obtain ⟨a, a1, a2⟩ := opsLoop_total (lineOps3 e c wphi ia s) ((List.range rl.2).map (rl.1 + ·))
    (fun kr d => if actAt Line.isActive e.ad.lines s.la kr then lineVal e c wphi ia s lambda bw kr d else 0) (by
      intro kr hkr
      obtain ⟨x, hx, rfl⟩ := List.mem_map.mp hkr
      rw [List.mem_range] at hx
      set kr := rl.1 + x with hkrd
      have hlt : kr < e.ad.lines.length := by omega
      have h1 : e.ad.lines[kr]? = some (e.ad.lines[kr]'hlt) := List.getElem?_eq_getElem hlt
      have hat := (hl kr _ h1).1 ⟨by omega, by omega⟩
      unfold lineOps3
      rw [readAt_some _ _ _ h1, Outcome.ok_bind]
      by_cases hact : (e.ad.lines[kr]'hlt).isActive s.la = true
      · rw [if_pos hact]
        obtain ⟨o, o1, o2⟩ := lineOps_total he c wphi hia s lambda bw hw.lam hw.ne0 hw.hc hw.fp hw.wt kr _ h1 hat
        exact ⟨o, o1, fun d => by rw [o2]; unfold lineVal actAt; simp only [h1, Option.map_some, Option.getD_some, hact, if_true]⟩
      · rw [if_neg hact]
        exact ⟨[], rfl, fun d => by unfold actAt; simp only [h1, Option.map_some, Option.getD_some, if_neg hact]; simp [total]⟩)
  obtain ⟨b, b1, b2⟩ := opsLoop_total (contOps3 e c ia s) ((List.range rc.2).map (rc.1 + ·))
    (fun kr d => if actAt Cont.isActive e.ad.conts s.la kr then contVal e c ia s lambda bw kr d else 0) (by
      intro kr hkr
      obtain ⟨x, hx, rfl⟩ := List.mem_map.mp hkr
      rw [List.mem_range] at hx
      set kr := rc.1 + x with hkrd
      have hlt : kr < e.ad.conts.length := by omega
      have h1 : e.ad.conts[kr]? = some (e.ad.conts[kr]'hlt) := List.getElem?_eq_getElem hlt
      have hat := (hc kr _ h1).1 ⟨by omega, by omega⟩
      unfold contOps3
      rw [readAt_some _ _ _ h1, Outcome.ok_bind]
      by_cases hact : (e.ad.conts[kr]'hlt).isActive s.la = true
      · rw [if_pos hact]
        obtain ⟨o, o1, o2⟩ := contOps_total he c hia s lambda bw hw.lam hw.ne0 hw.hc hw.fp hw.wt kr _ h1 hat ((cont_isActive _ _).1 hact)
        exact ⟨o, o1, fun d => by rw [o2]; unfold contVal actAt; simp only [h1, Option.map_some, Option.getD_some, hact, if_true]⟩
      · rw [if_neg hact]
        exact ⟨[], rfl, fun d => by unfold actAt; simp only [h1, Option.map_some, Option.getD_some, if_neg hact]; simp [total]⟩)
  refine ⟨a ++ b, ?_, fun d => ?_⟩
  · unfold atomOps3
    rw [readAt_some _ _ _ hrl, Outcome.ok_bind, a1, Outcome.ok_bind, readAt_some _ _ _ hrc, Outcome.ok_bind, b1, Outcome.ok_bind]
  · rw [total_append, a2, b2, atomVal_eq]
    congr 1
    · rw [sum_range_fin e.ad.lines _ hlb (fun l => l.atom = ia) _ (fun kr => hl kr _ (List.getElem?_eq_getElem kr.2))]
      refine Finset.sum_congr rfl fun kr _ => ?_
      have h1 : e.ad.lines[(kr : Nat)]? = some e.ad.lines[kr] := List.getElem?_eq_getElem kr.2
      rw [lineVal_fin]
      unfold actAt
      rw [h1]
      simp only [Option.map_some, Option.getD_some, line_isActive]
      rw [← ite_and]
    · rw [sum_range_fin e.ad.conts _ hcb (fun l => l.atom = ia) _ (fun kr => hc kr _ (List.getElem?_eq_getElem kr.2))]
      refine Finset.sum_congr rfl fun kr _ => ?_
      have h1 : e.ad.conts[(kr : Nat)]? = some e.ad.conts[kr] := List.getElem?_eq_getElem kr.2
      rw [contVal_fin]
      unfold actAt
      rw [h1]
      simp only [Option.map_some, Option.getD_some, cont_isActive]
      rw [← ite_and]

end DexRT.RadGamma
