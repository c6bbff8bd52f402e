import Verif.Spec.RadGamma
import Verif.Lemmas.Gamma
import Verif.Lemmas.Emis
import Verif.Props.RcStorage
import Mathlib.Tactic.FieldSimp
/-! Lemmas for C80. -/
namespace DexRT.RadGamma
open DexRT Emis Rates Dir

theorem opsLoop_ok {ι β : Type} (f : ι → Outcome (List β)) (g : ι → List β) : ∀ (l : List ι), (∀ x ∈ l, f x = .ok (g x)) →
    opsLoop f l = .ok (l.flatMap g)
  | [], _ => rfl
  | x :: xs, h => by
    rw [opsLoop, h x (by simp), Outcome.ok_bind, opsLoop_ok f g xs fun y hy => h y (by simp [hy]), Outcome.ok_bind,
      List.flatMap_cons]

theorem total_flatMap {ι : Type} (g : ι → List (AddOp Elem ℝ)) (d : Elem) (l : List ι) :
    total (l.flatMap g) d = (l.map fun x => total (g x) d).sum := by
  rw [List.flatMap, total_flatten, List.map_map]; rfl

/-- What a list of additions made by a loop adds to an element, when each iteration is known to succeed. -/
theorem opsLoop_total {ι : Type} (f : ι → Outcome (List (AddOp Elem ℝ))) (l : List ι) (v : ι → Elem → ℝ)
    (h : ∀ x ∈ l, ∃ ops, f x = .ok ops ∧ ∀ d, total ops d = v x d) :
    ∃ ops, opsLoop f l = .ok ops ∧ ∀ d, total ops d = (l.map fun x => v x d).sum := by
  induction l with
  | nil => exact ⟨[], rfl, fun d => by simp [total]⟩
  | cons x xs ih =>
    obtain ⟨o, h1, h2⟩ := h x (by simp)
    obtain ⟨os, h3, h4⟩ := ih fun y hy => h y (by simp [hy])
    refine ⟨o ++ os, ?_, fun d => ?_⟩
    · rw [opsLoop, h1, Outcome.ok_bind, h3, Outcome.ok_bind]
    · rw [total_append, h2, h4, List.map_cons, List.sum_cons]

/-- The same with the cells an iteration touches. -/
theorem opsLoop_cells {ι : Type} (f : ι → Outcome (List (AddOp Elem ℝ))) (P : Elem → Prop) : ∀ (l : List ι) (ops : List (AddOp Elem ℝ)),
    opsLoop f l = .ok ops → (∀ x ∈ l, ∀ o, f x = .ok o → ∀ y ∈ o, P y.1) → ∀ y ∈ ops, P y.1
  | [], ops, h, _ => by
    rw [opsLoop] at h; injection h with h; subst h; simp
  | x :: xs, ops, h, hp => by
    rw [opsLoop] at h
    cases h1 : f x with
    | ok a =>
      rw [h1, Outcome.ok_bind] at h
      cases h2 : opsLoop f xs with
      | ok b =>
        rw [h2, Outcome.ok_bind] at h
        injection h with h
        subst h
        intro y hy
        rcases List.mem_append.mp hy with hy | hy
        · exact hp x (by simp) a h1 y hy
        · exact opsLoop_cells f P xs b h2 (fun z hz => hp z (by simp [hz])) y hy
      | throws => rw [h2] at h; cases h
      | ub => rw [h2] at h; cases h
    | throws => rw [h1] at h; cases h
    | ub => rw [h1] at h; cases h

theorem addTo_total {nl i j : Nat} (h : i < nl ∧ j < nl) (ia ks : Nat) (x : Accum ℝ) :
    ∃ ops, addTo nl ia i j ks x = .ok ops ∧
      ∀ d : Elem, total ops d = if d.1 = ia ∧ d.2.2.2 = ks then pairRate i j d.2.1 d.2.2.1 x.gij x.gji else 0 := by
  refine ⟨_, if_pos h, fun d => ?_⟩
  obtain ⟨da, d1, d2, dk⟩ := d
  simp only [total, List.map_cons, List.map_nil, List.sum_cons, List.sum_nil, add_zero, Prod.mk.injEq, pairRate]
  by_cases h1 : da = ia
  · by_cases h2 : dk = ks
    · subst h1; subst h2; simp
    · have h2' : ¬ ks = dk := fun q => h2 q.symm
      simp [h2, h2']
  · have h1' : ¬ ia = da := fun q => h1 q.symm
    simp [h1, h1']

theorem pairRate_mul (i j a b : Nat) (x y w : ℝ) : pairRate i j a b (x * w) (y * w) = w * pairRate i j a b x y := by
  unfold pairRate; split_ifs <;> ring

theorem line_vel (k : Consts) (lambda l0 vel dop : ℝ) :
    ((lambda - l0) + (vel * l0) / k.c) / dop = (lambda - l0 * (1 - vel / k.c)) / dop := by congr 1; ring

theorem damp_eq (k : Consts) (gamma lambda dop : ℝ) :
    dampingFromGamma k gamma lambda dop = gamma * lambda ^ 2 / (10 ^ 9 * k.fourPi * k.c * dop) := by
  unfold dampingFromGamma
  rw [show (10 : ℝ) ^ 9 = 1000000000 by norm_num]
  simp only [div_eq_mul_inv, mul_inv]; ring

/-- A line's coefficients as the program has them. -/
theorem uvLineAt_eq (e : Env) (c : Cell) (l : Line) (lambda vel : ℝ) (h : l.atom < e.ad.atoms.length) :
    uvLineAt e.k e.phi e.ad (c.point vel) l lambda true =
      .ok ⟨1 / lambda * l.aji * lineProfile e c l lambda vel, 1 / lambda * l.bji * lineProfile e c l lambda vel,
        1 / lambda * l.bij * lineProfile e c l lambda vel⟩ := by
  unfold uvLineAt
  have h1 : e.ad.atoms[l.atom]? = some e.ad.atoms[l.atom] := List.getElem?_eq_getElem h
  rw [readAt_some _ _ _ h1, Outcome.ok_bind]
  simp only [uvLine, if_true, lineProfile, Env.mass, h1, Option.map_some, Option.getD_some, Cell.point, line_vel, damp_eq]

/-- What one line adds for one ray. -/
theorem lineOps_total {e : Env} (he : e.Consistent) (c : Cell) (wphi : Nat → ℝ) {ia : Nat} (hia : ia < e.numLevel.length)
    (s : Sample) (lambda bw : ℝ) (hl : e.ad.wavelength[s.la]? = some lambda) (h0 : lambda ≠ 0) (hk : e.k.hc ≠ 0) (hf : e.k.fourPi ≠ 0)
    (hw : s.wt = lambda * bw) (kr : Nat) (l : Line) (hkr : e.ad.lines[kr]? = some l) (hat : l.atom = ia) :
    ∃ ops, lineOps e c wphi ia s kr = .ok ops ∧
      ∀ d : Elem, total ops d = if d.1 = ia ∧ d.2.2.2 = c.ks then
        bw * (wphi kr * pairRate l.i l.j d.2.1 d.2.2.1 (lineDown e c l lambda s.vel s.I s.psi) (lineUp e c l lambda s.vel s.I s.psi)) else 0 := by
  have hn : e.numLevel[ia]? = some e.numLevel[ia] := List.getElem?_eq_getElem hia
  have hlev := he.lineLev l (List.mem_of_getElem? hkr) e.numLevel[ia] (by rw [hat]; exact hn)
  unfold lineOps
  rw [readAt_some _ _ _ hkr, Outcome.ok_bind, readAt_some _ _ _ hl, Outcome.ok_bind,
    uvLineAt_eq e c l lambda s.vel (by rw [hat, ← he.natoms]; exact hia), Outcome.ok_bind, readAt_some _ _ _ hn, Outcome.ok_bind]
  obtain ⟨ops, h1, h2⟩ := addTo_total hlev ia c.ks (gammaAccum e.k e.eps (c.n ia l.i) (c.n ia l.j)
    ⟨1 / lambda * l.aji * lineProfile e c l lambda s.vel, 1 / lambda * l.bji * lineProfile e c l lambda s.vel,
        1 / lambda * l.bij * lineProfile e c l lambda s.vel⟩ s (s.wt * wphi kr))
  refine ⟨ops, h1, fun d => ?_⟩
  rw [h2 d]
  by_cases hd : d.1 = ia ∧ d.2.2.2 = c.ks
  · rw [if_pos hd, if_pos hd, ← mul_assoc, ← pairRate_mul]
    subst hat
    congr 1
    · simp only [gammaAccum, Accum.gij, Accum.iEff, lineDown, lineChi, lineEta, hw]
      generalize lineProfile e c l lambda s.vel = P
      field_simp
    · simp only [gammaAccum, Accum.gji, Accum.iEff, lineUp, lineEta, hw]
      generalize lineProfile e c l lambda s.vel = P
      field_simp
  · rw [if_neg hd, if_neg hd]

/-- What one continuum adds for one ray. -/
theorem contOps_total {e : Env} (he : e.Consistent) (c : Cell) {ia : Nat} (hia : ia < e.numLevel.length)
    (s : Sample) (lambda bw : ℝ) (hl : e.ad.wavelength[s.la]? = some lambda) (h0 : lambda ≠ 0) (hk : e.k.hc ≠ 0) (hf : e.k.fourPi ≠ 0)
    (hw : s.wt = lambda * bw) (kr : Nat) (t : Cont) (hkr : e.ad.conts[kr]? = some t) (hat : t.atom = ia)
    (hact : t.blue ≤ s.la ∧ s.la < t.red) :
    ∃ ops, contOps e c ia s kr = .ok ops ∧
      ∀ d : Elem, total ops d = if d.1 = ia ∧ d.2.2.2 = c.ks then
        bw * pairRate t.i t.j d.2.1 d.2.2.1 (contDown e c t s.la lambda s.I s.psi) (contUp e c t s.la lambda s.I s.psi) else 0 := by
  have hn : e.numLevel[ia]? = some e.numLevel[ia] := List.getElem?_eq_getElem hia
  have hlev := he.contLev t (List.mem_of_getElem? hkr) e.numLevel[ia] (by rw [hat]; exact hn)
  have hsig : sigmaAt t s.la = .ok (contSigma t s.la) := by
    unfold sigmaAt contSigma
    rw [if_neg (by omega)]
    have hs := he.sigma t (List.mem_of_getElem? hkr)
    have : t.sigma[s.la - t.blue]? = some (t.sigma[s.la - t.blue]'(by omega)) := List.getElem?_eq_getElem _
    rw [this, readAt_some _ _ _ this, Option.getD_some]
  unfold contOps
  rw [readAt_some _ _ _ hkr, Outcome.ok_bind, readAt_some _ _ _ hl, Outcome.ok_bind]
  simp only [uvCont, hsig, Outcome.ok_bind, if_true]
  rw [readAt_some _ _ _ hn, Outcome.ok_bind]
  obtain ⟨ops, h1, h2⟩ := addTo_total hlev ia c.ks (gammaAccum e.k e.eps (c.n ia t.i) (c.n ia t.j)
    (uvContOf e.k (contSigma t s.la * (e.k.fourPi / e.k.hc)) (thermalRatio e.k c.nStar t lambda c.temperature) lambda) s s.wt)
  refine ⟨ops, h1, fun d => ?_⟩
  rw [h2 d]
  have hr : thermalRatio e.k c.nStar t lambda c.temperature = contRatio e c t lambda := by
    unfold thermalRatio contRatio; rw [neg_div]
  have ht : e.k.twohc2 / (lambda ^ 3 * lambda ^ 2 * (1 / 1000000000000000000)) = twoHc2 e lambda := by
    unfold twoHc2; congr 1; ring
  by_cases hd : d.1 = ia ∧ d.2.2.2 = c.ks
  · rw [if_pos hd, if_pos hd, ← pairRate_mul]
    subst hat
    congr 1
    · simp only [gammaAccum, Accum.gij, Accum.iEff, contDown, contChi, contEta, hw, uvContOf, hr, ht]
      generalize contRatio e c t lambda = R
      generalize contSigma t s.la = S
      generalize twoHc2 e lambda = T
      field_simp
    · simp only [gammaAccum, Accum.gji, Accum.iEff, contUp, contEta, hw, uvContOf, hr, ht]
      generalize contRatio e c t lambda = R
      generalize contSigma t s.la = S
      generalize twoHc2 e lambda = T
      field_simp
  · rw [if_neg hd, if_neg hd]

end DexRT.RadGamma
