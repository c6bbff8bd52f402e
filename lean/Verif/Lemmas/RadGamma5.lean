import Verif.Lemmas.RadGamma4
import Verif.Lemmas.Config
import Verif.Props.ProfileNorm
import Verif.Spec.Emis
import Verif.Props.StatEq
import Mathlib.Tactic.Positivity
/-! Lemmas for C80: net rates, normalised profiles, ownership of elements. -/
namespace DexRT.RadGamma
open DexRT Emis Rates Dir Finset

theorem pair_gain (nl i j a : Nat) (hi : i < nl) (hj : j < nl) (n : Nat → ℝ) (D U : ℝ) :
    ∑ b ∈ range nl, (pairRate i j a b D U * n b - pairRate i j b a D U * n a) = gain i j a * (n j * D - n i * U) := by
  have h1 : ∀ (p : Prop) [Decidable p] (k : Nat), k < nl → ∀ (X : Nat → ℝ), ∑ b ∈ range nl, (if p ∧ k = b then X b else 0) = if p then X k else 0 := by
    intro p _ k hk X
    by_cases hp : p
    · simp only [hp, true_and, if_true]
      rw [Finset.sum_ite_eq, if_pos (Finset.mem_range.mpr hk)]
    · simp [hp]
  have h2 : ∀ b, pairRate i j a b D U * n b - pairRate i j b a D U * n a =
      ((if i = a ∧ j = b then D * n b else 0) + (if j = a ∧ i = b then U * n b else 0)) -
      ((if j = a ∧ i = b then D * n a else 0) + (if i = a ∧ j = b then U * n a else 0)) := by
    intro b
    unfold pairRate
    simp only [and_comm (a := i = b), and_comm (a := j = b)]
    split_ifs <;> ring
  simp only [h2, Finset.sum_sub_distrib, Finset.sum_add_distrib]
  rw [h1 (i = a) j hj fun b => D * n b, h1 (j = a) i hi fun b => U * n b, h1 (j = a) i hi fun _ => D * n a,
    h1 (i = a) j hj fun _ => U * n a]
  unfold gain
  by_cases h3 : i = a <;> by_cases h4 : j = a
  · subst h3; subst h4; simp
  · subst h3; simp [h4]; ring
  · subst h4; simp [h3]; ring
  · simp [h3, h4]

theorem line_net (e : Env) (c : Cell) (l : Line) (lambda vel I psi : ℝ) (h0 : lambda ≠ 0) (hk : e.k.hc ≠ 0) (hf : e.k.fourPi ≠ 0) :
    c.n l.atom l.j * lineDown e c l lambda vel I psi - c.n l.atom l.i * lineUp e c l lambda vel I psi =
      photons e lambda * netEmission e (lineEta e c l lambda vel) (lineChi e c l lambda vel) I psi := by
  simp only [lineDown, lineUp, photons, netEmission, lineEta, lineChi]
  generalize lineProfile e c l lambda vel = P
  field_simp
  ring

theorem cont_net (e : Env) (c : Cell) (t : Cont) (la : Nat) (lambda I psi : ℝ) (hk : e.k.hc ≠ 0) :
    c.n t.atom t.j * contDown e c t la lambda I psi - c.n t.atom t.i * contUp e c t la lambda I psi =
      photons e lambda * netEmission e (contEta e c t la lambda) (contChi e c t la lambda) I psi := by
  simp only [contDown, contUp, photons, netEmission, contEta, contChi]
  generalize contRatio e c t lambda = R
  generalize contSigma t la = S
  generalize twoHc2 e lambda = T
  field_simp
  ring

theorem ray_gain (e : Env) (he : e.Consistent) (c : Cell) (wphi : Nat → ℝ) (ia : Nat) (nl : Nat) (hnl : e.numLevel[ia]? = some nl)
    (a la : Nat) (lambda vel I psi : ℝ) (h0 : lambda ≠ 0) (hk : e.k.hc ≠ 0) (hf : e.k.fourPi ≠ 0) :
    ∑ b ∈ range nl, (rayRate e c wphi ia a b la lambda vel I psi * c.n ia b - rayRate e c wphi ia b a la lambda vel I psi * c.n ia a) =
      photons e lambda * (
        (∑ kr : Fin e.ad.lines.length, if e.ad.lines[kr].atom = ia ∧ e.ad.lines[kr].blue ≤ la ∧ la < e.ad.lines[kr].red then
          wphi kr * (gain e.ad.lines[kr].i e.ad.lines[kr].j a * netEmission e (lineEta e c e.ad.lines[kr] lambda vel)
            (lineChi e c e.ad.lines[kr] lambda vel) I psi) else 0) +
        ∑ kr : Fin e.ad.conts.length, if e.ad.conts[kr].atom = ia ∧ e.ad.conts[kr].blue ≤ la ∧ la < e.ad.conts[kr].red then
          gain e.ad.conts[kr].i e.ad.conts[kr].j a * netEmission e (contEta e c e.ad.conts[kr] la lambda)
            (contChi e c e.ad.conts[kr] la lambda) I psi else 0) := by
  have hsplit : ∀ b, rayRate e c wphi ia a b la lambda vel I psi * c.n ia b - rayRate e c wphi ia b a la lambda vel I psi * c.n ia a =
      (∑ kr : Fin e.ad.lines.length, if e.ad.lines[kr].atom = ia ∧ e.ad.lines[kr].blue ≤ la ∧ la < e.ad.lines[kr].red then
        wphi kr * (pairRate e.ad.lines[kr].i e.ad.lines[kr].j a b (lineDown e c e.ad.lines[kr] lambda vel I psi) (lineUp e c e.ad.lines[kr] lambda vel I psi) * c.n ia b -
          pairRate e.ad.lines[kr].i e.ad.lines[kr].j b a (lineDown e c e.ad.lines[kr] lambda vel I psi) (lineUp e c e.ad.lines[kr] lambda vel I psi) * c.n ia a) else 0) +
      ∑ kr : Fin e.ad.conts.length, if e.ad.conts[kr].atom = ia ∧ e.ad.conts[kr].blue ≤ la ∧ la < e.ad.conts[kr].red then
        (pairRate e.ad.conts[kr].i e.ad.conts[kr].j a b (contDown e c e.ad.conts[kr] la lambda I psi) (contUp e c e.ad.conts[kr] la lambda I psi) * c.n ia b -
          pairRate e.ad.conts[kr].i e.ad.conts[kr].j b a (contDown e c e.ad.conts[kr] la lambda I psi) (contUp e c e.ad.conts[kr] la lambda I psi) * c.n ia a) else 0 := by
    intro b
    unfold rayRate
    rw [add_mul, add_mul, add_sub_add_comm]
    congr 1
    · rw [Finset.sum_mul, Finset.sum_mul, ← Finset.sum_sub_distrib]
      refine Finset.sum_congr rfl fun kr _ => ?_
      by_cases h : e.ad.lines[kr].atom = ia ∧ e.ad.lines[kr].blue ≤ la ∧ la < e.ad.lines[kr].red
      · simp only [if_pos h]; ring
      · simp only [if_neg h]; ring
    · rw [Finset.sum_mul, Finset.sum_mul, ← Finset.sum_sub_distrib]
      refine Finset.sum_congr rfl fun kr _ => ?_
      by_cases h : e.ad.conts[kr].atom = ia ∧ e.ad.conts[kr].blue ≤ la ∧ la < e.ad.conts[kr].red
      · simp only [if_pos h]
      · simp only [if_neg h]; ring
  rw [Finset.sum_congr rfl fun b _ => hsplit b, Finset.sum_add_distrib, Finset.sum_comm, mul_add]
  congr 1
  · rw [Finset.mul_sum]
    refine Finset.sum_congr rfl fun kr _ => ?_
    by_cases h : e.ad.lines[kr].atom = ia ∧ e.ad.lines[kr].blue ≤ la ∧ la < e.ad.lines[kr].red
    · simp only [if_pos h]
      obtain ⟨h1, h2⟩ := he.lineLev _ (List.getElem_mem kr.2) nl (by have := h.1; rw [Fin.getElem_fin] at this; rw [this]; exact hnl)
      rw [← Finset.mul_sum, pair_gain nl e.ad.lines[kr].i e.ad.lines[kr].j a h1 h2 (c.n ia)]
      have := line_net e c e.ad.lines[kr] lambda vel I psi h0 hk hf
      rw [h.1] at this
      rw [this]; ring
    · simp only [if_neg h, Finset.sum_const_zero, mul_zero]
  · rw [Finset.mul_sum, Finset.sum_comm]
    refine Finset.sum_congr rfl fun kr _ => ?_
    by_cases h : e.ad.conts[kr].atom = ia ∧ e.ad.conts[kr].blue ≤ la ∧ la < e.ad.conts[kr].red
    · simp only [if_pos h]
      obtain ⟨h1, h2⟩ := he.contLev _ (List.getElem_mem kr.2) nl (by have := h.1; rw [Fin.getElem_fin] at this; rw [this]; exact hnl)
      rw [pair_gain nl e.ad.conts[kr].i e.ad.conts[kr].j a h1 h2 (c.n ia)]
      have := cont_net e c e.ad.conts[kr] la lambda I psi hk
      rw [h.1] at this
      rw [this]; ring
    · simp only [if_neg h, Finset.sum_const_zero, mul_zero]

theorem rate_gain {ι : Type} (e : Env) (he : e.Consistent) (hph : e.Physical) (c : Cell) (wphi : Nat → ℝ) (las : Finset Nat)
    (hlas : ∀ la ∈ las, la < e.ad.wavelength.length) (r : RaySet ι) (ia : Nat) (nl : Nat) (hnl : e.numLevel[ia]? = some nl) (a : Nat) :
    ∑ b ∈ range nl, (radiativeRate e c wphi las r ia a b * c.n ia b - radiativeRate e c wphi las r ia b a * c.n ia a) =
      photonGain e c wphi las r ia a := by
  unfold radiativeRate photonGain
  have h1 : ∀ b, (∑ la ∈ las, ∑ x ∈ r.rays, (e.bin[la]?).getD 0 * r.weight x * rayRate e c wphi ia a b la ((e.ad.wavelength[la]?).getD 0) (r.vel x) (r.I la x) (r.psi la x)) * c.n ia b -
      (∑ la ∈ las, ∑ x ∈ r.rays, (e.bin[la]?).getD 0 * r.weight x * rayRate e c wphi ia b a la ((e.ad.wavelength[la]?).getD 0) (r.vel x) (r.I la x) (r.psi la x)) * c.n ia a =
      ∑ la ∈ las, ∑ x ∈ r.rays, (e.bin[la]?).getD 0 * r.weight x * (rayRate e c wphi ia a b la ((e.ad.wavelength[la]?).getD 0) (r.vel x) (r.I la x) (r.psi la x) * c.n ia b -
        rayRate e c wphi ia b a la ((e.ad.wavelength[la]?).getD 0) (r.vel x) (r.I la x) (r.psi la x) * c.n ia a) := by
    intro b
    rw [Finset.sum_mul, Finset.sum_mul, ← Finset.sum_sub_distrib]
    refine Finset.sum_congr rfl fun la _ => ?_
    rw [Finset.sum_mul, Finset.sum_mul, ← Finset.sum_sub_distrib]
    exact Finset.sum_congr rfl fun x _ => by ring
  rw [Finset.sum_congr rfl fun b _ => h1 b, Finset.sum_comm]
  refine Finset.sum_congr rfl fun la hla => ?_
  rw [Finset.sum_comm]
  refine Finset.sum_congr rfl fun x _ => ?_
  obtain ⟨l, hl⟩ : ∃ m, e.ad.wavelength[la]? = some m := ⟨_, List.getElem?_eq_getElem (hlas la hla)⟩
  rw [← Finset.mul_sum, ray_gain e he c wphi ia nl hnl a la _ _ _ _ (by rw [hl]; exact hph.waves l (List.mem_of_getElem? hl)) hph.hc hph.fp]
  ring

/-! ### Ownership -/

theorem addTo_cell {nl ia i j ks : Nat} {x : Accum ℝ} {o : List (AddOp Elem ℝ)} (h : addTo nl ia i j ks x = .ok o) :
    ∀ y ∈ o, y.1.2.2.2 = ks := by
  unfold addTo at h
  split_ifs at h
  injection h with h
  subst h
  simp

theorem lineOps_cell {e : Env} {c : Cell} {wphi : Nat → ℝ} {ia : Nat} {s : Sample} {kr : Nat} {o : List (AddOp Elem ℝ)}
    (h : lineOps e c wphi ia s kr = .ok o) : ∀ y ∈ o, y.1.2.2.2 = c.ks := by
  unfold lineOps at h
  obtain ⟨l, -, h⟩ := Config.obind_ok h
  obtain ⟨la, -, h⟩ := Config.obind_ok h
  obtain ⟨uv, -, h⟩ := Config.obind_ok h
  obtain ⟨nl, -, h⟩ := Config.obind_ok h
  exact addTo_cell h

theorem contOps_cell {e : Env} {c : Cell} {ia : Nat} {s : Sample} {kr : Nat} {o : List (AddOp Elem ℝ)}
    (h : contOps e c ia s kr = .ok o) : ∀ y ∈ o, y.1.2.2.2 = c.ks := by
  unfold contOps at h
  obtain ⟨l, -, h⟩ := Config.obind_ok h
  obtain ⟨la, -, h⟩ := Config.obind_ok h
  obtain ⟨uv, -, h⟩ := Config.obind_ok h
  obtain ⟨nl, -, h⟩ := Config.obind_ok h
  exact addTo_cell h

theorem cellOps2_cell {e : Env} {g : Quad2} {wphi : Nat → ℝ} {laStart laEnd t : Nat} {i ps : List ℝ} {ia : Nat} {c : Cell}
    {o : List (AddOp Elem ℝ)} (h : cellOps2 e g wphi laStart laEnd t i ps ia c = .ok o) : ∀ y ∈ o, y.1.2.2.2 = c.ks := by
  refine opsLoop_cells _ (fun d => d.2.2.2 = c.ks) _ _ h fun x _ o ho => ?_
  obtain ⟨s, -, ho⟩ := Config.obind_ok ho
  unfold atomOps2 at ho
  obtain ⟨rl, -, ho⟩ := Config.obind_ok ho
  obtain ⟨a, ha, ho⟩ := Config.obind_ok ho
  obtain ⟨rc, -, ho⟩ := Config.obind_ok ho
  obtain ⟨b, hb, ho⟩ := Config.obind_ok ho
  injection ho with ho
  subst ho
  intro y hy
  rcases List.mem_append.mp hy with hy | hy
  · exact opsLoop_cells _ (fun d => d.2.2.2 = c.ks) _ _ ha (fun _ _ _ h => lineOps_cell h) y hy
  · exact opsLoop_cells _ (fun d => d.2.2.2 = c.ks) _ _ hb (fun _ _ _ h => contOps_cell h) y hy

/-- A loop that succeeds is made of iterations that succeed. -/
theorem opsLoop_forall {ι β : Type} (f : ι → Outcome (List β)) : ∀ (l : List ι) (ops : List β), opsLoop f l = .ok ops →
    ∃ os, List.Forall₂ (fun x o => f x = .ok o) l os ∧ os.flatten = ops
  | [], ops, h => by rw [opsLoop] at h; injection h with h; subst h; exact ⟨[], .nil, rfl⟩
  | x :: xs, ops, h => by
    rw [opsLoop] at h
    obtain ⟨a, ha, h⟩ := Config.obind_ok h
    obtain ⟨b, hb, h⟩ := Config.obind_ok h
    injection h with h
    subst h
    obtain ⟨os, h1, h2⟩ := opsLoop_forall f xs b hb
    exact ⟨a :: os, .cons ha h1, by rw [List.flatten_cons, h2]⟩

theorem opsLoop_append {ι β : Type} (f : ι → Outcome (List β)) : ∀ (l m : List ι) (ops : List β), opsLoop f (l ++ m) = .ok ops →
    ∃ a b, opsLoop f l = .ok a ∧ opsLoop f m = .ok b ∧ a ++ b = ops
  | [], m, ops, h => ⟨[], ops, rfl, h, rfl⟩
  | x :: xs, m, ops, h => by
    rw [List.cons_append, opsLoop] at h
    obtain ⟨a, ha, h⟩ := Config.obind_ok h
    obtain ⟨b, hb, h⟩ := Config.obind_ok h
    injection h with h
    subst h
    obtain ⟨a', b', h1, h2, h3⟩ := opsLoop_append f xs m b hb
    exact ⟨a ++ a', b', by rw [opsLoop, ha, Outcome.ok_bind, h1, Outcome.ok_bind], h2, by rw [List.append_assoc, h3]⟩

/-- A loop over all ranks' work is one loop per rank. -/
theorem opsLoop_flatten {ι β : Type} (f : ι → Outcome (List β)) : ∀ (ls : List (List ι)) (ops : List β), opsLoop f ls.flatten = .ok ops →
    ∃ os, List.Forall₂ (fun l o => opsLoop f l = .ok o) ls os ∧ os.flatten = ops
  | [], ops, h => by rw [List.flatten_nil, opsLoop] at h; injection h with h; exact ⟨[], .nil, h⟩
  | l :: ls, ops, h => by
    rw [List.flatten_cons] at h
    obtain ⟨a, b, h1, h2, h3⟩ := opsLoop_append f _ _ _ h
    obtain ⟨os, h4, h5⟩ := opsLoop_flatten f ls b h2
    exact ⟨a :: os, .cons h1 h4, by rw [List.flatten_cons, h5, h3]⟩

/-! ### Normalisation -/

theorem lineGrid_ok (e : Env) (l : Line) (grid : List (ℝ × ℝ)) (h : lineGrid e l = .ok grid) :
    grid = (List.range (l.red - l.blue)).map fun k => ((e.ad.wavelength[l.blue + k]?).getD 0, (e.bin[l.blue + k]?).getD 0) := by
  unfold lineGrid at h
  obtain ⟨os, h1, h2⟩ := opsLoop_forall _ _ _ h
  rw [← h2]
  generalize List.range (l.red - l.blue) = L at h1
  clear h2 h
  induction L generalizing os with
  | nil => cases h1; rfl
  | cons x xs ih =>
    rw [List.map_cons] at h1
    cases h1 with
    | cons hx hxs =>
      rename_i o os'
      obtain ⟨a, ha, hx⟩ := Config.obind_ok hx
      obtain ⟨b, hb, hx⟩ := Config.obind_ok hx
      injection hx with hx
      subst hx
      rw [List.flatten_cons, ih _ hxs, List.map_cons]
      have h1 : e.ad.wavelength[l.blue + x]? = some a := by
        unfold readAt at ha; split at ha
        · rename_i v hv; injection ha with ha; rw [hv, ha]
        · cases ha
      have h2 : e.bin[l.blue + x]? = some b := by
        unfold readAt at hb; split at hb
        · rename_i v hv; injection hb with hb; rw [hv, hb]
        · cases hb
      rw [h1, h2]; rfl

/-- The rays of the 2D normalisation are those of the rates. -/
theorem normRays2_ok (g : Quad2) (hmu : g.muy.length = g.rays.incl) (hwm : g.wmuy.length = g.rays.incl) (c : Cell) :
    normRays2 g c = .ok ((List.range g.rays.dirs).flatMap fun d => (List.range g.rays.incl).map fun m =>
      ⟨along c (travel2 g.rays.dirs d (g.muy[m]?.getD 0)), 1 / g.rays.dirs * g.wmuy[m]?.getD 0⟩) := by
  unfold normRays2
  rw [opsLoop_ok _ (fun x : Nat × Nat => [(⟨along c (travel2 g.rays.dirs x.1 (g.muy[x.2]?.getD 0)), 1 / g.rays.dirs * g.wmuy[x.2]?.getD 0⟩ : Ray)])]
  · congr 1
    rw [List.flatMap_assoc]
    congr 1
    funext d
    induction (List.range g.rays.incl) with
    | nil => rfl
    | cons m ms ih => rw [List.map_cons, List.flatMap_cons, ih]; rfl
  · rintro ⟨d, m⟩ hx
    simp only [List.mem_flatMap, List.mem_map, List.mem_range, Prod.mk.injEq] at hx
    obtain ⟨d', _, m', hm', rfl, rfl⟩ := hx
    obtain ⟨x, hx⟩ : ∃ v, g.muy[m']? = some v := ⟨_, List.getElem?_eq_getElem (by omega)⟩
    obtain ⟨w, hw⟩ : ∃ v, g.wmuy[m']? = some v := ⟨_, List.getElem?_eq_getElem (by omega)⟩
    simp only [readAt_some _ _ _ hx, readAt_some _ _ _ hw, Outcome.ok_bind, mu_travel, hx, hw, Option.getD_some]

/-- The factor normalises the profile over any rays that sum like the ray set. -/
theorem wphiOf_normalised {ι : Type} (e : Env) (c : Cell) (rays : List Ray) (r : RaySet ι)
    (hr : ∀ f : ℝ → ℝ → ℝ, (rays.map fun x => f x.vel x.weight).sum = ∑ x ∈ r.rays, f (r.vel x) (r.weight x))
    (kr : Fin e.ad.lines.length) (wphi : Nat → ℝ) (h : wphiOf e c rays kr = .ok (wphi kr))
    (h0 : ∑ la ∈ Ico e.ad.lines[kr].blue e.ad.lines[kr].red, ∑ x ∈ r.rays,
      (e.bin[la]?).getD 0 * r.weight x * lineProfile e c e.ad.lines[kr] ((e.ad.wavelength[la]?).getD 0) (r.vel x) ≠ 0) :
    Normalised e c wphi r kr := by
  unfold wphiOf at h
  have h1 : e.ad.lines[(kr : Nat)]? = some e.ad.lines[kr] := List.getElem?_eq_getElem kr.2
  rw [readAt_some _ _ _ h1, Outcome.ok_bind] at h
  obtain ⟨atom, hat, h⟩ := Config.obind_ok h
  obtain ⟨grid, hg, h⟩ := Config.obind_ok h
  injection h with h
  have hmass : e.mass e.ad.lines[kr].atom = atom.mass := by
    unfold Env.mass
    unfold readAt at hat
    split at hat
    · rename_i v hv; injection hat with hat; rw [hv, hat]; rfl
    · cases hat
  have hq : quad grid rays (fun w x => profileAt e.k e.phi e.ad.lines[kr].lambda0
        (dopplerWidth e.k e.ad.lines[kr].lambda0 atom.mass c.temperature c.vturb)
        (gammaFromBroadening e.ad.lines[kr] c.temperature c.ne c.nh0) w x.vel) =
      ∑ la ∈ Ico e.ad.lines[kr].blue e.ad.lines[kr].red, ∑ x ∈ r.rays,
      (e.bin[la]?).getD 0 * r.weight x * lineProfile e c e.ad.lines[kr] ((e.ad.wavelength[la]?).getD 0) (r.vel x) := by
    rw [lineGrid_ok e _ _ hg]
    unfold quad
    rw [List.map_map, sum_range_map, Finset.sum_Ico_eq_sum_range]
    refine Finset.sum_congr rfl fun la _ => ?_
    simp only [Function.comp_apply]
    rw [hr fun v w => profileAt e.k e.phi e.ad.lines[kr].lambda0
        (dopplerWidth e.k e.ad.lines[kr].lambda0 atom.mass c.temperature c.vturb)
        (gammaFromBroadening e.ad.lines[kr] c.temperature c.ne c.nh0) ((e.ad.wavelength[e.ad.lines[kr].blue + la]?).getD 0) v *
          (e.bin[e.ad.lines[kr].blue + la]?).getD 0 * w]
    refine Finset.sum_congr rfl fun x _ => ?_
    unfold lineProfile profileAt
    rw [hmass]
    ring
  have := (C55_normalised e.k e.phi e.ad.lines[kr].lambda0 (dopplerWidth e.k e.ad.lines[kr].lambda0 atom.mass c.temperature c.vturb)
        (gammaFromBroadening e.ad.lines[kr] c.temperature c.ne c.nh0) grid rays).1
  rw [hq] at this
  unfold Normalised
  rw [← this h0, ← h]

/-- With a uniform intensity and no preconditioning, a line's contribution is exactly `A + B J`, `B J`. -/
theorem uniform_rate {ι : Type} (e : Env) (c : Cell) (wphi : Nat → ℝ) (r : RaySet ι) (J : ℝ)
    (hI : ∀ la, ∀ x ∈ r.rays, r.I la x = J) (hpsi : ∀ la, ∀ x ∈ r.rays, r.psi la x = 0) (hW : ∑ x ∈ r.rays, r.weight x = 1) (ia a b : Nat)
    (hred : ∀ l ∈ e.ad.lines, l.red ≤ e.ad.wavelength.length) (hredc : ∀ t ∈ e.ad.conts, t.red ≤ e.ad.wavelength.length)
    (hn : ∀ kr : Fin e.ad.lines.length, e.ad.lines[kr].atom = ia → Normalised e c wphi r kr) :
    radiativeRate e c wphi (range e.ad.wavelength.length) r ia a b =
      (∑ kr : Fin e.ad.lines.length, if e.ad.lines[kr].atom = ia then
        pairRate e.ad.lines[kr].i e.ad.lines[kr].j a b (e.ad.lines[kr].aji + e.ad.lines[kr].bji * J) (e.ad.lines[kr].bij * J) else 0) +
      ∑ kr : Fin e.ad.conts.length, if e.ad.conts[kr].atom = ia then
        ∑ la ∈ Ico e.ad.conts[kr].blue e.ad.conts[kr].red, (e.bin[la]?).getD 0 *
          pairRate e.ad.conts[kr].i e.ad.conts[kr].j a b (contDown e c e.ad.conts[kr] la ((e.ad.wavelength[la]?).getD 0) J 0)
            (contUp e c e.ad.conts[kr] la ((e.ad.wavelength[la]?).getD 0) J 0) else 0 := by
  have hp : ∀ (i j : Nat) (x y w : ℝ), pairRate i j a b (w * x) (w * y) = w * pairRate i j a b x y := by
    intro i j x y w; unfold pairRate; split_ifs <;> ring
  have hfil : ∀ (lo hi : Nat), hi ≤ e.ad.wavelength.length → (range e.ad.wavelength.length).filter (fun la => lo ≤ la ∧ la < hi) = Ico lo hi := by
    intro lo hi h
    ext la
    simp only [Finset.mem_filter, Finset.mem_range, Finset.mem_Ico]
    omega
  unfold radiativeRate rayRate
  simp only [mul_add, Finset.sum_add_distrib, Finset.mul_sum]
  congr 1
  · have : ∀ la ∈ range e.ad.wavelength.length, (∑ x ∈ r.rays, ∑ kr : Fin e.ad.lines.length, (e.bin[la]?).getD 0 * r.weight x *
        (if e.ad.lines[kr].atom = ia ∧ e.ad.lines[kr].blue ≤ la ∧ la < e.ad.lines[kr].red then
          wphi kr * pairRate e.ad.lines[kr].i e.ad.lines[kr].j a b (lineDown e c e.ad.lines[kr] ((e.ad.wavelength[la]?).getD 0) (r.vel x) (r.I la x) (r.psi la x))
            (lineUp e c e.ad.lines[kr] ((e.ad.wavelength[la]?).getD 0) (r.vel x) (r.I la x) (r.psi la x)) else 0)) =
        ∑ kr : Fin e.ad.lines.length, if e.ad.lines[kr].atom = ia then (if e.ad.lines[kr].blue ≤ la ∧ la < e.ad.lines[kr].red then
          ∑ x ∈ r.rays, (e.bin[la]?).getD 0 * r.weight x * lineProfile e c e.ad.lines[kr] ((e.ad.wavelength[la]?).getD 0) (r.vel x) *
          (wphi kr * pairRate e.ad.lines[kr].i e.ad.lines[kr].j a b (e.ad.lines[kr].aji + e.ad.lines[kr].bji * J) (e.ad.lines[kr].bij * J)) else 0) else 0 := by
      intro la _
      rw [Finset.sum_comm]
      refine Finset.sum_congr rfl fun kr _ => ?_
      by_cases h1 : e.ad.lines[kr].atom = ia
      · by_cases h2 : e.ad.lines[kr].blue ≤ la ∧ la < e.ad.lines[kr].red
        · rw [if_pos h1, if_pos h2]
          refine Finset.sum_congr rfl fun x hx => ?_
          rw [if_pos ⟨h1, h2⟩, hI la x hx, hpsi la x hx]
          simp only [lineDown, lineUp, mul_zero, sub_zero, zero_mul, mul_one]
          rw [hp]; ring
        · rw [if_pos h1, if_neg h2]
          exact Finset.sum_eq_zero fun x _ => by rw [if_neg fun h => h2 h.2, mul_zero]
      · rw [if_neg h1]
        exact Finset.sum_eq_zero fun x _ => by rw [if_neg fun h => h1 h.1, mul_zero]
    rw [Finset.sum_congr rfl this, Finset.sum_comm]
    refine Finset.sum_congr rfl fun kr _ => ?_
    by_cases h1 : e.ad.lines[kr].atom = ia
    · simp only [if_pos h1]
      rw [← Finset.sum_filter, hfil e.ad.lines[kr].blue e.ad.lines[kr].red (hred _ (List.getElem_mem kr.2))]
      have hk := hn kr h1
      unfold Normalised at hk
      simp only [← Finset.sum_mul]
      rw [← mul_assoc, mul_comm _ (wphi kr), hk, one_mul]
    · simp only [if_neg h1, Finset.sum_const_zero]
  · have : ∀ la ∈ range e.ad.wavelength.length, (∑ x ∈ r.rays, ∑ kr : Fin e.ad.conts.length, (e.bin[la]?).getD 0 * r.weight x *
        (if e.ad.conts[kr].atom = ia ∧ e.ad.conts[kr].blue ≤ la ∧ la < e.ad.conts[kr].red then
          pairRate e.ad.conts[kr].i e.ad.conts[kr].j a b (contDown e c e.ad.conts[kr] la ((e.ad.wavelength[la]?).getD 0) (r.I la x) (r.psi la x))
            (contUp e c e.ad.conts[kr] la ((e.ad.wavelength[la]?).getD 0) (r.I la x) (r.psi la x)) else 0)) =
        ∑ kr : Fin e.ad.conts.length, if e.ad.conts[kr].atom = ia then (if e.ad.conts[kr].blue ≤ la ∧ la < e.ad.conts[kr].red then
          (e.bin[la]?).getD 0 * pairRate e.ad.conts[kr].i e.ad.conts[kr].j a b (contDown e c e.ad.conts[kr] la ((e.ad.wavelength[la]?).getD 0) J 0)
            (contUp e c e.ad.conts[kr] la ((e.ad.wavelength[la]?).getD 0) J 0) else 0) else 0 := by
      intro la _
      rw [Finset.sum_comm]
      refine Finset.sum_congr rfl fun kr _ => ?_
      by_cases h1 : e.ad.conts[kr].atom = ia
      · by_cases h2 : e.ad.conts[kr].blue ≤ la ∧ la < e.ad.conts[kr].red
        · rw [if_pos h1, if_pos h2, ← one_mul (_ * _), ← hW, Finset.sum_mul]
          refine Finset.sum_congr rfl fun x hx => ?_
          rw [if_pos ⟨h1, h2⟩, hI la x hx, hpsi la x hx]
          ring
        · rw [if_pos h1, if_neg h2]
          exact Finset.sum_eq_zero fun x _ => by rw [if_neg fun h => h2 h.2, mul_zero]
      · rw [if_neg h1]
        exact Finset.sum_eq_zero fun x _ => by rw [if_neg fun h => h1 h.1, mul_zero]
    rw [Finset.sum_congr rfl this, Finset.sum_comm]
    refine Finset.sum_congr rfl fun kr _ => ?_
    by_cases h1 : e.ad.conts[kr].atom = ia
    · simp only [if_pos h1]
      rw [← Finset.sum_filter, hfil e.ad.conts[kr].blue e.ad.conts[kr].red (hredc _ (List.getElem_mem kr.2))]
    · simp only [if_neg h1, Finset.sum_const_zero]

theorem balanced_iff_net {nl : Nat} (G : Nat → Nat → ℝ) (n : Nat → ℝ) :
    Balanced (fun a b : Fin nl => G a b) (fun a => n a) ↔ ∀ a : Fin nl, ∑ b ∈ range nl, (G a b * n b - G b a * n a) = 0 := by
  unfold Balanced
  refine forall_congr' fun a => ?_
  rw [Finset.sum_range, ← Finset.add_sum_erase _ _ (Finset.mem_univ a), sub_self, zero_add, Finset.sum_sub_distrib, sub_eq_zero,
    Finset.mul_sum]
  simp only [mul_comm (n a)]

theorem gamma_net {ι : Type} (e : Env) (he : e.Consistent) (hph : e.Physical) (c : Cell) (wphi : Nat → ℝ) (las : Finset Nat)
    (hlas : ∀ la ∈ las, la < e.ad.wavelength.length) (r : RaySet ι) (ia nl : Nat) (hnl : e.numLevel[ia]? = some nl)
    (coll : Nat → Nat → ℝ) :
    Balanced (fun a b : Fin nl => coll a b + radiativeRate e c wphi las r ia a b) (fun a => c.n ia a) ↔
      ∀ a : Fin nl, (∑ b ∈ range nl, (coll a b * c.n ia b - coll b a * c.n ia a)) + photonGain e c wphi las r ia a = 0 := by
  rw [balanced_iff_net (fun a b => coll a b + radiativeRate e c wphi las r ia a b) (c.n ia)]
  refine forall_congr' fun a => ?_
  rw [← rate_gain e he hph c wphi las hlas r ia nl hnl a, ← Finset.sum_add_distrib]
  refine Eq.congr_left (Finset.sum_congr rfl fun b _ => by ring)

theorem photonGain_psi {ι : Type} (e : Env) (heps : e.eps = 0) (c : Cell) (wphi : Nat → ℝ) (las : Finset Nat) (r : RaySet ι)
    (psi : Nat → ι → ℝ) (ia a : Nat) : photonGain e c wphi las { r with psi := psi } ia a = photonGain e c wphi las r ia a := by
  unfold photonGain netEmission
  simp only [heps, zero_mul, sub_zero, mul_one]

theorem cont_planck (e : Env) (c : Cell) (t : Cont) (la : Nat) (lambda : ℝ)
    (hn : c.n t.atom t.i = c.nStar t.atom t.i ∧ c.n t.atom t.j = c.nStar t.atom t.j) (h0 : c.nStar t.atom t.j ≠ 0)
    (hx : e.k.hck / (lambda * c.temperature) ≠ 0) :
    contEta e c t la lambda = contChi e c t la lambda * EmisSpec.planck e.k lambda c.temperature := by
  unfold contEta contChi contRatio twoHc2 EmisSpec.planck
  rw [hn.1, hn.2]
  have h1 : Real.exp (e.k.hck / (lambda * c.temperature)) ≠ 1 := fun h => hx (Real.exp_eq_one_iff _ |>.mp h)
  have h2 : Real.exp (e.k.hck / (lambda * c.temperature)) - 1 ≠ 0 := sub_ne_zero.mpr h1
  have h3 := Real.exp_ne_zero (e.k.hck / (lambda * c.temperature))
  rw [Real.exp_neg]
  generalize Real.exp (e.k.hck / (lambda * c.temperature)) = X at *
  by_cases hl : lambda = 0
  · subst hl; simp at hx
  field_simp

theorem dop_nonneg (k : Consts) (hk : 0 ≤ k.c) (l m T v : ℝ) (hl : 0 ≤ l) : 0 ≤ dopplerWidth k l m T v := by
  unfold dopplerWidth; positivity

theorem pairRate_nonneg (i j a b : Nat) (x y : ℝ) (hx : 0 ≤ x) (hy : 0 ≤ y) : 0 ≤ pairRate i j a b x y := by
  unfold pairRate; split_ifs <;> simp [hx, hy, add_nonneg]

theorem getD_nonneg {l : List ℝ} (h : ∀ x ∈ l, 0 ≤ x) (i : Nat) : 0 ≤ (l[i]?).getD 0 := by
  cases hx : l[i]? with
  | none => simp
  | some x => exact h x (List.mem_of_getElem? hx)

end DexRT.RadGamma
