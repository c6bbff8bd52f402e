import Verif.Lemmas.RadGamma5
import Verif.Props.StatEq
import Verif.Props.Gamma
import Mathlib.Tactic.FinCases
import Mathlib.Tactic.Positivity
import Mathlib.Tactic.IntervalCases
/-!
# C80: the radiative rates
-/
namespace DexRT
open Emis Rates Dir RadGamma Finset

/-- C80 (2D): for every model atom, atmosphere, set of rays, populations, contents of the cascades, and every
distribution of the wavelength batches over ranks and order in which a rank processes them: if the batches together are all
wavelengths, the reduced rate matrices are the collisional rates plus, for every cell, atom and pair of levels, the
quadrature over all wavelengths and rays of the preconditioned rates of exactly the transitions of that atom between those
levels; nothing is read or written out of bounds. -/
theorem C80_rates2 (e : Env) (he : e.Consistent) (hph : e.Physical) (g : Quad2) (hv : g.cfg.Valid) (hm : g.cfg.mode ≠ .preaverage)
    (hdirs : g.rays.dirs = c0DirsToAverage g.cfg) (hmu : g.muy.length = g.rays.incl) (hwm : g.wmuy.length = g.rays.incl)
    (wphi : Cell → Nat → ℝ) (cells : List Cell) (hnd : (cells.map Cell.ks).Nodup) (I psi : Cell → Nat → Nat × Nat → ℝ)
    (ranks : List (List ((Nat × Nat) × (Nat → List ℝ) × (Nat → List ℝ)))) (hne : ranks ≠ [])
    (hb : ∀ bs ∈ ranks, ∀ b ∈ bs, Batch2 e g cells I psi b)
    (hp : (ranks.flatten.flatMap fun b => (List.range (b.1.2 - b.1.1)).map (b.1.1 + ·)).Perm (List.range e.ad.wavelength.length)) :
    ∃ opss, List.Forall₂ (fun bs ops => iterGamma2 e g wphi cells bs = .ok ops) ranks opss ∧
      ∀ coll, ∀ c ∈ cells, ∀ ia < e.numLevel.length, ∀ a b,
        reduceRanks (opss.mapIdx fun r ops => Summed (initialMem coll r) ops) (ia, a, b, c.ks) =
          coll (ia, a, b, c.ks) +
            radiativeRate e c (wphi c) (range e.ad.wavelength.length) (raySet2 g c (I c) (psi c)) ia a b := by
  have hb' : ∀ b ∈ ranks.flatten, Batch2 e g cells I psi b := fun b h => by
    obtain ⟨bs, h1, h2⟩ := List.mem_flatten.mp h; exact hb bs h1 b h2
  obtain ⟨all, h1, h2⟩ := iterGamma2_total e he hph g hv hm hdirs hmu hwm wphi cells hnd I psi ranks.flatten hb' hp
  obtain ⟨opss, h3, h4⟩ := opsLoop_flatten _ ranks all h1
  refine ⟨opss, h3, fun coll c hc ia hia a b => ?_⟩
  rw [C26_ranks coll all opss (by rintro rfl; cases h3; exact hne rfl) (by rw [h4]), ← h2 c hc ia hia a b]
  rfl

/-- Example data: three levels, a line over two wavelengths and a continuum over one. -/
noncomputable def radExEnv : Env :=
  { k := ⟨1, 1, 1, 1, 1, 1, 1, 1, 1, 1⟩, eps := 0, phi := fun _ _ => 1
    ad := { wavelength := [1, 2], lines := [⟨0, 2, 0, 0, 1, 0, 1, 1, 1, 1, []⟩], conts := [⟨1, 2, 0, 0, 2, [1]⟩],
            atoms := [⟨1, 1, 0, fun _ => ⟨1, 0, 0⟩⟩] }
    bin := [1, 1], lineRange := [(0, 1)], contRange := [(0, 1)], numLevel := [3] }

/-- Example cell. -/
noncomputable def radExCell : Cell := ⟨0, 0, 0, 0, 1, 1, 0, 1, 0, 0, 0, 0, fun _ _ => 1, fun _ _ => 1⟩

/-- Example rays: four directions, direction by direction, one inclination, batches of two wavelengths. -/
noncomputable def radExQuad : Quad2 := ⟨⟨2, 1, 0, 4, .dirByDir⟩, ⟨1, 1, 1, 2, 1⟩, ⟨3 / 2, true, 20000⟩, 0, [1 / 2], [1]⟩

/-- The hypotheses of `C80_rates2` hold for the example, on one rank. -/
example : radExEnv.Consistent ∧ radExEnv.Physical ∧ radExQuad.cfg.Valid ∧ radExQuad.cfg.mode ≠ .preaverage ∧
    radExQuad.rays.dirs = c0DirsToAverage radExQuad.cfg ∧ radExQuad.muy.length = radExQuad.rays.incl ∧
    radExQuad.wmuy.length = radExQuad.rays.incl ∧ (([radExCell].map Cell.ks).Nodup) ∧
    (∀ bs ∈ [[((0, 2), (fun _ => [1, 1]), (fun _ => [0, 0]))]], ∀ b ∈ bs,
      Batch2 radExEnv radExQuad [radExCell] (fun _ _ _ => 1) (fun _ _ _ => 0) b) ∧
    ([[((0, 2), ((fun _ => [1, 1]) : Nat → List ℝ), ((fun _ => [0, 0]) : Nat → List ℝ))]].flatten.flatMap fun b =>
      (List.range (b.1.2 - b.1.1)).map (b.1.1 + ·)).Perm (List.range radExEnv.ad.wavelength.length) := by
  refine ⟨⟨rfl, rfl, rfl, rfl, ?_, ?_, ?_, ?_, ?_⟩, ⟨by simp [radExEnv], by simp [radExEnv], by simp [radExEnv]⟩, ⟨by decide, by decide⟩,
    by decide, rfl, rfl, rfl, by simp, ?_, ?_⟩
  · rintro (_ | ia) r hr
    · simp [radExEnv] at hr; subst hr
      refine ⟨by simp [radExEnv], ?_⟩
      rintro (_ | kr) l hl
      · simp [radExEnv] at hl; subst hl; simp
      · simp [radExEnv] at hl
    · simp [radExEnv] at hr
  · rintro (_ | ia) r hr
    · simp [radExEnv] at hr; subst hr
      refine ⟨by simp [radExEnv], ?_⟩
      rintro (_ | kr) l hl
      · simp [radExEnv] at hl; subst hl; simp
      · simp [radExEnv] at hl
    · simp [radExEnv] at hr
  · intro l hl nl hn; simp [radExEnv] at hl; subst hl; simp [radExEnv] at hn; subst hn; simp
  · intro l hl nl hn; simp [radExEnv] at hl; subst hl; simp [radExEnv] at hn; subst hn; simp
  · intro l hl; simp [radExEnv] at hl; subst hl; simp
  · intro bs hbs b hb
    simp at hbs; subst hbs; simp at hb; subst hb
    have hst : ∀ v : ℝ, Stored2 radExQuad [radExCell] 0 2 (fun _ _ _ => v) (fun _ => [v, v]) := by
      intro v t ht c hc wave hw dir incl hi h1 h2
      simp at hc; subst hc
      have hi0 : incl = 0 := by simp [radExQuad, Quad2.rays, cascadeComputeSize] at hi; exact hi
      subst hi0
      have : probeLinearIndex radExQuad.cfg (raysToStorage radExQuad.cfg radExQuad.rays) ⟨radExCell.u, radExCell.v, dir, 0, wave⟩ = wave := by
        simp [probeLinearIndex, radExQuad, raysToStorage, Quad2.rays, cascadeComputeSize, radExCell, RcCfg.vary, Nat.mod_one]
      rw [this]
      have hw' : wave < 2 := by simpa using hw
      interval_cases wave <;> simp
    exact ⟨by decide, by simp [radExEnv], hst 1, hst 0⟩
  · exact List.Perm.refl _

/-- C80 (3D): the same, with one wavelength per formal solution. -/
theorem C80_rates3 (e : Env) (he : e.Consistent) (hph : e.Physical) (g : Quad3) (haz : 0 < g.cfg.c0az) (hpol : 0 < g.cfg.c0polar)
    (wphi : Cell → Nat → ℝ) (cells : List Cell) (hnd : (cells.map Cell.ks).Nodup) (I psi : Cell → Nat → Nat × Nat → ℝ)
    (ranks : List (List (Nat × (Nat → List ℝ) × (Nat → List ℝ)))) (hne : ranks ≠ [])
    (hb : ∀ bs ∈ ranks, ∀ b ∈ bs, Wave3 e g cells I psi b)
    (hp : (ranks.flatten.map (·.1)).Perm (List.range e.ad.wavelength.length)) :
    ∃ opss, List.Forall₂ (fun bs ops => iterGamma3 e g wphi cells bs = .ok ops) ranks opss ∧
      ∀ coll, ∀ c ∈ cells, ∀ ia < e.numLevel.length, ∀ a b,
        reduceRanks (opss.mapIdx fun r ops => Summed (initialMem coll r) ops) (ia, a, b, c.ks) =
          coll (ia, a, b, c.ks) +
            radiativeRate e c (wphi c) (range e.ad.wavelength.length) (raySet3 g c (I c) (psi c)) ia a b := by
  have hb' : ∀ b ∈ ranks.flatten, Wave3 e g cells I psi b := fun b h => by
    obtain ⟨bs, h1, h2⟩ := List.mem_flatten.mp h; exact hb bs h1 b h2
  obtain ⟨all, h1, h2⟩ := iterGamma3_total e he hph g haz hpol wphi cells hnd I psi ranks.flatten hb' hp
  obtain ⟨opss, h3, h4⟩ := opsLoop_flatten _ ranks all h1
  refine ⟨opss, h3, fun coll c hc ia hia a b => ?_⟩
  rw [C26_ranks coll all opss (by rintro rfl; cases h3; exact hne rfl) (by rw [h4]), ← h2 c hc ia hia a b]
  rfl

/-- C80 (threads, 2D): the kernel gives one thread to each cell and uses plain additions. For every interleaving of the
loads and stores of the threads of a launch, the matrices end as the sum of the additions: no update is lost. -/
theorem C80_threads2 (e : Env) (g : Quad2) (wphi : Cell → Nat → ℝ) (cells : List Cell) (hnd : (cells.map Cell.ks).Nodup)
    (laStart laEnd t ia : Nat) (i ps : List ℝ) (work : List (List (AddOp Elem ℝ)))
    (hwork : List.Forall₂ (fun c ops => cellOps2 e g (wphi c) laStart laEnd t i ps ia c = .ok ops) cells work)
    (mem : Elem → ℝ) (d : Cfg Elem ℝ)
    (h : Relation.ReflTransGen StepPlain ⟨work.map fun ops => ⟨ops, none⟩, mem⟩ d) (hf : Finished d) :
    d.mem = Summed mem work.flatten := by
  refine C26_plain work (fun x => (cells.map Cell.ks).idxOf x.2.2.2) (fun n ops hops o ho => ?_) mem d h hf
  obtain ⟨hn, rfl⟩ := List.getElem?_eq_some_iff.mp hops
  have hlen := hwork.length_eq
  have hn' : n < cells.length := by omega
  have hc := hwork.get hn' hn
  simp only [List.get_eq_getElem] at hc
  have := cellOps2_cell hc o ho
  simp only [this]
  have h2 : cells[n].ks = (cells.map Cell.ks)[n]'(by simpa using hn') := by simp
  rw [h2]
  exact hnd.idxOf_getElem n _

/-- With `PREAVERAGE` the radiative rates cannot be computed: the program stops. -/
theorem C80_preaverage (e : Env) (g : Quad2) (hm : g.cfg.mode = .preaverage) (wphi : Cell → Nat → ℝ) (cells : List Cell)
    (laStart laEnd t : Nat) (i ps : List ℝ) : computeGamma2 e g wphi cells laStart laEnd t i ps = .throws := if_pos hm

/-! ### What the rates mean -/

/-- C80 (photons): for all rates, populations and approximate operators, the net rate at which a level gains atoms is the
net number of photons emitted in the transitions to it from above and absorbed in the transitions to it from below. The
approximate operator does not appear, except through the constant `1e-20` the program adds to the opacity. -/
theorem C80_photons {ι : Type} (e : Env) (he : e.Consistent) (hph : e.Physical) (c : Cell) (wphi : Nat → ℝ) (las : Finset Nat)
    (hlas : ∀ la ∈ las, la < e.ad.wavelength.length) (r : RaySet ι) (ia nl : Nat) (hnl : e.numLevel[ia]? = some nl) (a : Nat) :
    ∑ b ∈ range nl, (radiativeRate e c wphi las r ia a b * c.n ia b - radiativeRate e c wphi las r ia b a * c.n ia a) =
      photonGain e c wphi las r ia a := rate_gain e he hph c wphi las hlas r ia nl hnl a

/-- C80 (fixed point): populations that solve the statistical equilibrium equations with the matrices the program builds
are exactly those for which collisions and photons balance in every level. -/
theorem C80_fixed_point {ι : Type} (e : Env) (he : e.Consistent) (hph : e.Physical) (c : Cell) (wphi : Nat → ℝ) (las : Finset Nat)
    (hlas : ∀ la ∈ las, la < e.ad.wavelength.length) (r : RaySet ι) (ia nl : Nat) (hnl : e.numLevel[ia]? = some nl)
    (coll : Nat → Nat → ℝ) :
    Balanced (fun a b : Fin nl => coll a b + radiativeRate e c wphi las r ia a b) (fun a => c.n ia a) ↔
      ∀ a : Fin nl, (∑ b ∈ range nl, (coll a b * c.n ia b - coll b a * c.n ia a)) + photonGain e c wphi las r ia a = 0 :=
  gamma_net e he hph c wphi las hlas r ia nl hnl coll

/-- C80 (approximate operator), when nothing is added to the opacity: the converged solution does not depend on the
approximate operator, so accelerated and plain lambda iteration (`psi = 0`) have the same fixed points. With the program's
`1e-20` this holds only up to the factor in `netEmission`, hence partial. -/
theorem C80_operator_partial {ι : Type} (e : Env) (he : e.Consistent) (hph : e.Physical) (heps : e.eps = 0) (c : Cell) (wphi : Nat → ℝ)
    (las : Finset Nat) (hlas : ∀ la ∈ las, la < e.ad.wavelength.length) (r : RaySet ι) (ia nl : Nat) (hnl : e.numLevel[ia]? = some nl)
    (coll : Nat → Nat → ℝ) :
    Balanced (fun a b : Fin nl => coll a b + radiativeRate e c wphi las r ia a b) (fun a => c.n ia a) ↔
      Balanced (fun a b : Fin nl => coll a b + radiativeRate e c wphi las { r with psi := fun _ _ => 0 } ia a b) (fun a => c.n ia a) := by
  rw [gamma_net e he hph c wphi las hlas r ia nl hnl, gamma_net e he hph c wphi las hlas _ ia nl hnl]
  simp only [photonGain_psi e heps c wphi las r]

/-- C80 (detailed balance): where the intensity along every ray is the source function of every transition of the atom at
that wavelength, radiation changes no level (`psi` zero or nothing added to the opacity). -/
theorem C80_detailed_balance {ι : Type} (e : Env) (he : e.Consistent) (hph : e.Physical) (c : Cell) (wphi : Nat → ℝ) (las : Finset Nat)
    (hlas : ∀ la ∈ las, la < e.ad.wavelength.length) (r : RaySet ι) (ia nl : Nat) (hnl : e.numLevel[ia]? = some nl)
    (heps : ∀ la ∈ las, ∀ x ∈ r.rays, e.eps * r.psi la x = 0)
    (hl : ∀ la ∈ las, ∀ x ∈ r.rays, ∀ l ∈ e.ad.lines, l.atom = ia → l.blue ≤ la → la < l.red →
      lineEta e c l ((e.ad.wavelength[la]?).getD 0) (r.vel x) = lineChi e c l ((e.ad.wavelength[la]?).getD 0) (r.vel x) * r.I la x)
    (hc : ∀ la ∈ las, ∀ x ∈ r.rays, ∀ t ∈ e.ad.conts, t.atom = ia → t.blue ≤ la → la < t.red →
      contEta e c t la ((e.ad.wavelength[la]?).getD 0) = contChi e c t la ((e.ad.wavelength[la]?).getD 0) * r.I la x) :
    Balanced (fun a b : Fin nl => radiativeRate e c wphi las r ia a b) (fun a => c.n ia a) := by
  have := (gamma_net e he hph c wphi las hlas r ia nl hnl fun _ _ => 0).2 fun a => by
    simp only [zero_mul, sub_zero, Finset.sum_const_zero, zero_add]
    unfold photonGain
    refine Finset.sum_eq_zero fun la hla => Finset.sum_eq_zero fun x hx => ?_
    have h1 : (∑ kr : Fin e.ad.lines.length, if e.ad.lines[kr].atom = ia ∧ e.ad.lines[kr].blue ≤ la ∧ la < e.ad.lines[kr].red then
        wphi kr * (gain e.ad.lines[kr].i e.ad.lines[kr].j a * netEmission e (lineEta e c e.ad.lines[kr] ((e.ad.wavelength[la]?).getD 0) (r.vel x))
          (lineChi e c e.ad.lines[kr] ((e.ad.wavelength[la]?).getD 0) (r.vel x)) (r.I la x) (r.psi la x)) else 0) = 0 := by
      refine Finset.sum_eq_zero fun kr _ => ?_
      split_ifs with h
      · rw [hl la hla x hx e.ad.lines[kr] (List.getElem_mem kr.2) h.1 h.2.1 h.2.2]
        unfold netEmission
        rw [heps la hla x hx]; ring
      · rfl
    have h2 : (∑ kr : Fin e.ad.conts.length, if e.ad.conts[kr].atom = ia ∧ e.ad.conts[kr].blue ≤ la ∧ la < e.ad.conts[kr].red then
        gain e.ad.conts[kr].i e.ad.conts[kr].j a * netEmission e (contEta e c e.ad.conts[kr] la ((e.ad.wavelength[la]?).getD 0))
          (contChi e c e.ad.conts[kr] la ((e.ad.wavelength[la]?).getD 0)) (r.I la x) (r.psi la x) else 0) = 0 := by
      refine Finset.sum_eq_zero fun kr _ => ?_
      split_ifs with h
      · rw [hc la hla x hx e.ad.conts[kr] (List.getElem_mem kr.2) h.1 h.2.1 h.2.2]
        unfold netEmission
        rw [heps la hla x hx]; ring
      · rfl
    simp only [h1, h2, add_zero, mul_zero]
  simpa only [zero_add] using this

/-- C80 (equilibrium): LTE populations of an atom with continua only, in black-body radiation of the local temperature, are
not changed by radiation. -/
theorem C80_black_body {ι : Type} (e : Env) (he : e.Consistent) (hph : e.Physical) (c : Cell) (wphi : Nat → ℝ) (las : Finset Nat)
    (hlas : ∀ la ∈ las, la < e.ad.wavelength.length) (r : RaySet ι) (ia nl : Nat) (hnl : e.numLevel[ia]? = some nl)
    (heps : ∀ la ∈ las, ∀ x ∈ r.rays, e.eps * r.psi la x = 0) (hT : c.temperature ≠ 0) (hk : e.k.hck ≠ 0)
    (hlines : ∀ l ∈ e.ad.lines, l.atom ≠ ia) (hlte : ∀ i, c.n ia i = c.nStar ia i) (hpos : ∀ t ∈ e.ad.conts, c.nStar t.atom t.j ≠ 0)
    (hI : ∀ la ∈ las, ∀ x ∈ r.rays, r.I la x = EmisSpec.planck e.k ((e.ad.wavelength[la]?).getD 0) c.temperature) :
    Balanced (fun a b : Fin nl => radiativeRate e c wphi las r ia a b) (fun a => c.n ia a) := by
  refine C80_detailed_balance e he hph c wphi las hlas r ia nl hnl heps (fun la _ x _ l hl h => absurd h (hlines l hl)) ?_
  intro la hla x hx t ht hat _ _
  obtain ⟨l, hl⟩ : ∃ m, e.ad.wavelength[la]? = some m := ⟨_, List.getElem?_eq_getElem (hlas la hla)⟩
  rw [hI la hla x hx]
  refine cont_planck e c t la _ ⟨by rw [hat]; exact hlte _, by rw [hat]; exact hlte _⟩ (hpos t ht) ?_
  rw [hl, Option.getD_some]
  exact div_ne_zero hk (mul_ne_zero (hph.waves l (List.mem_of_getElem? hl)) hT)

/-- C80 (signs): while the approximate operator takes no more than is there, no rate is negative, so the matrices satisfy the
hypothesis under which C25 proves the populations exist and are not negative. -/
theorem C80_nonneg {ι : Type} (e : Env) (c : Cell) (wphi : Nat → ℝ) (las : Finset Nat) (hlas : ∀ la ∈ las, la < e.ad.wavelength.length)
    (r : RaySet ι) (hs : Signs e c wphi r) (ia nl : Nat) (hp : Preconditioned e c r ia)
    (coll : Nat → Nat → ℝ) (hcoll : RatesNonneg fun a b : Fin nl => coll a b) :
    RatesNonneg fun a b : Fin nl => coll a b + radiativeRate e c wphi las r ia a b := by
  intro a b hab
  refine add_nonneg (hcoll a b hab) ?_
  unfold radiativeRate
  refine Finset.sum_nonneg fun la hla => Finset.sum_nonneg fun x hx => ?_
  obtain ⟨l, hl⟩ : ∃ m, e.ad.wavelength[la]? = some m := ⟨_, List.getElem?_eq_getElem (hlas la hla)⟩
  have hl0 : 0 ≤ l := hs.wave l (List.mem_of_getElem? hl)
  obtain ⟨p1, p2⟩ := hp la (hlas la hla) x hx l hl
  obtain ⟨k1, k2, k3, k4, k5⟩ := hs.k
  refine mul_nonneg (mul_nonneg (getD_nonneg hs.bin la) (hs.weight x hx)) ?_
  rw [hl, Option.getD_some]
  unfold rayRate
  refine add_nonneg (Finset.sum_nonneg fun kr _ => ?_) (Finset.sum_nonneg fun kr _ => ?_)
  · simp only
    split_ifs with h
    · obtain ⟨a1, a2, a3, a4⟩ := hs.line _ (List.getElem_mem kr.2)
      obtain ⟨q1, q2⟩ := p1 _ (List.getElem_mem kr.2) h.1 h.2.1 h.2.2
      have hP : 0 ≤ lineProfile e c e.ad.lines[kr] l (r.vel x) :=
        div_nonneg (hs.phi _ _) (mul_nonneg k3 (dop_nonneg e.k k4 _ _ _ _ a4))
      refine mul_nonneg (hs.wphi _) (pairRate_nonneg _ _ _ _ _ _ ?_ ?_)
      · exact mul_nonneg hP (add_nonneg (mul_nonneg a1 (sub_nonneg.mpr q2)) (mul_nonneg a2 (sub_nonneg.mpr q1)))
      · exact mul_nonneg hP (mul_nonneg a3 (sub_nonneg.mpr q1))
    · rfl
  · simp only
    split_ifs with h
    · obtain ⟨q1, q2⟩ := p2 _ (List.getElem_mem kr.2) h.1 h.2.1 h.2.2
      have hS : 0 ≤ contSigma e.ad.conts[kr] la := getD_nonneg (hs.sigma _ (List.getElem_mem kr.2)) _
      have hR : 0 ≤ contRatio e c e.ad.conts[kr] l :=
        mul_nonneg (div_nonneg (hs.nStar _ _) (hs.nStar _ _)) (Real.exp_pos _).le
      have hT : 0 ≤ twoHc2 e l := by unfold twoHc2; positivity
      have hF : 0 ≤ e.k.fourPi * l / e.k.hc := div_nonneg (mul_nonneg k2 hl0) k1
      refine pairRate_nonneg _ _ _ _ _ _ ?_ ?_
      · exact mul_nonneg (mul_nonneg (mul_nonneg hF hS) hR) (add_nonneg (mul_nonneg hT (sub_nonneg.mpr q2)) (sub_nonneg.mpr q1))
      · exact mul_nonneg (mul_nonneg hF hS) (sub_nonneg.mpr q1)
    · rfl

/-- The hypotheses of `C80_nonneg` hold for the example in a uniform field without preconditioning. -/
example : Signs radExEnv radExCell (fun _ => 1) (raySet2 radExQuad radExCell (fun _ _ => 1) (fun _ _ => 0)) ∧
    Preconditioned radExEnv radExCell (raySet2 radExQuad radExCell (fun _ _ => 1) (fun _ _ => 0)) 0 := by
  refine ⟨⟨by simp [radExEnv], by simp [radExEnv], by simp [radExEnv], by simp [radExEnv], by simp [radExEnv], by simp [radExEnv],
    by simp [radExCell], by simp, ?_⟩, ?_⟩
  · rintro ⟨d, m⟩ hx
    simp only [raySet2, radExQuad, Quad2.rays, cascadeComputeSize, Finset.mem_product, Finset.mem_range] at hx ⊢
    have : m = 0 := by omega
    subst this
    simp [RcCfg.vary]
  · intro la _ x _ lambda _
    refine ⟨fun l _ _ _ _ => ?_, fun t _ _ _ _ => ?_⟩ <;> simp [raySet2]

/-- The hypotheses of `C80_black_body` hold: the example without its line, LTE populations (all one), black-body radiation. -/
example : (∀ l ∈ ({ radExEnv with ad := { radExEnv.ad with lines := [] }, lineRange := [(0, 0)] } : Env).ad.lines, l.atom ≠ 0) ∧
    ({ radExEnv with ad := { radExEnv.ad with lines := [] }, lineRange := [(0, 0)] } : Env).Consistent ∧
    (∀ i, radExCell.n 0 i = radExCell.nStar 0 i) ∧ radExCell.nStar 0 2 ≠ 0 ∧ radExCell.temperature ≠ 0 ∧ radExEnv.k.hck ≠ 0 := by
  refine ⟨by simp, ⟨rfl, rfl, rfl, rfl, ?_, ?_, by simp, ?_, ?_⟩, by simp [radExCell], by simp [radExCell], by simp [radExCell], by simp [radExEnv]⟩
  · rintro (_ | ia) r hr
    · simp at hr; subst hr; simp
    · simp at hr
  · rintro (_ | ia) r hr
    · simp [radExEnv] at hr; subst hr
      refine ⟨by simp [radExEnv], ?_⟩
      rintro (_ | kr) l hl
      · simp [radExEnv] at hl; subst hl; simp
      · simp [radExEnv] at hl
    · simp [radExEnv] at hr
  · intro l hl nl hn; simp [radExEnv] at hl; subst hl; simp [radExEnv] at hn; subst hn; simp
  · intro l hl; simp [radExEnv] at hl; subst hl; simp

/-! ### Normalised profiles -/

/-- C80 (normalisation, 2D): the factor the program computes for a line in a cell makes the profile integrate to one over
exactly the wavelengths, directions, velocities and weights with which the rates use it (unless it integrates to zero). -/
theorem C80_wphi2 (e : Env) (g : Quad2) (hmu : g.muy.length = g.rays.incl) (hwm : g.wmuy.length = g.rays.incl) (c : Cell)
    (I psi : Nat → Nat × Nat → ℝ) (kr : Fin e.ad.lines.length) (wphi : Nat → ℝ)
    (h : (normRays2 g c >>= fun rays => wphiOf e c rays kr) = .ok (wphi kr))
    (h0 : ∑ la ∈ Ico e.ad.lines[kr].blue e.ad.lines[kr].red, ∑ x ∈ (raySet2 g c I psi).rays, (e.bin[la]?).getD 0 *
      (raySet2 g c I psi).weight x * lineProfile e c e.ad.lines[kr] ((e.ad.wavelength[la]?).getD 0) ((raySet2 g c I psi).vel x) ≠ 0) :
    Normalised e c wphi (raySet2 g c I psi) kr := by
  rw [normRays2_ok g hmu hwm c, Outcome.ok_bind] at h
  refine wphiOf_normalised e c _ _ (fun f => ?_) kr wphi h h0
  rw [sum_flatMap_map, sum_range_map, show (raySet2 g c I psi).rays = range g.rays.dirs ×ˢ range g.rays.incl from rfl, Finset.sum_product]
  refine Finset.sum_congr rfl fun d _ => ?_
  rw [List.map_map, sum_range_map]
  rfl

/-- C80 (normalisation, 3D). -/
theorem C80_wphi3 (e : Env) (g : Quad3) (c : Cell)
    (I psi : Nat → Nat × Nat → ℝ) (kr : Fin e.ad.lines.length) (wphi : Nat → ℝ)
    (h : wphiOf e c (normRays3 g c) kr = .ok (wphi kr))
    (h0 : ∑ la ∈ Ico e.ad.lines[kr].blue e.ad.lines[kr].red, ∑ x ∈ (raySet3 g c I psi).rays, (e.bin[la]?).getD 0 *
      (raySet3 g c I psi).weight x * lineProfile e c e.ad.lines[kr] ((e.ad.wavelength[la]?).getD 0) ((raySet3 g c I psi).vel x) ≠ 0) :
    Normalised e c wphi (raySet3 g c I psi) kr := by
  refine wphiOf_normalised e c _ _ (fun f => ?_) kr wphi h h0
  unfold normRays3
  rw [sum_flatMap_map, sum_range_map, show (raySet3 g c I psi).rays = range g.rays.polar ×ˢ range g.rays.az from rfl, Finset.sum_product,
    Finset.sum_comm]
  refine Finset.sum_congr rfl fun d _ => ?_
  rw [List.map_map, sum_range_map]
  refine Finset.sum_congr rfl fun p _ => ?_
  simp only [Function.comp_apply, raySet3, Nat.cast_mul]
  rfl

/-- C80 (Einstein coefficients): in a uniform radiation field and without preconditioning, the rates of the lines are
exactly `A_ji + B_ji J` and `B_ij J`, for every grid of wavelengths and rays, velocity and profile; those of the continua
are their integrals over wavelength. -/
theorem C80_uniform {ι : Type} (e : Env) (c : Cell) (wphi : Nat → ℝ) (r : RaySet ι) (J : ℝ)
    (hI : ∀ la, ∀ x ∈ r.rays, r.I la x = J) (hpsi : ∀ la, ∀ x ∈ r.rays, r.psi la x = 0) (hW : ∑ x ∈ r.rays, r.weight x = 1) (ia a b : Nat)
    (hred : ∀ l ∈ e.ad.lines, l.red ≤ e.ad.wavelength.length) (hredc : ∀ t ∈ e.ad.conts, t.red ≤ e.ad.wavelength.length)
    (hn : ∀ kr : Fin e.ad.lines.length, e.ad.lines[kr].atom = ia → Normalised e c wphi r kr) :
    radiativeRate e c wphi (range e.ad.wavelength.length) r ia a b =
      (∑ kr : Fin e.ad.lines.length, if e.ad.lines[kr].atom = ia then
        pairRate e.ad.lines[kr].i e.ad.lines[kr].j a b (e.ad.lines[kr].aji + e.ad.lines[kr].bji * J) (e.ad.lines[kr].bij * J) else 0) +
      ∑ kr : Fin e.ad.conts.length, if e.ad.conts[kr].atom = ia then
        ∑ la ∈ Ico e.ad.conts[kr].blue e.ad.conts[kr].red, (e.bin[la]?).getD 0 *
          pairRate e.ad.conts[kr].i e.ad.conts[kr].j a b (contDown e c e.ad.conts[kr] la ((e.ad.wavelength[la]?).getD 0) J 0)
            (contUp e c e.ad.conts[kr] la ((e.ad.wavelength[la]?).getD 0) J 0) else 0 :=
  uniform_rate e c wphi r J hI hpsi hW ia a b hred hredc hn

/-- The integral in `C80_wphi2` is not zero for the example's line, and the program computes a factor for it. -/
example : (∑ la ∈ Ico 0 2, ∑ x ∈ (raySet2 radExQuad radExCell (fun _ _ => 1) (fun _ _ => 0)).rays, (radExEnv.bin[la]?).getD 0 *
      (raySet2 radExQuad radExCell (fun _ _ => 1) (fun _ _ => 0)).weight x * lineProfile radExEnv radExCell ⟨0, 2, 0, 0, 1, 0, 1, 1, 1, 1, []⟩
        ((radExEnv.ad.wavelength[la]?).getD 0) ((raySet2 radExQuad radExCell (fun _ _ => 1) (fun _ _ => 0)).vel x) ≠ 0) ∧
    ∃ w, (normRays2 radExQuad radExCell >>= fun rays => wphiOf radExEnv radExCell rays 0) = .ok w := by
  constructor
  · have hP : ∀ l v, lineProfile radExEnv radExCell ⟨0, 2, 0, 0, 1, 0, 1, 1, 1, 1, []⟩ l v = 1 / Real.sqrt 2 := by
      intro l v
      simp [lineProfile, radExEnv, radExCell, dopplerWidth, Env.mass]
    have hr : (raySet2 radExQuad radExCell (fun _ _ => 1) (fun _ _ => 0)).rays = range 4 ×ˢ range 1 := by
      simp [raySet2, radExQuad, Quad2.rays, cascadeComputeSize, RcCfg.vary]
    have hw : ∀ d, (raySet2 radExQuad radExCell (fun _ _ => 1) (fun _ _ => 0)).weight (d, 0) = 1 / 4 := by
      intro d; simp [raySet2, radExQuad, Quad2.rays, cascadeComputeSize, RcCfg.vary]
    rw [hr]
    simp only [hP, Finset.sum_product, Finset.sum_range_one, hw]
    simp [radExEnv, Finset.sum_Ico_eq_sum_range, Finset.sum_range_succ]
  · rw [normRays2_ok radExQuad rfl rfl, Outcome.ok_bind]
    exact ⟨_, rfl⟩

end DexRT
