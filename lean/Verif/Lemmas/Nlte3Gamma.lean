import Verif.Lemmas.LteBatch3
import Verif.Lemmas.NlteSolve
import Verif.Lemmas.RadGamma5
import Verif.Props.FormalSol3
import Verif.Spec.NlteRun3
/-! Lemmas for C93: the list of cells, and the normalisation of the profiles. -/
namespace DexRT.Nlte3
open DexRT DexRT.Fs DexRT.AtmosFile DexRT.Dir DexRT.Given3 DexRT.Emis DexRT.Lte3 DexRT.RadGamma DexRT.Rates Classical

open DexRT.Nlte (loopIters_nodup lineGrid_total addOps)

/-- The factor that makes the profile of line `kr` integrate to one over its wavelengths and the rays of the cell; one if the
integral is zero. -/
noncomputable def quadFactor (e : Env) (g : Quad3) (c : RadGamma.Cell) (kr : Nat) : ℝ :=
  match e.ad.lines[kr]? with
  | none => 0
  | some l =>
    let s := ∑ la ∈ Finset.Ico l.blue l.red, ∑ x ∈ Finset.range g.rays.polar ×ˢ Finset.range g.rays.az, (e.bin[la]?).getD 0 *
      (1 / (g.rays.az * g.rays.polar)) * lineProfile e c l ((e.ad.wavelength[la]?).getD 0) (along c (rayDir3 g.rays.az x.2))
    if s = 0 then 1 else 1 / s

variable {q : Setup} {k nx ny nz : Nat} {a : Cond} {h : Coord3 → ℝ} {pf : Coord3 → Emis.Pops} {st : Started}

theorem inGrid_of (c : Coord3) (hc : HasData3 (2 ^ k) nx ny nz (fun _ => True) c) : InGrid k nx ny nz c := by
  have := hasData3_inGrid _ nx ny nz _ c hc
  unfold InGrid3 at this
  unfold InGrid
  push_cast at this ⊢
  exact ⟨this.1.1, this.1.2, this.2.1.1, this.2.1.2, this.2.2.1, this.2.2.2⟩

/-- The list of cells: every cell of the grid, once. -/
structure CellsOf (r : Lte3.Run) (k nx ny nz : Nat) (st : Started) (scr : Int → Emis.Pops) (cells : List RadGamma.Cell) : Prop where
  nodup : (cells.map RadGamma.Cell.ks).Nodup
  of : ∀ x ∈ cells, ∃ c adr, InGrid k nx ny nz c ∧ Addr3 (2 ^ k) st.g.bm c adr ∧ x = gammaCell r st (scr adr) adr.toNat c
  has : ∀ c, InGrid k nx ny nz c → ∀ adr, Addr3 (2 ^ k) st.g.bm c adr → gammaCell r st (scr adr) adr.toNat c ∈ cells

theorem cellList_ok {r : Lte3.Run} (hf : Fits r.s k nx ny nz) (hm : MapFor3 (2 ^ k) nx ny nz (fun _ => True) st.g.bm) (scr : Int → Emis.Pops) :
    ∃ cells, cellList r st scr = .ok cells ∧ CellsOf r k nx ny nz st scr cells := by
  have H := iterSpace3 k nx ny nz (fun _ => True) st.g.bm (bounds hf).1 (bounds hf).2.1 (bounds hf).2.2.1 hm
  have hco : ∀ p ∈ loopIters (2 ^ k * 2 ^ k * 2 ^ k) st.g.bm, ∃ c, loopCoord3 (2 ^ k) st.g.bm p.1 p.2 = .ok c ∧ HasData3 (2 ^ k) nx ny nz (fun _ => True) c ∧
      Addr3 (2 ^ k) st.g.bm c ((geo3 (2 ^ k)).loopIdx p.1 p.2) := H.co
  choose! C hC1 hC2 hC3 using hco
  have hok : cellList r st scr = .ok ((loopIters (2 ^ k * 2 ^ k * 2 ^ k) st.g.bm).flatMap fun p =>
      [gammaCell r st (scr ((geo3 (2 ^ k)).loopIdx p.1 p.2)) ((geo3 (2 ^ k)).loopIdx p.1 p.2).toNat (C p)]) := by
    unfold cellList
    rw [hf.block]
    refine opsLoop_ok _ _ _ fun p hp => ?_
    simp only [hC1 p hp, Outcome.ok_bind]
    have hin := inGrid_of _ (hC2 p hp)
    rw [if_pos ⟨(H.rng p hp).1, (H.rng p hp).2, hin.1, hin.2.2.1, hin.2.2.2.2.1⟩]
  refine ⟨_, hok, ?_, ?_, ?_⟩
  · rw [← List.map_eq_flatMap, List.map_map]
    refine (List.nodup_map_iff_inj_on (loopIters_nodup _ _)).2 fun p hp p' hp' e => ?_
    have e : ((geo3 (2 ^ k)).loopIdx p.1 p.2).toNat = ((geo3 (2 ^ k)).loopIdx p'.1 p'.2).toNat := e
    have h1 := (H.rng p hp).1
    have h2 := (H.rng p' hp').1
    refine H.injI p hp p' hp' ?_
    show (geo3 (2 ^ k)).loopIdx p.1 p.2 = (geo3 (2 ^ k)).loopIdx p'.1 p'.2
    have h1 : 0 ≤ (geo3 (2 ^ k)).loopIdx p.1 p.2 := h1
    have h2 : 0 ≤ (geo3 (2 ^ k)).loopIdx p'.1 p'.2 := h2
    omega
  · intro x hx
    rw [List.mem_flatMap] at hx
    obtain ⟨p, hp, hx⟩ := hx
    rw [List.mem_singleton] at hx
    exact ⟨C p, _, inGrid_of _ (hC2 p hp), hC3 p hp, hx⟩
  · intro c hc adr hadr
    obtain ⟨p, hp, e⟩ := H.ontoC c (cells_addr hf st.g.bm hm c hc).1
    have e : loopCoord3 (2 ^ k) st.g.bm p.1 p.2 = .ok c := e
    have e1 := hC1 p hp
    rw [e] at e1; injection e1 with e1
    have e2 := addr_unique _ _ _ _ _ hadr (e1 ▸ hC3 p hp)
    rw [List.mem_flatMap]
    refine ⟨p, hp, ?_⟩
    rw [List.mem_singleton, ← e2, ← e1]

/-! ### Profile normalisation -/

theorem wphi_value (e : RadGamma.Env) (hb : e.bin.length = e.ad.wavelength.length) (g : Quad3) (c : RadGamma.Cell) (kr : Nat)
    (hkr : kr < e.ad.lines.length) (hr : e.ad.lines[kr].red ≤ e.ad.wavelength.length) (hat : e.ad.lines[kr].atom < e.ad.atoms.length) :
    wphiOf e c (normRays3 g c) kr = .ok (quadFactor e g c kr) := by
  obtain ⟨l, hl⟩ : ∃ l, l = e.ad.lines[kr] := ⟨_, rfl⟩
  rw [← hl] at hr hat
  have h1 : e.ad.lines[kr]? = some l := by rw [hl]; exact List.getElem?_eq_getElem hkr
  obtain ⟨atom, hatom⟩ : ∃ x, e.ad.atoms[l.atom]? = some x := ⟨_, List.getElem?_eq_getElem hat⟩
  obtain ⟨grid, hg⟩ := lineGrid_total e hb l hr
  unfold wphiOf
  rw [readAt_some _ _ _ h1, Outcome.ok_bind, readAt_some _ _ _ hatom, Outcome.ok_bind]
  simp only [hg, Outcome.ok_bind]
  have hmass : e.mass l.atom = atom.mass := by unfold RadGamma.Env.mass; rw [hatom]; rfl
  have hq : quad grid (normRays3 g c) (fun w x => profileAt e.k e.phi l.lambda0
        (dopplerWidth e.k l.lambda0 atom.mass c.temperature c.vturb) (gammaFromBroadening l c.temperature c.ne c.nh0) w x.vel) =
      ∑ la ∈ Finset.Ico l.blue l.red, ∑ x ∈ Finset.range g.rays.polar ×ˢ Finset.range g.rays.az, (e.bin[la]?).getD 0 *
      (1 / (g.rays.az * g.rays.polar)) * lineProfile e c l ((e.ad.wavelength[la]?).getD 0) (along c (rayDir3 g.rays.az x.2)) := by
    rw [lineGrid_ok e _ _ hg]
    unfold quad
    rw [List.map_map, sum_range_map, Finset.sum_Ico_eq_sum_range]
    refine Finset.sum_congr rfl fun la _ => ?_
    simp only [Function.comp_apply]
    have hnr : normRays3 g c = (List.range g.rays.az).flatMap fun az => (List.range g.rays.polar).map fun _ =>
        ⟨along c (rayDir3 g.rays.az az), 1 / ((g.rays.az : ℝ) * g.rays.polar)⟩ := by
      unfold normRays3; push_cast; rfl
    rw [hnr, sum_flatMap_map, sum_range_map, Finset.sum_product, Finset.sum_comm]
    refine Finset.sum_congr rfl fun d _ => ?_
    rw [List.map_map, sum_range_map]
    refine Finset.sum_congr rfl fun m _ => ?_
    simp only [Function.comp_apply]
    unfold lineProfile profileAt
    rw [hmass]
    ring
  unfold quadFactor
  rw [h1]
  simp only
  rw [← hq, profileEntry_eq]
  unfold wphi
  by_cases h0 : quad grid (normRays3 g c) (fun w x => profileAt e.k e.phi l.lambda0
        (dopplerWidth e.k l.lambda0 atom.mass c.temperature c.vturb) (gammaFromBroadening l c.temperature c.ne c.nh0) w x.vel) = 0
  · rw [if_neg (not_not.2 h0), if_pos h0]
  · rw [if_pos h0, if_neg h0]

end DexRT.Nlte3
