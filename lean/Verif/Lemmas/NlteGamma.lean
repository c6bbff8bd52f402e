import Verif.Lemmas.LteBatch
import Verif.Lemmas.RadGamma5
import Verif.Props.FormalSol
import Verif.Props.Lte
import Verif.Spec.NlteRun
/-! Lemmas for C89: additions to the matrices, the passes of a batch, the list of cells, and the normalisation of the profiles. -/
namespace DexRT.Nlte
open DexRT DexRT.Fs DexRT.AtmosFile DexRT.Dir DexRT.Given DexRT.Emis DexRT.LteRun DexRT.RadGamma DexRT.Rates Classical

section
open Finset
/-- The rays through cell `c` with what arrives along them. -/
noncomputable def quadRays (q : Setup) (k nx nz : Nat) (a : Cond) (h : Coord2 → ℝ) (pf : Coord2 → Emis.Pops) (march : Marched) (lam : Bool)
    (c : Coord2) : RaySet (Nat × Nat) :=
  raySet2 (q.quad (nx * 2 ^ k) (nz * 2 ^ k)) (gasCell q.r a h pf c) (arriving q.r.s (nx * 2 ^ k) (nz * 2 ^ k) march c)
    (operator q.r.s lam march c)

/-- The factor that makes the profile of line `kr` integrate to one over its wavelengths and the rays of the cell; one if the
integral is zero. -/
noncomputable def quadFactor (e : Env) (g : Quad2) (c : RadGamma.Cell) (kr : Nat) : ℝ :=
  match e.ad.lines[kr]? with
  | none => 0
  | some l =>
    let s := ∑ la ∈ Ico l.blue l.red, ∑ x ∈ range g.rays.dirs ×ˢ range g.rays.incl, (e.bin[la]?).getD 0 *
      (1 / g.rays.dirs * g.wmuy[x.2]?.getD 0) * lineProfile e c l ((e.ad.wavelength[la]?).getD 0) (along c (travel2 g.rays.dirs x.1 (g.muy[x.2]?.getD 0)))
    if s = 0 then 1 else 1 / s

end

theorem addOps_total (ops : List (AddOp Elem ℝ)) (G : Elem → ℝ) (d : Elem) : addOps ops G d = G d + total ops d := by
  unfold addOps
  induction ops generalizing G with
  | nil => simp [total]
  | cons o ops ih =>
    rw [List.foldl_cons, ih, total_cons]
    by_cases h : d = o.1
    · rw [if_pos h, if_pos h.symm]; ring
    · rw [if_neg h, if_neg (fun e => h e.symm)]; ring

theorem addOps_append (a b : List (AddOp Elem ℝ)) (G : Elem → ℝ) : addOps (a ++ b) G = addOps b (addOps a G) := by
  unfold addOps
  rw [List.foldl_append]

theorem passesG_ok (pass : Nat → Mem ℝ → Outcome (Mem ℝ)) (gamma : Nat → List ℝ → List ℝ → Outcome (List (AddOp Elem ℝ)))
    (merge : Nat → List ℝ → Arr2 ℝ → Outcome (Arr2 ℝ)) (Shape : Mem ℝ → Prop) (R : Nat → List ℝ → List ℝ → Prop)
    (hp : ∀ t m, Shape m → ∃ m1 c0 ps, pass t m = .ok m1 ∧ Shape m1 ∧ m1.bufs[0]? = some c0 ∧ m1.psi = some ps ∧ R t c0 ps) :
    ∀ (ts : List Nat), ts.Nodup → ∀ m, Shape m → ∃ i p : Nat → List ℝ, (∀ t ∈ ts, R t (i t) (p t)) ∧ ∀ ops, opsLoop (fun t => gamma t (i t) (p t)) ts = .ok ops →
      ∀ G J m' J', passesJ pass merge ts m J = .ok (m', J') → passesG pass gamma merge ts m G J = .ok (addOps ops G, J')
  | [], _, m, _ => ⟨fun _ => [], fun _ => [], fun _ h => by simp at h, fun ops ho G J m' J' hJ => by
      rw [opsLoop] at ho; injection ho with ho; subst ho
      rw [passesJ] at hJ; injection hJ with hJ; injection hJ with h1 h2; subst h2
      rfl⟩
  | t :: ts, hnd, m, hm => by
    obtain ⟨m1, c0, ps, e1, s1, e2, e3, r1⟩ := hp t m hm
    obtain ⟨i, p, h1, h2⟩ := passesG_ok pass gamma merge Shape R hp ts (List.nodup_cons.1 hnd).2 m1 s1
    have hne : ∀ t' ∈ ts, t' ≠ t := fun t' ht' e => (List.nodup_cons.1 hnd).1 (e ▸ ht')
    refine ⟨Function.update i t c0, Function.update p t ps, fun t' ht' => ?_, fun ops ho G J m' J' hJ => ?_⟩
    · rcases List.mem_cons.1 ht' with rfl | ht'
      · simpa using r1
      · rw [Function.update_of_ne (hne t' ht'), Function.update_of_ne (hne t' ht')]; exact h1 t' ht'
    · rw [opsLoop] at ho
      obtain ⟨a, ha, ho⟩ := Config.obind_ok ho
      obtain ⟨b, hb, ho⟩ := Config.obind_ok ho
      injection ho with ho; subst ho
      simp only [Function.update_self] at ha
      have hb' : opsLoop (fun t => gamma t (i t) (p t)) ts = .ok b := by
        rw [← hb]
        exact opsLoop_congr _ _ ts fun t' ht' => by
          simp only [Function.update_of_ne (hne t' ht')]
      rw [passesJ, e1, Outcome.ok_bind] at hJ
      have hrd : readAt m1.bufs 0 = .ok c0 := by unfold readAt; rw [e2]
      rw [hrd, Outcome.ok_bind] at hJ
      obtain ⟨J1, hJ1, hJ⟩ := Config.obind_ok hJ
      rw [passesG, e1, Outcome.ok_bind, hrd, Outcome.ok_bind, e3]
      simp only [ha, Outcome.ok_bind, hJ1]
      rw [addOps_append]
      exact h2 b hb' (addOps a G) J1 m' J' hJ
where
  opsLoop_congr {ι β : Type} (f g : ι → Outcome (List β)) : ∀ (l : List ι), (∀ x ∈ l, f x = g x) → opsLoop f l = opsLoop g l
    | [], _ => rfl
    | x :: l, h => by rw [opsLoop, opsLoop, h x List.mem_cons_self, opsLoop_congr f g l fun y hy => h y (List.mem_cons_of_mem _ hy)]

variable {q : Setup} {k nx nz : Nat} {a : Cond} {h : Coord2 → ℝ} {pf : Coord2 → Emis.Pops} {st : Started}

theorem loopIters_nodup {C : Type} (n : Nat) (bm : BlockMap C) : (loopIters n bm).Nodup := by
  unfold loopIters
  rw [List.nodup_flatMap]
  refine ⟨fun t _ => List.nodup_range.map fun x y e => ?_, ?_⟩
  · injection e with e1 e2; injection e2
  · refine List.nodup_range.imp fun {x y} hne p hp hp' => ?_
    obtain ⟨_, _, rfl⟩ := List.mem_map.1 hp
    obtain ⟨_, _, e⟩ := List.mem_map.1 hp'
    injection e with e1 e2
    exact hne e1.symm

theorem inGrid_of (c : Coord2) (hc : HasData2 (2 ^ k) nx nz (fun _ => True) c) : Given.InGrid k nx nz c := by
  have := hasData2_inGrid _ nx nz _ c hc
  unfold InGrid2 at this
  unfold Given.InGrid
  push_cast at this ⊢
  exact ⟨this.1.1, this.1.2, this.2.1, this.2.2⟩

/-- The list of cells: every cell of the grid, once. -/
structure CellsOf (r : LteRun.Lte) (k nx nz : Nat) (st : Started) (scr : Int → Emis.Pops) (cells : List RadGamma.Cell) : Prop where
  nodup : (cells.map RadGamma.Cell.ks).Nodup
  of : ∀ x ∈ cells, ∃ c adr, Given.InGrid k nx nz c ∧ Addr2 (2 ^ k) st.g.bm c adr ∧ x = gammaCell r st (scr adr) adr.toNat c
  has : ∀ c, Given.InGrid k nx nz c → ∀ adr, Addr2 (2 ^ k) st.g.bm c adr → gammaCell r st (scr adr) adr.toNat c ∈ cells

theorem cellList_ok {r : LteRun.Lte} (hf : Fits r.s k nx nz) (hm : MapFor2 (2 ^ k) nx nz (fun _ => True) st.g.bm) (scr : Int → Emis.Pops) :
    ∃ cells, cellList r st scr = .ok cells ∧ CellsOf r k nx nz st scr cells := by
  have H := iterSpace2 k nx nz (fun _ => True) st.g.bm (axes hf).1 (axes hf).2 hm
  have hco : ∀ p ∈ loopIters (2 ^ k * 2 ^ k) st.g.bm, ∃ c, loopCoord2 (2 ^ k) st.g.bm p.1 p.2 = .ok c ∧ HasData2 (2 ^ k) nx nz (fun _ => True) c ∧
      Addr2 (2 ^ k) st.g.bm c ((geo2 (2 ^ k)).loopIdx p.1 p.2) := H.co
  choose! C hC1 hC2 hC3 using hco
  have hok : cellList r st scr = .ok ((loopIters (2 ^ k * 2 ^ k) st.g.bm).flatMap fun p =>
      [gammaCell r st (scr ((geo2 (2 ^ k)).loopIdx p.1 p.2)) ((geo2 (2 ^ k)).loopIdx p.1 p.2).toNat (C p)]) := by
    unfold cellList
    rw [hf.block]
    refine opsLoop_ok _ _ _ fun p hp => ?_
    simp only [hC1 p hp, Outcome.ok_bind]
    have hin := inGrid_of _ (hC2 p hp)
    rw [if_pos ⟨(H.rng p hp).1, (H.rng p hp).2, hin.1, hin.2.2.1⟩]
  refine ⟨_, hok, ?_, ?_, ?_⟩
  · rw [← List.map_eq_flatMap, List.map_map]
    refine (List.nodup_map_iff_inj_on (loopIters_nodup _ _)).2 fun p hp p' hp' e => ?_
    have e : ((geo2 (2 ^ k)).loopIdx p.1 p.2).toNat = ((geo2 (2 ^ k)).loopIdx p'.1 p'.2).toNat := e
    have h1 := (H.rng p hp).1
    have h2 := (H.rng p' hp').1
    refine H.injI p hp p' hp' ?_
    show (geo2 (2 ^ k)).loopIdx p.1 p.2 = (geo2 (2 ^ k)).loopIdx p'.1 p'.2
    have h1 : 0 ≤ (geo2 (2 ^ k)).loopIdx p.1 p.2 := h1
    have h2 : 0 ≤ (geo2 (2 ^ k)).loopIdx p'.1 p'.2 := h2
    omega
  · intro x hx
    rw [List.mem_flatMap] at hx
    obtain ⟨p, hp, hx⟩ := hx
    rw [List.mem_singleton] at hx
    exact ⟨C p, _, inGrid_of _ (hC2 p hp), hC3 p hp, hx⟩
  · intro c hc adr hadr
    obtain ⟨p, hp, e⟩ := H.ontoC c (cells_addr hf st.g.bm hm c hc).1
    have e : loopCoord2 (2 ^ k) st.g.bm p.1 p.2 = .ok c := e
    have e1 := hC1 p hp
    rw [e] at e1; injection e1 with e1
    have e2 := addr_unique _ _ _ _ _ hadr (e1 ▸ hC3 p hp)
    rw [List.mem_flatMap]
    refine ⟨p, hp, ?_⟩
    rw [List.mem_singleton, ← e2, ← e1]

/-! ### Profile normalisation -/

theorem lineGrid_total (e : RadGamma.Env) (hb : e.bin.length = e.ad.wavelength.length) (l : Line) (hr : l.red ≤ e.ad.wavelength.length) :
    ∃ grid, lineGrid e l = .ok grid := by
  unfold lineGrid
  refine ⟨_, opsLoop_ok _ (fun la => [((e.ad.wavelength[la]?).getD 0, (e.bin[la]?).getD 0)]) _ fun la hla => ?_⟩
  obtain ⟨w, hw, rfl⟩ := List.mem_map.1 hla
  have hw := List.mem_range.1 hw
  have h1 : l.blue + w < e.ad.wavelength.length := by omega
  have h2 : l.blue + w < e.bin.length := by omega
  unfold readAt
  simp only [List.getElem?_eq_getElem h1, List.getElem?_eq_getElem h2, Outcome.ok_bind, Option.getD_some]

theorem wphi_value (e : RadGamma.Env) (hb : e.bin.length = e.ad.wavelength.length) (g : Quad2) (hmu : g.muy.length = g.rays.incl)
    (hwm : g.wmuy.length = g.rays.incl) (c : RadGamma.Cell) (kr : Nat) (hkr : kr < e.ad.lines.length)
    (hr : e.ad.lines[kr].red ≤ e.ad.wavelength.length) (hat : e.ad.lines[kr].atom < e.ad.atoms.length) :
    (normRays2 g c >>= fun rays => wphiOf e c rays kr) = .ok (quadFactor e g c kr) := by
  obtain ⟨l, hl⟩ : ∃ l, l = e.ad.lines[kr] := ⟨_, rfl⟩
  rw [← hl] at hr hat
  have h1 : e.ad.lines[kr]? = some l := by rw [hl]; exact List.getElem?_eq_getElem hkr
  obtain ⟨atom, hatom⟩ : ∃ x, e.ad.atoms[l.atom]? = some x := ⟨_, List.getElem?_eq_getElem hat⟩
  obtain ⟨grid, hg⟩ := lineGrid_total e hb l hr
  rw [normRays2_ok g hmu hwm c, Outcome.ok_bind]
  unfold wphiOf
  rw [readAt_some _ _ _ h1, Outcome.ok_bind, readAt_some _ _ _ hatom, Outcome.ok_bind]
  simp only [hg, Outcome.ok_bind]
  have hmass : e.mass l.atom = atom.mass := by unfold RadGamma.Env.mass; rw [hatom]; rfl
  have hq : quad grid ((List.range g.rays.dirs).flatMap fun d => (List.range g.rays.incl).map fun m =>
      ⟨along c (travel2 g.rays.dirs d (g.muy[m]?.getD 0)), 1 / g.rays.dirs * g.wmuy[m]?.getD 0⟩) (fun w x => profileAt e.k e.phi l.lambda0
        (dopplerWidth e.k l.lambda0 atom.mass c.temperature c.vturb) (gammaFromBroadening l c.temperature c.ne c.nh0) w x.vel) =
      ∑ la ∈ Finset.Ico l.blue l.red, ∑ x ∈ Finset.range g.rays.dirs ×ˢ Finset.range g.rays.incl, (e.bin[la]?).getD 0 *
      (1 / g.rays.dirs * g.wmuy[x.2]?.getD 0) * lineProfile e c l ((e.ad.wavelength[la]?).getD 0) (along c (travel2 g.rays.dirs x.1 (g.muy[x.2]?.getD 0))) := by
    rw [lineGrid_ok e _ _ hg]
    unfold quad
    rw [List.map_map, sum_range_map, Finset.sum_Ico_eq_sum_range]
    refine Finset.sum_congr rfl fun la _ => ?_
    simp only [Function.comp_apply]
    rw [sum_flatMap_map, sum_range_map, Finset.sum_product]
    refine Finset.sum_congr rfl fun d _ => ?_
    rw [List.map_map, sum_range_map]
    refine Finset.sum_congr rfl fun m _ => ?_
    simp only [Function.comp_apply]
    unfold lineProfile profileAt
    rw [hmass]
    ring
  unfold quadFactor
  rw [h1]
  simp only
  rw [← hq, profileEntry_eq]
  unfold wphi
  by_cases h0 : quad grid ((List.range g.rays.dirs).flatMap fun d => (List.range g.rays.incl).map fun m =>
      ⟨along c (travel2 g.rays.dirs d (g.muy[m]?.getD 0)), 1 / g.rays.dirs * g.wmuy[m]?.getD 0⟩) (fun w x => profileAt e.k e.phi l.lambda0
        (dopplerWidth e.k l.lambda0 atom.mass c.temperature c.vturb) (gammaFromBroadening l c.temperature c.ne c.nh0) w x.vel) = 0
  · rw [if_neg (not_not.2 h0), if_pos h0]
  · rw [if_pos h0, if_neg h0]

end DexRT.Nlte
