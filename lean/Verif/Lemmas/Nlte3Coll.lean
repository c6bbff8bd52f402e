import Verif.Lemmas.NlteColl
import Verif.Lemmas.Nlte3State
import Verif.Props.Lte
import Verif.Lemmas.Emis
/-! Lemmas for C93: the collisional rates of all atoms and cells. -/
namespace DexRT.Nlte3
open DexRT DexRT.Fs DexRT.AtmosFile DexRT.Dir DexRT.Given3 DexRT.Emis DexRT.Lte3 DexRT.RadGamma Classical
open DexRT.Nlte (RawColl collsOf block setBlock sliceCol atomColls slice_of popsAt_eq collisions_total collsOf_ok atomColls_tables setBlock_in setBlock_out)

variable {q : Setup} {k nx ny nz : Nat} {a : Cond} {pf : Coord3 → Emis.Pops} {st : Started}

/-- all the threads of the kernels over the cells of all atoms -/
theorem collThreads_ok (hq : NlteReady q) (p : PopsField.Pops) (hrows : PopsField.HasRows (LteRun.fieldAtoms q.r.ad) p) (sched : List (Nat × Nat)) (hn : sched.Nodup)
    (hv : ∀ t ∈ sched, t.1 < q.r.ad.atoms.length ∧ t.2 < p.cols) :
    ∀ G : Elem → ℝ, (∀ t ∈ sched, ∀ x y, G (t.1, x, y, t.2) = 0) → ∃ G', sched.foldlM (collThread q st p) G = .ok G' ∧
      (∀ t ∈ sched, ∀ x, q.r.ad.atoms[t.1]? = some x → DexRT.Lte.computeCollisions q.ck x.lv (collCell st t.2)
        (fun l => LteRun.popsAt q.r.ad p t.2 t.1 l) (atomColls (x.top + 1) (q.colls t.1)) (fun _ _ => 0) = .ok (block G' t.1 (x.top + 1) t.2)) ∧
      ∀ e : Elem, (e.1, e.2.2.2) ∉ sched → G' e = G e := by
  induction sched with
  | nil => intro G _; exact ⟨G, rfl, by simp, fun _ _ => rfl⟩
  | cons t ts ih =>
    intro G hz
    obtain ⟨h1, h2⟩ := hv t List.mem_cons_self
    obtain ⟨x, hx⟩ : ∃ x, q.r.ad.atoms[t.1]? = some x := ⟨_, List.getElem?_eq_getElem h1⟩
    obtain ⟨s1, s2⟩ := slice_of q.r.ad hx
    have hb0 : block G t.1 (x.top + 1) t.2 = fun _ _ => 0 := by
      funext i j; exact hz t List.mem_cons_self i j
    obtain ⟨C, hC⟩ := collisions_total q.ck x.lv (collCell st t.2) (fun l => LteRun.popsAt q.r.ad p t.2 t.1 l) (atomColls (x.top + 1) (q.colls t.1))
      (atomColls_tables _ _ fun c hc => (hq.colls t.1 x hx c hc).2.2) (fun _ _ => 0)
    have hthread : collThread q st p G t = .ok (setBlock G t.1 (x.top + 1) t.2 C) := by
      unfold collThread
      rw [readAt_some _ _ _ hx, Outcome.ok_bind, s1, Outcome.ok_bind, collsOf_ok _ _ (fun c hc => ⟨(hq.colls t.1 x hx c hc).1, (hq.colls t.1 x hx c hc).2.1⟩),
        Outcome.ok_bind]
      have hsl : sliceCol p (PopsField.start (LteRun.fieldAtoms q.r.ad) t.1, x.top + 1) (x.top + 1) t.2 = .ok (fun l => LteRun.popsAt q.r.ad p t.2 t.1 l) := by
        unfold sliceCol
        rw [if_pos ⟨le_refl _, PopsField.rows_in _ s2 hrows, h2⟩]
        rfl
      rw [hsl, Outcome.ok_bind, hb0, hC, Outcome.ok_bind]
    obtain ⟨G', g1, g2, g3⟩ := ih (List.nodup_cons.1 hn).2 (fun u hu => hv u (List.mem_cons_of_mem _ hu)) (setBlock G t.1 (x.top + 1) t.2 C) (fun u hu x' y' => by
      rw [setBlock_out]
      · exact hz u (List.mem_cons_of_mem _ hu) x' y'
      · intro e
        exact (List.nodup_cons.1 hn).1 ((show u = t from e) ▸ hu))
    refine ⟨G', by rw [List.foldlM_cons, hthread]; exact g1, fun u hu x' hx' => ?_, fun e he => ?_⟩
    · rcases List.mem_cons.1 hu with rfl | hu
      · obtain rfl : x = x' := Option.some.inj (hx.symm.trans hx')
        rw [hC]
        congr 1
        rw [← setBlock_in G u.1 (x.top + 1) u.2 C]
        funext i j
        exact (g3 (u.1, i, j, u.2) (List.nodup_cons.1 hn).1).symm
      · exact g2 u hu x' hx'
    · rw [g3 e (fun h => he (List.mem_cons_of_mem _ h)), setBlock_out]
      exact fun h => he (h ▸ List.mem_cons_self)

/-- the matrices after the collisions -/
theorem collGamma_ok {st0 : Started} {m : Nat → ℝ} {h : Coord3 → ℝ} (hf : Fits q.r.s k nx ny nz) (hq : NlteReady q) (hH : Holds q.r k nx ny nz a pf st0)
    (hC : Cells q.r k nx ny nz a h pf { st0 with nh0 := m }) (lte sched : List (Nat × Nat))
    (hl : lte.Perm (PopsField.threads (LteRun.fieldAtoms q.r.ad) (nx * ny * nz * (2 ^ k * 2 ^ k * 2 ^ k))))
    (hs : sched.Perm (PopsField.threads (LteRun.fieldAtoms q.r.ad) (nx * ny * nz * (2 ^ k * 2 ^ k * 2 ^ k)))) (old : Nat → ℝ) :
    ∃ G, collGamma q { st0 with nh0 := m } lte sched old = .ok G ∧ ∀ c, InGrid k nx ny nz c → ∀ adr, Addr3 (2 ^ k) st0.g.bm c adr →
      ∀ ia x, q.r.ad.atoms[ia]? = some x → Collisional q a h c ia x (block G ia (x.top + 1) adr.toNat) := by
  obtain ⟨p, p1, p2, p3, p4⟩ := star_ok hf hH lte hl old
  have hrows : PopsField.HasRows (LteRun.fieldAtoms q.r.ad) p := by unfold PopsField.HasRows; rw [p2]; exact hH.rows
  have hlen : (LteRun.fieldAtoms q.r.ad).length = q.r.ad.atoms.length := by simp [LteRun.fieldAtoms]
  obtain ⟨G, g1, g2, -⟩ := collThreads_ok (st := { st0 with nh0 := m }) hq p hrows sched (hs.nodup_iff.2 (PopsField.threads_nodup _ _)) (fun t ht => by
      have := (PopsField.threads_mem _ _ t.1 t.2).1 (hs.mem_iff.1 ht)
      rw [hlen] at this
      rw [p3, hH.cols]; exact this) (fun _ => 0) (fun _ _ _ _ => rfl)
  refine ⟨G, ?_, fun c hc adr hadr ia x hx => ?_⟩
  · unfold collGamma
    simp only
    rw [p1, Outcome.ok_bind]; exact g1
  · have hks := ((cells_addr hf st0.g.bm hH.good.map c hc).2.2 adr hadr).2
    have hia : ia < q.r.ad.atoms.length := (List.getElem?_eq_some_iff.1 hx).1
    have := g2 (ia, adr.toNat) (hs.mem_iff.2 ((PopsField.threads_mem _ _ _ _).2 ⟨by rw [hlen]; exact hia, hks⟩)) x hx
    unfold Collisional
    rw [← this]
    have hns : (fun l : Fin (x.top + 1) => ltePop q.r a c ia l) = fun l : Fin (x.top + 1) => LteRun.popsAt q.r.ad p adr.toNat ia l := by
      funext l; exact (p4 c hc adr hadr ia x hx l l.isLt).symm
    have hcc : collCell { st0 with nh0 := m } adr.toNat = { temperature := a.temperature c, ne := a.ne c, nhTot := a.nhTot c, nh0 := h c } := by
      have hp := hC.point c hc adr hadr
      unfold pointAt Lte3.point at hp
      injection hp with e1 e2 e3 e4 e5 e6
      unfold collCell
      simp only at e1 e2 e4 e6 ⊢
      rw [e1, e2, e4, e6]
    rw [hns, ← hcc]

end DexRT.Nlte3
