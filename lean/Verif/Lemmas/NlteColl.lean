import Verif.Lemmas.NlteState
import Verif.Props.Lte
import Verif.Lemmas.Emis
/-! Lemmas for C89: the collisional rates of all atoms and cells. -/
namespace DexRT.Nlte
open DexRT DexRT.Fs DexRT.AtmosFile DexRT.Dir DexRT.Given DexRT.Emis DexRT.LteRun DexRT.RadGamma Classical

variable {q : Setup} {k nx nz : Nat} {a : Cond} {pf : Coord2 → Emis.Pops} {st : Started}

theorem hPart_total (sc ie T ne nh : ℝ) : ∃ v, DexRT.Lte.hPart sc ie T ne nh = .ok v := by
  obtain ⟨u, hu, -, -⟩ := C50_partition T
  unfold DexRT.Lte.hPart
  simp only [hu, Outcome.ok_bind]
  exact ⟨_, rfl⟩

theorem collRates_total {n : Nat} (ck : DexRT.Lte.Consts) (lv : Fin n → DexRT.Lte.Level) (c : DexRT.Lte.Cell) (ns : Fin n → ℝ) (co : DexRT.Lte.Coll n)
    (h : co.temps.length = co.rates.length ∧ co.temps.Pairwise (· < ·) ∧ 0 < co.temps.length) : ∃ v, DexRT.Lte.collRates ck lv c ns co = .ok v := by
  obtain ⟨rate, hr, -, -⟩ := interp_range co.temps co.rates h.1 h.2.1 h.2.2 c.temperature
  obtain ⟨u, hu⟩ := hPart_total ck.sahaConst ck.ionE c.temperature c.ne c.nhTot
  unfold DexRT.Lte.collRates
  simp only [hr, Outcome.ok_bind]
  cases co.type <;> simp only [hu, Outcome.ok_bind] <;> exact ⟨_, rfl⟩

theorem collisions_total {n : Nat} (ck : DexRT.Lte.Consts) (lv : Fin n → DexRT.Lte.Level) (c : DexRT.Lte.Cell) (ns : Fin n → ℝ) (l : List (DexRT.Lte.Coll n))
    (h : ∀ co ∈ l, co.temps.length = co.rates.length ∧ co.temps.Pairwise (· < ·) ∧ 0 < co.temps.length) :
    ∀ C0, ∃ C, DexRT.Lte.computeCollisions ck lv c ns l C0 = .ok C := by
  induction l with
  | nil => intro C0; exact ⟨C0, rfl⟩
  | cons co l ih =>
    intro C0
    obtain ⟨v, hv⟩ := collRates_total ck lv c ns co (h co List.mem_cons_self)
    obtain ⟨C, hC⟩ := ih (fun co' h' => h co' (List.mem_cons_of_mem _ h')) (DexRT.Lte.store co.i co.j C0 v.1 v.2)
    exact ⟨C, by unfold DexRT.Lte.computeCollisions; rw [hv, Outcome.ok_bind]; exact hC⟩

theorem collsOf_ok (n : Nat) (l : List RawColl) (h : ∀ c ∈ l, c.i < n ∧ c.j < n) : collsOf n l = .ok (atomColls n l) := by
  unfold collsOf atomColls
  induction l with
  | nil => rfl
  | cons c l ih =>
    have hc := h c List.mem_cons_self
    unfold opsLoop
    rw [dif_pos hc, Outcome.ok_bind, ih (fun c' h' => h c' (List.mem_cons_of_mem _ h')), Outcome.ok_bind, List.filterMap_cons, dif_pos hc]
    rfl

theorem atomColls_tables (n : Nat) (l : List RawColl) (h : ∀ c ∈ l, c.temps.length = c.rates.length ∧ c.temps.Pairwise (· < ·) ∧ 0 < c.temps.length) :
    ∀ co ∈ atomColls n l, co.temps.length = co.rates.length ∧ co.temps.Pairwise (· < ·) ∧ 0 < co.temps.length := by
  intro co hco
  obtain ⟨c, hc, e⟩ := List.mem_filterMap.1 hco
  split at e
  · injection e with e; subst e; exact h c hc
  · cases e

theorem setBlock_in (G : Elem → ℝ) (ia n ks : Nat) (C : Fin n → Fin n → ℝ) : block (setBlock G ia n ks C) ia n ks = C := by
  funext x y
  unfold block setBlock
  rw [dif_pos ⟨rfl, x.isLt, y.isLt, rfl⟩]

theorem setBlock_out (G : Elem → ℝ) (ia n ks : Nat) (C : Fin n → Fin n → ℝ) (e : Elem) (h : (e.1, e.2.2.2) ≠ (ia, ks)) :
    setBlock G ia n ks C e = G e := by
  unfold setBlock
  rw [dif_neg]
  rintro ⟨h1, -, -, h4⟩
  exact h (by rw [h1, h4])

/-- all the threads of the kernels over the cells of all atoms -/
theorem collThreads_ok (hq : NlteReady q) (p : PopsField.Pops) (hrows : PopsField.HasRows (fieldAtoms q.r.ad) p) (sched : List (Nat × Nat)) (hn : sched.Nodup)
    (hv : ∀ t ∈ sched, t.1 < q.r.ad.atoms.length ∧ t.2 < p.cols) :
    ∀ G : Elem → ℝ, (∀ t ∈ sched, ∀ x y, G (t.1, x, y, t.2) = 0) → ∃ G', sched.foldlM (collThread q st p) G = .ok G' ∧
      (∀ t ∈ sched, ∀ x, q.r.ad.atoms[t.1]? = some x → DexRT.Lte.computeCollisions q.ck x.lv (collCell st t.2)
        (fun l => popsAt q.r.ad p t.2 t.1 l) (atomColls (x.top + 1) (q.colls t.1)) (fun _ _ => 0) = .ok (block G' t.1 (x.top + 1) t.2)) ∧
      ∀ e : Elem, (e.1, e.2.2.2) ∉ sched → G' e = G e := by
  induction sched with
  | nil => intro G _; exact ⟨G, rfl, by simp, fun _ _ => rfl⟩
  | cons t ts ih =>
    intro G hz
    obtain ⟨h1, h2⟩ := hv t List.mem_cons_self
    obtain ⟨x, hx⟩ : ∃ x, q.r.ad.atoms[t.1]? = some x := ⟨_, List.getElem?_eq_getElem h1⟩
    obtain ⟨s1, s2⟩ := slice_of q.r.ad hx
    have hb0 : block G t.1 (x.top + 1) t.2 = fun _ _ => 0 := by
      funext i j; exact hz t List.mem_cons_self i j
    obtain ⟨C, hC⟩ := collisions_total q.ck x.lv (collCell st t.2) (fun l => popsAt q.r.ad p t.2 t.1 l) (atomColls (x.top + 1) (q.colls t.1))
      (atomColls_tables _ _ fun c hc => (hq.colls t.1 x hx c hc).2.2) (fun _ _ => 0)
    have hthread : collThread q st p G t = .ok (setBlock G t.1 (x.top + 1) t.2 C) := by
      unfold collThread
      rw [readAt_some _ _ _ hx, Outcome.ok_bind, s1, Outcome.ok_bind, collsOf_ok _ _ (fun c hc => ⟨(hq.colls t.1 x hx c hc).1, (hq.colls t.1 x hx c hc).2.1⟩),
        Outcome.ok_bind]
      have hsl : sliceCol p (PopsField.start (fieldAtoms q.r.ad) t.1, x.top + 1) (x.top + 1) t.2 = .ok (fun l => popsAt q.r.ad p t.2 t.1 l) := by
        unfold sliceCol
        rw [if_pos ⟨le_refl _, PopsField.rows_in _ s2 hrows, h2⟩]
        rfl
      rw [hsl, Outcome.ok_bind, hb0, hC, Outcome.ok_bind]
    obtain ⟨G', g1, g2, g3⟩ := ih (List.nodup_cons.1 hn).2 (fun u hu => hv u (List.mem_cons_of_mem _ hu)) (setBlock G t.1 (x.top + 1) t.2 C) (fun u hu x' y' => by
      rw [setBlock_out]
      · exact hz u (List.mem_cons_of_mem _ hu) x' y'
      · intro e
        exact (List.nodup_cons.1 hn).1 ((show u = t from e) ▸ hu))
    refine ⟨G', by rw [List.foldlM_cons, hthread]; exact g1, fun u hu x' hx' => ?_, fun e he => ?_⟩
    · rcases List.mem_cons.1 hu with rfl | hu
      · obtain rfl : x = x' := Option.some.inj (hx.symm.trans hx')
        rw [hC]
        congr 1
        rw [← setBlock_in G u.1 (x.top + 1) u.2 C]
        funext i j
        exact (g3 (u.1, i, j, u.2) (List.nodup_cons.1 hn).1).symm
      · exact g2 u hu x' hx'
    · rw [g3 e (fun h => he (List.mem_cons_of_mem _ h)), setBlock_out]
      exact fun h => he (h ▸ List.mem_cons_self)

/-- the matrices after the collisions -/
theorem collGamma_ok {st0 : Started} {m : Nat → ℝ} {h : Coord2 → ℝ} (hf : Fits q.r.s k nx nz) (hq : NlteReady q) (hH : Holds q.r k nx nz a pf st0)
    (hC : Cells q.r k nx nz a h pf { st0 with nh0 := m }) (lte sched : List (Nat × Nat))
    (hl : lte.Perm (PopsField.threads (fieldAtoms q.r.ad) (nx * nz * (2 ^ k * 2 ^ k))))
    (hs : sched.Perm (PopsField.threads (fieldAtoms q.r.ad) (nx * nz * (2 ^ k * 2 ^ k)))) (old : Nat → ℝ) :
    ∃ G, collGamma q { st0 with nh0 := m } lte sched old = .ok G ∧ ∀ c, Given.InGrid k nx nz c → ∀ adr, Addr2 (2 ^ k) st0.g.bm c adr →
      ∀ ia x, q.r.ad.atoms[ia]? = some x → Collisional q a h c ia x (block G ia (x.top + 1) adr.toNat) := by
  obtain ⟨p, p1, p2, p3, p4⟩ := star_ok hf hH lte hl old
  have hrows : PopsField.HasRows (fieldAtoms q.r.ad) p := by unfold PopsField.HasRows; rw [p2]; exact hH.rows
  have hlen : (fieldAtoms q.r.ad).length = q.r.ad.atoms.length := by simp [fieldAtoms]
  obtain ⟨G, g1, g2, -⟩ := collThreads_ok (st := { st0 with nh0 := m }) hq p hrows sched (hs.nodup_iff.2 (PopsField.threads_nodup _ _)) (fun t ht => by
      have := (PopsField.threads_mem _ _ t.1 t.2).1 (hs.mem_iff.1 ht)
      rw [hlen] at this
      rw [p3, hH.cols]; exact this) (fun _ => 0) (fun _ _ _ _ => rfl)
  refine ⟨G, ?_, fun c hc adr hadr ia x hx => ?_⟩
  · unfold collGamma
    simp only
    rw [p1, Outcome.ok_bind]; exact g1
  · have hks := ((cells_addr hf st0.g.bm hH.good.map c hc).2.2 adr hadr).2
    have hia : ia < q.r.ad.atoms.length := (List.getElem?_eq_some_iff.1 hx).1
    have := g2 (ia, adr.toNat) (hs.mem_iff.2 ((PopsField.threads_mem _ _ _ _).2 ⟨by rw [hlen]; exact hia, hks⟩)) x hx
    unfold Collisional
    rw [← this]
    have hns : (fun l : Fin (x.top + 1) => ltePop q.r a c ia l) = fun l : Fin (x.top + 1) => popsAt q.r.ad p adr.toNat ia l := by
      funext l; exact (p4 c hc adr hadr ia x hx l l.isLt).symm
    have hcc : collCell { st0 with nh0 := m } adr.toNat = { temperature := a.temperature c, ne := a.ne c, nhTot := a.nhTot c, nh0 := h c } := by
      have hp := hC.point c hc adr hadr
      unfold pointAt LteRun.point at hp
      injection hp with e1 e2 e3 e4 e5 e6
      unfold collCell
      simp only at e1 e2 e4 e6 ⊢
      rw [e1, e2, e4, e6]
    rw [hns, ← hcc]

end DexRT.Nlte
