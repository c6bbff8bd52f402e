import Verif.Lemmas.NlteStat
import Verif.Lemmas.NlteSolve
/-! Lemmas for C89: one iteration. -/
namespace DexRT.Nlte
open DexRT DexRT.Fs DexRT.AtmosFile DexRT.Dir DexRT.Given DexRT.Emis DexRT.LteRun DexRT.RadGamma Classical

variable {q : Setup} {k nx nz : Nat} {a : Cond} {pf : Coord2 → Emis.Pops} {st : Started}

theorem quadFactor_eq (hf : Fits q.r.s k nx nz) (c : RadGamma.Cell) : quadFactor q.env (q.quad (nx * 2 ^ k) (nz * 2 ^ k)) c = lineFactor q c := by
  funext kr
  unfold quadFactor lineFactor
  show (match q.r.ad.lines[kr]? with | none => (0 : ℝ) | some l => _) = _
  cases q.r.ad.lines[kr]? with
  | none => rfl
  | some l =>
    simp only
    have : (∑ la ∈ Finset.Ico l.blue l.red, ∑ x ∈ Finset.range (q.quad (nx * 2 ^ k) (nz * 2 ^ k)).rays.dirs ×ˢ Finset.range (q.quad (nx * 2 ^ k) (nz * 2 ^ k)).rays.incl, (q.env.bin[la]?).getD 0 *
      (1 / (q.quad (nx * 2 ^ k) (nz * 2 ^ k)).rays.dirs * (q.quad (nx * 2 ^ k) (nz * 2 ^ k)).wmuy[x.2]?.getD 0) * lineProfile q.env c l ((q.env.ad.wavelength[la]?).getD 0)
        (along c (travel2 (q.quad (nx * 2 ^ k) (nz * 2 ^ k)).rays.dirs x.1 ((q.quad (nx * 2 ^ k) (nz * 2 ^ k)).muy[x.2]?.getD 0)))) = profileSum q c l := by
      rw [quad_rays hf]
      refine Finset.sum_congr rfl fun la _ => Finset.sum_congr rfl fun x hx => ?_
      have hx2 := (Finset.mem_product.1 hx).2
      rw [Finset.mem_range] at hx2
      have hmu : (q.quad (nx * 2 ^ k) (nz * 2 ^ k)).muy[x.2]?.getD 0 = q.r.s.muy x.2 := by
        simp only [Setup.quad, List.getElem?_map]
        rw [List.getElem?_range hx2]; rfl
      rw [hmu]
      rfl
    rw [this]

theorem rate_eq (hf : Fits q.r.s k nx nz) (h : Coord2 → ℝ) (march : Marched) (lam : Bool) (c : Coord2) (ia n : Nat) (C : Fin n → Fin n → ℝ) (i j : Fin n) :
    C i j + radiativeRate q.env (gasCell q.r a h pf c) (quadFactor q.env (q.quad (nx * 2 ^ k) (nz * 2 ^ k)) (gasCell q.r a h pf c))
      (Finset.range q.r.ad.wavelength.length) (quadRays q k nx nz a h pf march lam c) ia i j = rate q k nx nz a h pf march lam c ia n C i j := by
  unfold rate
  rw [quadFactor_eq hf]
  congr 1
  unfold radiativeRate quadRays raySet2
  simp only
  rw [quad_rays hf]
  refine Finset.sum_congr rfl fun la _ => Finset.sum_congr rfl fun x hx => ?_
  have hx2 := (Finset.mem_product.1 hx).2
  rw [Finset.mem_range] at hx2
  have hmu : (q.quad (nx * 2 ^ k) (nz * 2 ^ k)).muy[x.2]?.getD 0 = q.r.s.muy x.2 := by
    simp only [Setup.quad, List.getElem?_map]
    rw [List.getElem?_range hx2]; rfl
  rw [hmu]
  rfl

theorem iter_ok (hf : Fits q.r.s k nx nz) (hq : NlteReady q) (hH : Holds q.r k nx nz a pf st) (hw : q.r.haveH = false → Warm k nx nz a)
    (lam : Bool) (o : IterOrder) (ho : IterOrders q k nx nz o) :
    (iterate2 q lam o st = .throws ∧ ¬ Solvable q k nx nz a lam pf) ∨
    ∃ it pf', iterate2 q lam o st = .ok it ∧ Holds q.r k nx nz a pf' it.st ∧ Iterates q k nx nz a lam pf pf' it.J ∧
      LargestChange q k nx nz a pf pf' it.change := by
  obtain ⟨m, h, m1, hC⟩ := nh0_ok hf hq.ready hH hw o.nh0 ho.nh0 st.nh0
  obtain ⟨G0, c1, c2⟩ := collGamma_ok hf hq hH hC o.lte o.coll ho.lte ho.coll o.oldStar
  obtain ⟨w, w1, w2⟩ := allWphi_ok hf hq hC
  obtain ⟨G, J, march, s1, s2, s3, s4⟩ := solve_ok hf hq hC o ho.batch lam w w2 G0
  have hlen : (fieldAtoms q.r.ad).length = q.r.ad.atoms.length := by simp [fieldAtoms]
  have hall := statThreads_ok (q := q) (st := { st with nh0 := m }) G o.elim o.stat (ho.stat.nodup_iff.2 (PopsField.threads_nodup _ _)) ho.elim st.pops 0 hH.rows (fun t ht => by
      have := (PopsField.threads_mem _ _ t.1 t.2).1 (ho.stat.mem_iff.1 ht)
      rw [hlen] at this
      rw [hH.cols]; exact this)
  have hit : iterate2 q lam o st = (o.stat.foldlM (statThread q { st with nh0 := m } G o.elim) (st.pops, 0) >>= fun p =>
      .ok { st := { g := st.g, atmos := st.atmos, pops := p.1, nh0 := m }, J := J, G := G, change := p.2 }) := by
    unfold iterate2
    simp only [m1, Outcome.ok_bind, c1, w1]
    simp only at s1
    by_cases hcpu : q.r.s.onCpu = true
    · rw [if_pos hcpu] at s1 ⊢
      rw [s1]
      rfl
    · rw [if_neg hcpu] at s1 ⊢
      rw [s1]
      rfl
  have hblock : ∀ c, Given.InGrid k nx nz c → ∀ adr, Addr2 (2 ^ k) st.g.bm c adr → ∀ ia x, q.r.ad.atoms[ia]? = some x →
      block G ia (x.top + 1) adr.toNat = rate q k nx nz a h pf march lam c ia (x.top + 1) (block G0 ia (x.top + 1) adr.toNat) := by
    intro c hc adr hadr ia x hx
    funext i j
    rw [← rate_eq hf]
    exact s4 c hc adr hadr ia (List.getElem?_eq_some_iff.1 hx).1 i j
  have hthr : ∀ c, Given.InGrid k nx nz c → ∀ adr, Addr2 (2 ^ k) st.g.bm c adr → ∀ ia x, q.r.ad.atoms[ia]? = some x → (ia, adr.toNat) ∈ o.stat := by
    intro c hc adr hadr ia x hx
    exact ho.stat.mem_iff.2 ((PopsField.threads_mem _ _ _ _).2 ⟨by rw [hlen]; exact (List.getElem?_eq_some_iff.1 hx).1,
      ((cells_addr hf st.g.bm hH.good.map c hc).2.2 adr hadr).2⟩)
  have hcell : ∀ t ∈ o.stat, ∃ c, Given.InGrid k nx nz c ∧ Addr2 (2 ^ k) st.g.bm c ((t.2 : Nat) : Int) := by
    intro t ht
    exact addr_onto hf st.g.bm hH.good.map t.2 ((PopsField.threads_mem _ _ t.1 t.2).1 (ho.stat.mem_iff.1 ht)).2
  rcases hall with ⟨e1, t, ht, x, hx, e2⟩ | ⟨p', d', e1, S⟩
  · left
    refine ⟨by rw [hit, e1]; rfl, fun hS => ?_⟩
    obtain ⟨c, hc, hadr⟩ := hcell t ht
    have hb := hblock c hc _ hadr t.1 x hx
    have hco := c2 c hc _ hadr t.1 x hx
    rw [Int.toNat_natCast] at hb hco
    obtain ⟨n1, n2⟩ := hS h march s2 c hc t.1 x hx _ hco
    rw [← hb] at n1 n2
    have he := ho.elim t.1 x hx t.2
    unfold solveCell at e2
    rw [dif_pos he] at e2
    obtain ⟨y, hy⟩ := StatEq.statEq_solve _ ⟨_, he⟩ n1 (n2 ⟨_, he⟩)
    have : StatEq.statEqCell ⟨o.elim t.1 t.2, he⟩ (block G t.1 (x.top + 1) t.2) (st.atmos.nhTot t.2 * x.abundance) = some fun i => y i * (st.atmos.nhTot t.2 * x.abundance) := by
      unfold StatEq.statEqCell; rw [Lin.solveRefined_eq, hy]; rfl
    rw [this] at e2
    cases e2
  · right
    obtain ⟨pf', hpf'⟩ := by_cell (k := k) (fun _ _ => (0 : ℝ)) st.g.bm (fun ks => popsAt q.r.ad p' ks)
    have hold : ∀ c, Given.InGrid k nx nz c → ∀ adr, Addr2 (2 ^ k) st.g.bm c adr → ∀ ia x, q.r.ad.atoms[ia]? = some x → ∀ l, l < x.top + 1 →
        StatEq.change q.ignoreFrac (st.atmos.nhTot adr.toNat * x.abundance) (popsAt q.r.ad st.pops adr.toNat ia l) (popsAt q.r.ad p' adr.toNat ia l) =
          StatEq.change q.ignoreFrac (a.nhTot c * x.abundance) (pf c ia l) (pf' c ia l) := by
      intro c hc adr hadr ia x hx l hl
      rw [hH.pops c hc adr hadr ia x hx l hl, (hH.gas c hc adr hadr).2.2.2, ← hpf' c adr hadr]
    refine ⟨_, pf', by rw [hit, e1]; rfl, ?_, ?_, ?_⟩
    · exact ⟨hH.good, hH.offset, hH.gas, hH.vel, fun c hc adr hadr ia x hx l hl => by rw [← hpf' c adr hadr],
        by show PopsField.HasRows _ p'; unfold PopsField.HasRows; rw [S.rows]; exact hH.rows, S.cols.trans hH.cols⟩
    · refine ⟨h, march, s2, s3, fun c hc ia x hx => ?_⟩
      obtain ⟨-, ⟨adr, hadr⟩, -⟩ := cells_addr hf st.g.bm hH.good.map c hc
      refine ⟨block G0 ia (x.top + 1) adr.toNat, c2 c hc adr hadr ia x hx, ?_⟩
      have hs := S.solved (ia, adr.toNat) (hthr c hc adr hadr ia x hx) x hx
      unfold solveCell at hs
      rw [dif_pos (ho.elim ia x hx adr.toNat)] at hs
      split at hs
      · rename_i y hy
        injection hs with hs
        obtain ⟨b1, b2⟩ := C25_conserves _ _ _ _ hy
        simp only at hs b1 b2
        rw [hs, hblock c hc adr hadr ia x hx] at b2
        rw [hs, (hH.gas c hc adr hadr).2.2.2] at b1
        rw [← hpf' c adr hadr]
        exact ⟨b2, b1⟩
      · cases hs
    · refine ⟨fun c hc ia x hx l hl hfr => ?_, ?_, S.grows⟩
      · obtain ⟨-, ⟨adr, hadr⟩, -⟩ := cells_addr hf st.g.bm hH.good.map c hc
        have hb := S.bound (ia, adr.toNat) (hthr c hc adr hadr ia x hx) x hx ⟨l, hl⟩
        simp only at hb
        rw [hold c hc adr hadr ia x hx l hl] at hb
        unfold StatEq.change at hb
        rwa [if_neg (not_lt.2 hfr)] at hb
      · rcases S.attained with e | ⟨t, ht, x, hx, l, e⟩
        · exact Or.inl e
        · obtain ⟨c, hc, hadr⟩ := hcell t ht
          have hb := hold c hc _ hadr t.1 x hx l l.isLt
          rw [Int.toNat_natCast] at hb
          simp only at e
          rw [hb] at e
          unfold StatEq.change at e
          split at e
          · exact Or.inl e
          · rename_i hfr
            exact Or.inr ⟨c, t.1, x, l, hc, hx, l.isLt, not_lt.1 hfr, e⟩

end DexRT.Nlte
