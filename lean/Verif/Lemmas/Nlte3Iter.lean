import Verif.Lemmas.Nlte3Stat
import Verif.Lemmas.Nlte3Solve
/-! Lemmas for C93: one iteration. -/
namespace DexRT.Nlte3
open DexRT DexRT.Fs DexRT.AtmosFile DexRT.Dir DexRT.Given3 DexRT.Emis DexRT.Lte3 DexRT.RadGamma Classical
open DexRT.Nlte (block solveCell)

variable {q : Setup} {k nx ny nz : Nat} {a : Cond} {pf : Coord3 → Emis.Pops} {st : Started}

theorem quadFactor_eq (hf : Fits q.r.s k nx ny nz) (c : RadGamma.Cell) : quadFactor q.env (q.quad (nx * 2 ^ k) (ny * 2 ^ k) (nz * 2 ^ k)) c = lineFactor q c := by
  funext kr
  unfold quadFactor lineFactor profileSum
  rw [quad_rays hf]
  rfl

theorem rate_eq (hf : Fits q.r.s k nx ny nz) (h : Coord3 → ℝ) (march : Marched) (lam : Bool) (c : Coord3) (ia n : Nat) (C : Fin n → Fin n → ℝ) (i j : Fin n) :
    C i j + radiativeRate q.env (gasCell q.r a h pf c) (quadFactor q.env (q.quad (nx * 2 ^ k) (ny * 2 ^ k) (nz * 2 ^ k)) (gasCell q.r a h pf c))
      (Finset.range q.r.ad.wavelength.length) (quadRays q k nx ny nz a h pf march lam c) ia i j = rate q k nx ny nz a h pf march lam c ia n C i j := by
  unfold rate
  rw [quadFactor_eq hf]
  congr 1
  unfold radiativeRate quadRays raySet3
  simp only
  rw [quad_rays hf]
  rfl

theorem iter_ok (hf : Fits q.r.s k nx ny nz) (hq : NlteReady q) (hH : Holds q.r k nx ny nz a pf st) (hw : q.r.haveH = false → Warm k nx ny nz a)
    (lam : Bool) (o : IterOrder) (ho : IterOrders q k nx ny nz o) :
    (iterate3 q lam o st = .throws ∧ ¬ Solvable q k nx ny nz a lam pf) ∨
    ∃ it pf', iterate3 q lam o st = .ok it ∧ Holds q.r k nx ny nz a pf' it.st ∧ Iterates q k nx ny nz a lam pf pf' it.J ∧
      LargestChange q k nx ny nz a pf pf' it.change := by
  obtain ⟨m, h, m1, hC⟩ := nh0_ok hf hq.ready.toSound hH hw o.nh0 ho.nh0 st.nh0
  obtain ⟨G0, c1, c2⟩ := collGamma_ok hf hq hH hC o.lte o.coll ho.lte ho.coll o.oldStar
  obtain ⟨w, w1, w2⟩ := allWphi_ok hf hq hC
  obtain ⟨G, J, march, s1, s2, s3, s4⟩ := solve_ok hf hq hC o ho.batch lam w w2 G0
  have hlen : (LteRun.fieldAtoms q.r.ad).length = q.r.ad.atoms.length := by simp [LteRun.fieldAtoms]
  have hall := statThreads_ok (q := q) (st := { st with nh0 := m }) G o.elim o.stat (ho.stat.nodup_iff.2 (PopsField.threads_nodup _ _)) ho.elim st.pops 0 hH.rows (fun t ht => by
      have := (PopsField.threads_mem _ _ t.1 t.2).1 (ho.stat.mem_iff.1 ht)
      rw [hlen] at this
      rw [hH.cols]; exact this)
  have hit : iterate3 q lam o st = (o.stat.foldlM (statThread q { st with nh0 := m } G o.elim) (st.pops, 0) >>= fun p =>
      .ok { st := { g := st.g, atmos := st.atmos, pops := p.1, nh0 := m }, J := J, G := G, change := p.2 }) := by
    unfold iterate3
    simp only [m1, Outcome.ok_bind, c1, w1]
    simp only at s1
    by_cases hcpu : q.r.onCpu = true
    · rw [if_pos hcpu] at s1 ⊢
      rw [s1]
      rfl
    · rw [if_neg hcpu] at s1 ⊢
      rw [s1]
      rfl
  have hblock : ∀ c, InGrid k nx ny nz c → ∀ adr, Addr3 (2 ^ k) st.g.bm c adr → ∀ ia x, q.r.ad.atoms[ia]? = some x →
      block G ia (x.top + 1) adr.toNat = rate q k nx ny nz a h pf march lam c ia (x.top + 1) (block G0 ia (x.top + 1) adr.toNat) := by
    intro c hc adr hadr ia x hx
    funext i j
    rw [← rate_eq hf]
    exact s4 c hc adr hadr ia (List.getElem?_eq_some_iff.1 hx).1 i j
  have hthr : ∀ c, InGrid k nx ny nz c → ∀ adr, Addr3 (2 ^ k) st.g.bm c adr → ∀ ia x, q.r.ad.atoms[ia]? = some x → (ia, adr.toNat) ∈ o.stat := by
    intro c hc adr hadr ia x hx
    exact ho.stat.mem_iff.2 ((PopsField.threads_mem _ _ _ _).2 ⟨by rw [hlen]; exact (List.getElem?_eq_some_iff.1 hx).1,
      ((cells_addr hf st.g.bm hH.good.map c hc).2.2 adr hadr).2⟩)
  have hcell : ∀ t ∈ o.stat, ∃ c, InGrid k nx ny nz c ∧ Addr3 (2 ^ k) st.g.bm c ((t.2 : Nat) : Int) := by
    intro t ht
    exact addr_onto hf st.g.bm hH.good.map t.2 ((PopsField.threads_mem _ _ t.1 t.2).1 (ho.stat.mem_iff.1 ht)).2
  rcases hall with ⟨e1, t, ht, x, hx, e2⟩ | ⟨p', d', e1, S⟩
  · left
    refine ⟨by rw [hit, e1]; rfl, fun hS => ?_⟩
    obtain ⟨c, hc, hadr⟩ := hcell t ht
    have hb := hblock c hc _ hadr t.1 x hx
    have hco := c2 c hc _ hadr t.1 x hx
    rw [Int.toNat_natCast] at hb hco
    obtain ⟨n1, n2⟩ := hS h march s2 c hc t.1 x hx _ hco
    rw [← hb] at n1 n2
    have he := ho.elim t.1 x hx t.2
    unfold solveCell at e2
    rw [dif_pos he] at e2
    obtain ⟨y, hy⟩ := StatEq.statEq_solve _ ⟨_, he⟩ n1 (n2 ⟨_, he⟩)
    have : StatEq.statEqCell ⟨o.elim t.1 t.2, he⟩ (block G t.1 (x.top + 1) t.2) (st.atmos.nhTot t.2 * x.abundance) = some fun i => y i * (st.atmos.nhTot t.2 * x.abundance) := by
      unfold StatEq.statEqCell; rw [Lin.solveRefined_eq, hy]; rfl
    rw [this] at e2
    cases e2
  · right
    obtain ⟨pf', hpf'⟩ := by_cell (k := k) (fun _ _ => (0 : ℝ)) st.g.bm (fun ks => LteRun.popsAt q.r.ad p' ks)
    have hold : ∀ c, InGrid k nx ny nz c → ∀ adr, Addr3 (2 ^ k) st.g.bm c adr → ∀ ia x, q.r.ad.atoms[ia]? = some x → ∀ l, l < x.top + 1 →
        StatEq.change q.ignoreFrac (st.atmos.nhTot adr.toNat * x.abundance) (LteRun.popsAt q.r.ad st.pops adr.toNat ia l) (LteRun.popsAt q.r.ad p' adr.toNat ia l) =
          StatEq.change q.ignoreFrac (a.nhTot c * x.abundance) (pf c ia l) (pf' c ia l) := by
      intro c hc adr hadr ia x hx l hl
      rw [hH.pops c hc adr hadr ia x hx l hl, (hH.gas c hc adr hadr).2.2.2, ← hpf' c adr hadr]
    refine ⟨_, pf', by rw [hit, e1]; rfl, ?_, ?_, ?_⟩
    · exact ⟨hH.good, hH.offset, hH.gas, hH.vel, fun c hc adr hadr ia x hx l hl => by rw [← hpf' c adr hadr],
        by show PopsField.HasRows _ p'; unfold PopsField.HasRows; rw [S.rows]; exact hH.rows, S.cols.trans hH.cols⟩
    · refine ⟨h, march, s2, s3, fun c hc ia x hx => ?_⟩
      obtain ⟨-, ⟨adr, hadr⟩, -⟩ := cells_addr hf st.g.bm hH.good.map c hc
      refine ⟨block G0 ia (x.top + 1) adr.toNat, c2 c hc adr hadr ia x hx, ?_⟩
      have hs := S.solved (ia, adr.toNat) (hthr c hc adr hadr ia x hx) x hx
      unfold solveCell at hs
      rw [dif_pos (ho.elim ia x hx adr.toNat)] at hs
      split at hs
      · rename_i y hy
        injection hs with hs
        obtain ⟨b1, b2⟩ := C25_conserves _ _ _ _ hy
        simp only at hs b1 b2
        rw [hs, hblock c hc adr hadr ia x hx] at b2
        rw [hs, (hH.gas c hc adr hadr).2.2.2] at b1
        rw [← hpf' c adr hadr]
        exact ⟨b2, b1⟩
      · cases hs
    · refine ⟨fun c hc ia x hx l hl hfr => ?_, ?_, S.grows⟩
      · obtain ⟨-, ⟨adr, hadr⟩, -⟩ := cells_addr hf st.g.bm hH.good.map c hc
        have hb := S.bound (ia, adr.toNat) (hthr c hc adr hadr ia x hx) x hx ⟨l, hl⟩
        simp only at hb
        rw [hold c hc adr hadr ia x hx l hl] at hb
        unfold StatEq.change at hb
        rwa [if_neg (not_lt.2 hfr)] at hb
      · rcases S.attained with e | ⟨t, ht, x, hx, l, e⟩
        · exact Or.inl e
        · obtain ⟨c, hc, hadr⟩ := hcell t ht
          have hb := hold c hc _ hadr t.1 x hx l l.isLt
          rw [Int.toNat_natCast] at hb
          simp only at e
          rw [hb] at e
          unfold StatEq.change at e
          split at e
          · exact Or.inl e
          · rename_i hfr
            exact Or.inr ⟨c, t.1, x, l, hc, hx, l.isLt, not_lt.1 hfr, e⟩

end DexRT.Nlte3
