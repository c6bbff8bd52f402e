import Verif.Lemmas.LteStart
import Verif.Spec.NlteRun
/-! Lemmas for C89: the state between iterations. -/
namespace DexRT.Nlte
open DexRT DexRT.Fs DexRT.AtmosFile DexRT.Dir DexRT.Given DexRT.Emis DexRT.LteRun DexRT.RadGamma Classical

/-- The state of the program holds the atmosphere `a` with populations `pf`. -/
structure Holds (r : LteRun.Lte) (k nx nz : Nat) (a : Cond) (pf : Coord2 → Emis.Pops) (st : Started) : Prop where
  good : Good r.s k nx nz r.ad.wavelength.length (fun _ _ => 0) (fun _ _ => 0) a.scale st.g
  offset : ![st.atmos.offsetX, st.atmos.offsetY, st.atmos.offsetZ] = a.offset
  gas : ∀ c, Given.InGrid k nx nz c → ∀ adr, Addr2 (2 ^ k) st.g.bm c adr →
    st.atmos.temperature adr.toNat = a.temperature c ∧ st.atmos.ne adr.toNat = a.ne c ∧ st.atmos.vturb adr.toNat = a.vturb c ∧
      st.atmos.nhTot adr.toNat = a.nhTot c
  vel : ∀ c, Given.InGrid k nx nz c → ∀ adr, Addr2 (2 ^ k) st.g.bm c adr →
    (st.atmos.vx adr.toNat, st.atmos.vy adr.toNat, st.atmos.vz adr.toNat) = (a.vx c, a.vy c, a.vz c)
  pops : ∀ c, Given.InGrid k nx nz c → ∀ adr, Addr2 (2 ^ k) st.g.bm c adr → ∀ ia at', r.ad.atoms[ia]? = some at' → ∀ l, l < at'.top + 1 →
    popsAt r.ad st.pops adr.toNat ia l = pf c ia l
  rows : PopsField.HasRows (fieldAtoms r.ad) st.pops
  cols : st.pops.cols = nx * nz * (2 ^ k * 2 ^ k)


variable {r : LteRun.Lte} {k nx nz : Nat} {a : Cond} {pf : Coord2 → Emis.Pops} {st : Started}

/-- every column is a cell -/
theorem addr_onto {s : Settings} (hf : Fits s k nx nz) (bm : BlockMap Coord2) (hm : MapFor2 (2 ^ k) nx nz (fun _ => True) bm) (ks : Nat)
    (hks : ks < nx * nz * (2 ^ k * 2 ^ k)) : ∃ c, Given.InGrid k nx nz c ∧ Addr2 (2 ^ k) bm c ((ks : Nat) : Int) := by
  have H := iterSpace2 k nx nz (fun _ => True) bm (axes hf).1 (axes hf).2 hm
  obtain ⟨p, hp, e⟩ := H.ontoN (ks : Nat) (by positivity) (by
    unfold numActiveCells
    rw [num_all (Nat.two_pow_pos k) bm hm]
    exact_mod_cast hks)
  obtain ⟨c, c1, c2, c3⟩ := H.co p hp
  refine ⟨c, ?_, by rw [← e]; exact c3⟩
  have := hasData2_inGrid _ nx nz _ c c2
  unfold InGrid2 at this
  unfold Given.InGrid
  push_cast at this ⊢
  exact ⟨this.1.1, this.1.2, this.2.1, this.2.2⟩

/-- a value per address is a value per cell -/
theorem by_cell {β : Type} (d : β) (bm : BlockMap Coord2) (m : Nat → β) : ∃ h : Coord2 → β, ∀ c adr, Addr2 (2 ^ k) bm c adr → m adr.toNat = h c := by
  refine ⟨fun c => if e : ∃ adr, Addr2 (2 ^ k) bm c adr then m (Classical.choose e).toNat else d, fun c adr hadr => ?_⟩
  have e : ∃ adr, Addr2 (2 ^ k) bm c adr := ⟨adr, hadr⟩
  simp only [e, dif_pos]
  rw [addr_unique _ _ _ _ _ hadr (Classical.choose_spec e)]

/-- neutral hydrogen at the start of an iteration -/
theorem nh0_ok (hf : Fits r.s k nx nz) (hr : Ready r) (hH : Holds r k nx nz a pf st) (hw : r.haveH = false → Warm k nx nz a)
    (o : List Nat) (ho : o.Perm (List.range (nx * nz * (2 ^ k * 2 ^ k)))) (old : Nat → ℝ) :
    ∃ m h, PopsField.computeNh0 r.sahaConst r.ionE r.haveH (popAtmos st.atmos) st.pops o old = .ok m ∧
      Cells r k nx nz a h pf { st with nh0 := m } := by
  obtain ⟨m, m1, m2⟩ : ∃ m, PopsField.computeNh0 r.sahaConst r.ionE r.haveH (popAtmos st.atmos) st.pops o old = .ok m ∧
      ∀ c, Given.InGrid k nx nz c → ∀ adr, Addr2 (2 ^ k) st.g.bm c adr →
        if r.haveH then m adr.toNat = pf c 0 0
        else 0 ≤ m adr.toNat ∧ m adr.toNat ≤ a.nhTot c ∧
          ∃ u, interp (some (Real.logb 10 (a.temperature c))) (Lte.scaled Lte.logTData) (Lte.scaled Lte.partFnData) = .ok u ∧
            (a.nhTot c - m adr.toNat) * a.ne c * u = m adr.toNat * 2 * (r.sahaConst * a.temperature c) ^ (3 / 2 : ℝ) * Real.exp (-r.ionE / a.temperature c) := by
    by_cases hh : r.haveH = true
    · obtain ⟨x, xs, hx⟩ := List.exists_cons_of_ne_nil (hr.hydrogen hh)
      obtain ⟨m, m1, m2⟩ := PopsField.C83_nh0_model (sahaConst := r.sahaConst) (ionE := r.ionE) (f := popAtmos st.atmos) (atoms := fieldAtoms r.ad) (p := st.pops)
        (by rw [hH.rows]; simp [fieldAtoms, hx]) o (by rw [hH.cols]; exact ho) old
      refine ⟨m, by rw [hh]; exact m1, fun c hc adr hadr => ?_⟩
      rw [if_pos hh, m2 _ (by rw [hH.cols]; exact ((cells_addr hf st.g.bm hH.good.map c hc).2.2 adr hadr).2)]
      exact hH.pops c hc adr hadr 0 x (by rw [hx]; rfl) 0 (by omega)
    · have hh' : r.haveH = false := by simpa using hh
      have hwarm := hw hh'
      obtain ⟨m, m1, m2⟩ := PopsField.C83_nh0_lte (sahaConst := r.sahaConst) (ionE := r.ionE) (f := popAtmos st.atmos) (p := st.pops) hr.saha (fun ks hks => by
          rw [hH.cols] at hks
          obtain ⟨c, c1, c2⟩ := addr_onto hf st.g.bm hH.good.map ks hks
          obtain ⟨g1, g2, -, g4⟩ := hH.gas c c1 _ c2
          rw [Int.toNat_natCast] at g1 g2 g4
          show 0 < st.atmos.temperature _ ∧ 0 < st.atmos.ne _ ∧ 0 ≤ st.atmos.nhTot _
          rw [g1, g2, g4]
          exact hwarm c c1) o (by rw [hH.cols]; exact ho) old
      refine ⟨m, by rw [hh']; exact m1, fun c hc adr hadr => ?_⟩
      rw [if_neg hh]
      have := m2 adr.toNat (by rw [hH.cols]; exact ((cells_addr hf st.g.bm hH.good.map c hc).2.2 adr hadr).2)
      simp only [popAtmos] at this
      obtain ⟨g1, g2, -, g4⟩ := hH.gas c hc _ hadr
      rw [g1, g2, g4] at this
      exact this
  obtain ⟨h, hh⟩ := by_cell (k := k) (0 : ℝ) st.g.bm m
  refine ⟨m, h, m1, hH.good, hH.offset, fun c hc adr hadr => ?_, hH.vel, hH.pops, fun c hc => ?_⟩
  · obtain ⟨g1, g2, g3, g4⟩ := hH.gas c hc _ hadr
    unfold pointAt LteRun.point
    simp only
    rw [g1, g2, g3, g4, hh c adr hadr]
  · obtain ⟨-, ⟨adr, hadr⟩, -⟩ := cells_addr hf st.g.bm hH.good.map c hc
    have := m2 c hc adr hadr
    rw [hh c adr hadr] at this
    exact this

/-- the state before the first iteration -/
theorem start_holds {W : Type} {cv : W → ℝ} {f : NcFile Coord2 W} (hf : Fits r.s k nx nz) (hr : Ready r) (hd : Describes f cv (2 ^ k) nx nz a)
    (hw : r.haveH = false → Warm k nx nz a) (o : StartOrder) (ho : StartOrders r k nx nz o) :
    ∃ st, start2 r cv f o = .ok st ∧ Holds r k nx nz a (ltePop r a) st := by
  obtain ⟨st, h, h1, h2, h3, h4⟩ := start_ok hf hr hd hw o ho
  refine ⟨st, h1, h2.good, h2.offset, fun c hc adr hadr => ?_, h2.vel, h2.pops, h3, h4⟩
  have := h2.point c hc adr hadr
  unfold pointAt LteRun.point at this
  injection this with e1 e2 e3 e4
  exact ⟨e1, e2, e3, e4⟩

/-- where an atom's rows are -/
theorem slice_of (ad : AData) {ia : Nat} {x : Atom} (hx : ad.atoms[ia]? = some x) :
    readAt (Atomic.ranges (PopsField.numLevels (fieldAtoms ad))).1 ia = .ok (PopsField.start (fieldAtoms ad) ia, x.top + 1) ∧
      (fieldAtoms ad)[ia]? = some ⟨x.abundance, x.top, x.lv⟩ := by
  have ea : (fieldAtoms ad)[ia]? = some ⟨x.abundance, x.top, x.lv⟩ := by unfold fieldAtoms; rw [List.getElem?_map, hx]; rfl
  refine ⟨?_, ea⟩
  obtain ⟨la, e⟩ := List.getElem?_eq_some_iff.1 ea
  unfold readAt
  rw [(C33_ranges (PopsField.numLevels (fieldAtoms ad))).2.2 ia (by unfold PopsField.numLevels; simpa using la), ← PopsField.start_eq]
  simp [PopsField.numLevels, e]

/-- where a population is -/
theorem popsAt_eq (ad : AData) (p : PopsField.Pops) (ks ia l : Nat) :
    popsAt ad p ks ia l = p.mem ((PopsField.start (fieldAtoms ad) ia + l) * p.cols + ks) := rfl

/-- LTE populations in another array -/
theorem star_ok (hf : Fits r.s k nx nz) (hH : Holds r k nx nz a pf st) (sched : List (Nat × Nat))
    (hs : sched.Perm (PopsField.threads (fieldAtoms r.ad) (nx * nz * (2 ^ k * 2 ^ k)))) (old : Nat → ℝ) :
    ∃ p, PopsField.computeLtePops r.k.kB r.k.dbc r.k.fmin (fieldAtoms r.ad) (popAtmos st.atmos) sched { st.pops with mem := old } = .ok p ∧
      p.rows = st.pops.rows ∧ p.cols = st.pops.cols ∧ ∀ c, Given.InGrid k nx nz c → ∀ adr, Addr2 (2 ^ k) st.g.bm c adr →
        ∀ ia x, r.ad.atoms[ia]? = some x → ∀ l, l < x.top + 1 → popsAt r.ad p adr.toNat ia l = ltePop r a c ia l := by
  obtain ⟨q, q1, q2, q3, q4, -⟩ := PopsField.C83_lte (kB := r.k.kB) (dbc := r.k.dbc) (fmin := r.k.fmin) (f := popAtmos st.atmos)
    (p := { st.pops with mem := old }) (atoms := fieldAtoms r.ad) hH.rows sched (by rw [show ({ st.pops with mem := old } : PopsField.Pops).cols = _ from hH.cols]; exact hs)
  refine ⟨q, q1, q2, q3, fun c hc adr hadr ia x hx l hl => ?_⟩
  have := q4 ia _ (slice_of r.ad hx).2 ⟨l, hl⟩ adr.toNat (by
    rw [show ({ st.pops with mem := old } : PopsField.Pops).cols = _ from hH.cols]
    exact ((cells_addr hf st.g.bm hH.good.map c hc).2.2 adr hadr).2)
  unfold PopsField.popOf at this
  unfold popsAt ltePop EmisSpec.lte
  rw [hx]
  simp only [Option.bind_some, hl, dif_pos, Option.getD_some]
  rw [this]
  obtain ⟨g1, g2, g3, g4⟩ := hH.gas c hc _ hadr
  show Lte.ltePops _ _ _ _ (st.atmos.temperature _) (st.atmos.ne _) (_ * st.atmos.nhTot _) _ = _
  rw [g1, g2, g4]
  rfl

end DexRT.Nlte
