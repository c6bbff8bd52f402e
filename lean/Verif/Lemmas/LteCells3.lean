import Verif.Lemmas.LteStart3
import Verif.Lemmas.LteCells
/-! Lemmas for C91: what the arrays of a wavelength hold, and what the march makes of it. -/
namespace DexRT.Lte3
open DexRT DexRT.Fs DexRT.AtmosFile DexRT.Dir DexRT.Given3 DexRT.Emis Classical

variable {r : Run} {k nx ny nz : Nat} {a : Cond} {h : Coord3 → ℝ} {pf : Coord3 → Emis.Pops} {st : Started}

/-- a 2D run with the same atomic data: the sums over transitions do not depend on anything else -/
noncomputable def flat (r : Run) : LteRun.Lte :=
  { s := ⟨1, 1, ⟨1, 1, 0, 1, .all⟩, ⟨1, false, 1⟩, 0, false, 1, 1, fun _ => 0, [], [], ⟨0, 0, 0⟩, false, false, false⟩, k := r.k, phi := r.phi, ad := r.ad, haveH := r.haveH, sahaConst := r.sahaConst, ionE := r.ionE, maxLines := r.maxLines, cutoff := r.cutoff, bc := r.bc }

/-- a kernel that writes one element per cell -/
theorem cellCol_adr {V : Type} {nw : Nat} {eta chi : Coord3 → Int → ℝ} {scale : ℝ} {g : Given} {s : Settings} (hf : Fits s k nx ny nz)
    (hg : Good s k nx ny nz nw eta chi scale g) (val : Nat → Outcome V) (field : Coord3 → V)
    (hv : ∀ c, InGrid k nx ny nz c → ∀ adr, Addr3 (2 ^ k) g.bm c adr → val adr.toNat = .ok (field c))
    (sched : List (Nat × Int))
    (hs : sched.Perm ((List.range (nx * ny * nz)).flatMap fun t => (List.range (2 ^ k * 2 ^ k * 2 ^ k)).map fun b => (t, Int.ofNat b)))
    (old : Int → V) :
    ∃ m, cellCol s g val sched old = .ok m ∧ ∀ c, HasData3 (2 ^ k) nx ny nz (fun _ => True) c → ∀ adr, Addr3 (2 ^ k) g.bm c adr → m adr = field c := by
  have H := iterSpace3 k nx ny nz (fun _ => True) g.bm (bounds hf).1 (bounds hf).2.1 (bounds hf).2.2.1 hg.map
  have hL : sched.Perm (loopIters (2 ^ k * 2 ^ k * 2 ^ k) g.bm) := by
    unfold loopIters
    rw [hg.num, show ((nx : Int) * ny * nz).toNat = nx * ny * nz by rw [← Nat.cast_mul, ← Nat.cast_mul, Int.toNat_natCast]]; exact hs
  have hstep : ∀ p ∈ sched, ∃ c, HasData3 (2 ^ k) nx ny nz (fun _ => True) c ∧ Addr3 (2 ^ k) g.bm c ((geo3 (2 ^ k)).loopIdx p.1 p.2) ∧
      (do
        let ks := (geo3 s.B).loopIdx p.1 p.2
        let _ ← loopCoord3 s.B g.bm p.1 p.2
        if ¬ (0 ≤ ks ∧ ks < numActiveCells ((s.B : Int) * (s.B : Int) * (s.B : Int)) g.bm) then .ub
        else do
          let v ← val ks.toNat
          .ok (ks, v) : Outcome (Int × V)) = .ok ((geo3 (2 ^ k)).loopIdx p.1 p.2, field c) := by
    intro p hp
    have hp' := hL.mem_iff.1 hp
    obtain ⟨c, c1, c2, c3⟩ := H.co p hp'
    obtain ⟨r1, r2⟩ := H.rng p hp'
    refine ⟨c, c2, c3, ?_⟩
    have hin : InGrid k nx ny nz c := by
      have := hasData3_inGrid _ nx ny nz _ c c2
      unfold InGrid3 at this
      unfold InGrid
      push_cast at this ⊢
      exact ⟨this.1.1, this.1.2, this.2.1.1, this.2.1.2, this.2.2.1, this.2.2.2⟩
    rw [hf.block]
    simp only [c1, Outcome.ok_bind]
    rw [if_neg (not_not.2 ⟨r1, r2⟩), hv c hin _ c3]
    rfl
  obtain ⟨m, e, -, e3⟩ := writeLoop_spec _ sched old (fun p hp => by
    obtain ⟨c, -, -, e⟩ := hstep p hp
    exact ⟨_, _, e⟩)
  refine ⟨m, e, fun c hc adr hadr => ?_⟩
  obtain ⟨p, hp, hpc⟩ := H.ontoC c hc
  have hp' := hL.mem_iff.2 hp
  have huniq : ∀ p ∈ sched, ∀ v, (do
        let ks := (geo3 s.B).loopIdx p.1 p.2
        let _ ← loopCoord3 s.B g.bm p.1 p.2
        if ¬ (0 ≤ ks ∧ ks < numActiveCells ((s.B : Int) * (s.B : Int) * (s.B : Int)) g.bm) then .ub
        else do
          let v ← val ks.toNat
          .ok (ks, v) : Outcome (Int × V)) = .ok (adr, v) → v = field c := by
    intro q hq v hqv
    obtain ⟨c', c1, c2, c3⟩ := hstep q hq
    rw [c3] at hqv
    injection hqv with hqv
    injection hqv with h1 h2
    rw [h1] at c2
    have e1 := hv c' (by
      have := hasData3_inGrid _ nx ny nz _ c' c1
      unfold InGrid3 at this
      unfold InGrid
      push_cast at this ⊢
      exact ⟨this.1.1, this.1.2, this.2.1.1, this.2.1.2, this.2.2.1, this.2.2.2⟩) adr c2
    have e2 := hv c (by
      have := hasData3_inGrid _ nx ny nz _ c hc
      unfold InGrid3 at this
      unfold InGrid
      push_cast at this ⊢
      exact ⟨this.1.1, this.1.2, this.2.1.1, this.2.1.2, this.2.2.1, this.2.2.2⟩) adr hadr
    rw [e1] at e2
    injection e2 with e2
    rw [← h2, e2]
  refine e3 adr (field c) ?_ huniq
  obtain ⟨c', c1, c2, c3⟩ := hstep p hp'
  obtain ⟨c'', d1, d2, d3⟩ := H.co p hp
  rw [hpc] at d1; injection d1 with d1; subst d1
  refine ⟨p, hp', field c', ?_⟩
  rw [c3, addr_unique _ _ _ _ _ hadr d3]

/-- a kernel that writes one element per cell -/
theorem cellCol_ok {V : Type} {nw : Nat} {eta chi : Coord3 → Int → ℝ} {scale : ℝ} {g : Given} {s : Settings} (hf : Fits s k nx ny nz)
    (hg : Good s k nx ny nz nw eta chi scale g) (val : Nat → Outcome V) (field : Coord3 → V)
    (hv : ∀ c, InGrid k nx ny nz c → ∀ adr, Addr3 (2 ^ k) g.bm c adr → val adr.toNat = .ok (field c))
    (sched : List (Nat × Int))
    (hs : sched.Perm ((List.range (nx * ny * nz)).flatMap fun t => (List.range (2 ^ k * 2 ^ k * 2 ^ k)).map fun b => (t, Int.ofNat b)))
    (old : Int → V) (lk : MLLookup Coord3) :
    ∃ m, cellCol s g val sched old = .ok m ∧ StoredAt3 (2 ^ k) nx ny nz (fun _ => True) (mrOf s g lk) 0 m field := by
  obtain ⟨m, e, h⟩ := cellCol_adr hf hg val field hv sched hs old
  exact ⟨m, e, stored_zero hf hg lk m field h⟩

/-- the continua of a cell -/
noncomputable def contField (r : Run) (a : Cond) (h : Coord3 → ℝ) (pf : Coord3 → Emis.Pops) (la : Nat) (c : Coord3) : EO :=
  EmisSpec.conts r.k r.ad la (EmisSpec.sigma la) (pf c) (ltePop r a c) (point a h 0 c) (r.ad.wavelength.getD la 0)

theorem base_ok (hr : Sound r) (hc : Cells r k nx ny nz a h pf st) (o : LaOrder) (la : Nat) (hla : la < r.ad.wavelength.length)
    (c : Coord3) (hg : InGrid k nx ny nz c) (adr : Int) (hadr : Addr3 (2 ^ k) st.g.bm c adr) :
    baseVal r st o la adr.toNat = .ok (contField r a h pf la c) := by
  obtain ⟨res, scr, nStar, h1, h2, h3, h4, -⟩ := C57_fill_partial r.k r.phi r.ad hr.wellFormed (LteRun.popsAt r.ad st.pops adr.toNat) (o.scratch adr.toNat)
    (pointAt st adr.toNat) .Continua (fun _ => false) la (la + 1) (by omega) (by omega) (by
      by_cases q : ∃ c ∈ r.ad.conts, c.blue ≤ la ∧ la < c.red
      · exact Or.inl q
      · refine Or.inr fun c hc l l1 l2 hn => q ⟨c, hc, ?_⟩
        have : l = la := by omega
        rwa [this] at hn)
  unfold fillMip0 at h1
  rw [Nat.add_sub_cancel_left] at h1
  unfold fillWaves at h1
  obtain ⟨rr, e1, h1⟩ := AtmosFile.obind h1
  unfold fillWaves at h1
  rw [Outcome.ok_bind] at h1
  injection h1 with h1
  injection h1 with h1 _
  unfold baseVal
  rw [Nat.add_zero] at e1
  have e1' : emisOpac r.k r.phi r.ad la (LteRun.popsAt r.ad st.pops adr.toNat) (o.scratch adr.toNat) (pointAt st adr.toNat)
    (some (scan Line.isActive r.ad.lines la)) (some (scan Cont.isActive r.ad.conts la)) true .StaticOnly = .ok rr := e1
  rw [e1', Outcome.ok_bind, if_pos hr.levels]
  have hwv : r.ad.wavelength[la + 0]? = some (r.ad.wavelength.getD la 0) := by
    rw [Nat.add_zero, List.getD_eq_getElem?_getD, List.getElem?_eq_getElem hla]; rfl
  have h5 := h4 0 (by omega) _ hwv
  have h6 : res[0]'(by omega) = rr.1 := by subst h1; rfl
  rw [h6, Nat.add_zero, hc.point c hg adr hadr] at h5
  rw [h5]
  unfold EmisSpec.base
  simp only [EmisSpec.linesInBase, Bool.false_eq_true, if_false, zero_add]
  rw [hc.point c hg adr hadr] at h2
  have e := LteRun.conts_congr (r := flat r) hr.levels (LteRun.popsAt r.ad st.pops adr.toNat) (pf c) nStar (ltePop r a c) (fun ia x hx l hl => hc.pops c hg adr hadr ia x hx l hl) (fun ia x hx l hl => by
    refine h2 ia l _ ?_
    have hx' : r.ad.atoms[ia]? = some x := hx
    unfold ltePop EmisSpec.lte
    rw [hx']
    simp only [Option.bind_some, hl, dif_pos, Option.getD_some]
    rfl) la (point a h 0 c) 0 (r.ad.wavelength.getD la 0)
  rw [show (flat r).ad = r.ad from rfl, show (flat r).k = r.k from rfl] at e
  rw [e]
  rfl

theorem scan_card (la : Nat) : (scan Line.isActive r.ad.lines la).length = (activeLines r la).card ∧
    ∀ kr ∈ scan Line.isActive r.ad.lines la, kr < r.ad.lines.length := by
  have hnd : (scan Line.isActive r.ad.lines la).Nodup := by
    unfold scan; exact List.Nodup.filter _ List.nodup_range
  refine ⟨?_, fun kr hk => ?_⟩
  · rw [← List.toFinset_card_of_nodup hnd]
    congr 1
    ext kr
    unfold activeLines scan
    rw [List.mem_toFinset, List.mem_filter, List.mem_range, Finset.mem_filter, Finset.mem_range]
    refine and_congr_right fun hk => ?_
    rw [List.getElem?_eq_getElem hk]
    simp [Line.isActive]
  · unfold scan at hk
    exact List.mem_range.1 (List.mem_filter.1 hk).1

/-- the slots: which are filled, and with which lines -/
theorem slots_ok (la : Nat) (hs : (activeLines r la).card ≤ r.maxLines) :
    ∃ d : List Nat, fillMapping3 r.maxLines (scan Line.isActive r.ad.lines la) =
        .ok (d.map (fun k : Nat => (k : Int)) ++ List.replicate (r.maxLines - d.length) (-1)) ∧ d.length ≤ r.maxLines ∧ ∀ kr ∈ d, kr < r.ad.lines.length := by
  obtain ⟨h1, h2⟩ := scan_card (r := r) la
  have h3 : (scan Line.isActive r.ad.lines la).length ≤ r.maxLines := by rw [h1]; exact hs
  exact ⟨_, C52_slots_3d_partial r.maxLines _ h3, h3, h2⟩

/-- the stored line data of a slot -/
noncomputable def coreField (r : Run) (a : Cond) (h : Coord3 → ℝ) (pf : Coord3 → Emis.Pops) (kr : Nat) (c : Coord3) : Core :=
  match coreAndVoigt r.k r.ad (pf c) (point a h 0 c) kr with
  | .ok x => x
  | _ => ⟨0, 0, 0, 0⟩

theorem coreField_ok (hr : Sound r) (kr : Nat) (hk : kr < r.ad.lines.length) (n : Emis.Pops) (c : Coord3) (v : ℝ)
    (hn : ∀ ia at', r.ad.atoms[ia]? = some at' → ∀ l, l < at'.top + 1 → n ia l = pf c ia l) :
    coreAndVoigt r.k r.ad n (point a h v c) kr = .ok (coreField r a h pf kr c) := by
  obtain ⟨x, x1, x2, x3⟩ := hr.levels.1 _ (List.getElem_mem hk)
  have hval : ∀ n' v', coreAndVoigt r.k r.ad n' (point a h v' c) kr = .ok (
      let l := r.ad.lines[kr]
      let dop := dopplerWidth r.k l.lambda0 x.mass (a.temperature c) (a.vturb c)
      let hnu := r.k.hc / (r.k.fourPi * l.lambda0)
      ⟨n' l.atom l.j * hnu * l.aji, hnu * (n' l.atom l.i * l.bij - n' l.atom l.j * l.bji),
        dampingFromGamma r.k (gammaFromBroadening l (a.temperature c) (a.ne c) (h c)) l.lambda0 dop, 1 / dop⟩) := by
    intro n' v'
    unfold coreAndVoigt readAt
    rw [List.getElem?_eq_getElem hk]
    simp only [Outcome.ok_bind, x1]
    rfl
  unfold coreField
  rw [hval, hval]
  simp only
  rw [hn _ _ x1 _ x2, hn _ _ x1 _ x3]

theorem core_ok (hr : Sound r) (hc : Cells r k nx ny nz a h pf st) (d : List Nat) (hd : ∀ kr ∈ d, kr < r.ad.lines.length) (krl : Nat) (hk : krl < d.length)
    (c : Coord3) (hg : InGrid k nx ny nz c) (adr : Int) (hadr : Addr3 (2 ^ k) st.g.bm c adr) :
    coreVal r st (d.map (fun k : Nat => (k : Int)) ++ List.replicate (r.maxLines - d.length) (-1)) krl adr.toNat = .ok (coreField r a h pf d[krl] c) := by
  unfold coreVal readAt
  rw [List.getElem?_append_left (by rw [List.length_map]; exact hk), List.getElem?_map, List.getElem?_eq_getElem hk]
  simp only [Option.map_some, Outcome.ok_bind, Int.toNat_natCast]
  rw [hc.point c hg adr hadr, coreField_ok hr _ (hd _ (List.getElem_mem hk)) _ c 0 (fun ia x hx l hl => hc.pops c hg adr hadr ia x hx l hl),
    Outcome.ok_bind, if_pos hr.levels]

/-- what the march makes of the values of a cell -/
theorem sample_ok (hr : Sound r) (la : Nat) (hla : la < r.ad.wavelength.length) (d : List Nat)
    (hm : fillMapping3 r.maxLines (scan Line.isActive r.ad.lines la) =
        .ok (d.map (fun k : Nat => (k : Int)) ++ List.replicate (r.maxLines - d.length) (-1))) (hd : ∀ kr ∈ d, kr < r.ad.lines.length)
    (mu : Fin 3 → ℝ) (c : Coord3) (cav : Nat → Core) (hcav : ∀ krl (hk : krl < d.length), cav krl = coreField r a h pf d[krl] c) :
    sampleOf r (d.map (fun k : Nat => (k : Int)) ++ List.replicate (r.maxLines - d.length) (-1)) (la : ℤ) mu (contField r a h pf la c)
      (a.vx c, a.vy c, a.vz c) cav = .ok (gasOf r a h pf la mu c) := by
  set mapping := d.map (fun k : Nat => (k : Int)) ++ List.replicate (r.maxLines - d.length) (-1) with hmap
  set vel := a.vx c * mu 0 + a.vy c * mu 1 + a.vz c * mu 2 with hvel
  have hC := C53_same_value_3d r.k r.phi r.ad hr.wellFormed hr.lambda0 (pf c) (point a h vel c) r.maxLines la mapping hm
    (r.ad.wavelength.getD la 0) (contField r a h pf la c)
  have ht : (la : ℤ).toNat = la := by omega
  have hwv : readAt r.ad.wavelength la = .ok (r.ad.wavelength.getD la 0) := by
    have : la < r.ad.wavelength.length := by omega
    unfold readAt
    rw [List.getD_eq_getElem?_getD, List.getElem?_eq_getElem this]; rfl
  unfold sampleOf
  rw [ht, hwv]
  unfold cavSample at hC
  cases hls : localSet r.maxLines mapping (scan Line.isActive r.ad.lines la) with
  | throws => rw [hls] at hC; cases hC
  | ub => rw [hls] at hC; cases hC
  | ok set =>
    rw [hls] at hC
    simp only [Outcome.ok_bind] at hC ⊢
    have hset : set = (scan Line.isActive r.ad.lines la).flatMap (slotsOf mapping) := by
      unfold localSet at hls
      simp only at hls
      split at hls
      · injection hls with hls; exact hls.symm
      · cases hls
    rw [LteRun.accum_congr _ (cavSlot r.k r.phi r.ad (pf c) (point a h vel c) mapping (r.ad.wavelength.getD la 0) vel) set ?_]
    · refine hC.trans ?_
      congr 1
      unfold gasOf EmisSpec.total EO.add
      simp only
      have e := LteRun.conts_congr (r := flat r) hr.levels (pf c) (pf c) (ltePop r a c) (ltePop r a c) (fun _ _ _ _ _ => rfl) (fun _ _ _ _ _ => rfl)
        la (point a h 0 c) vel (r.ad.wavelength.getD la 0)
      unfold contField
      rw [show (flat r).ad = r.ad from rfl, show (flat r).k = r.k from rfl] at e
      rw [e]
      have e2 : ({ point a h 0 c with vel := vel } : Point) = point a h vel c := rfl
      rw [e2, ← hvel]
      congr 1 <;> ring
    · intro krl hk
      rw [hset, List.mem_flatMap] at hk
      obtain ⟨kr, hkr, hk⟩ := hk
      unfold slotsOf at hk
      obtain ⟨k1, k2⟩ := List.mem_filter.1 hk
      simp only [decide_eq_true_eq] at k2
      have hkd : krl < d.length := by
        by_contra hno
        rw [hmap, List.getElem?_append_right (by rw [List.length_map]; omega)] at k2
        obtain ⟨q1, q2⟩ := List.getElem?_eq_some_iff.1 k2
        rw [List.getElem_replicate] at q2
        omega
      have hfil := LteRun.filled_of d r.maxLines krl hkd
      rw [← hmap] at hfil
      unfold LteRun.filled at hfil
      have hget : mapping[krl]? = some ((d[krl] : Nat) : Int) := by
        rw [hmap, List.getElem?_append_left (by rw [List.length_map]; exact hkd), List.getElem?_map, List.getElem?_eq_getElem hkd]; rfl
      unfold slotTerm cavSlot
      have hrd : readAt mapping krl = .ok ((d[krl] : Nat) : Int) := by unfold readAt; rw [hget]
      rw [hrd]
      simp only [Outcome.ok_bind, Int.toNat_natCast]
      rw [if_pos hfil, coreField_ok hr _ (hd _ (List.getElem_mem hkd)) (pf c) c vel (fun _ _ _ _ _ => rfl), hcav krl hkd]
      rfl

end DexRT.Lte3
