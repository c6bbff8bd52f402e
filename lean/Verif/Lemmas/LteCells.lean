import Verif.Lemmas.LteStart
import Verif.Props.Cav
/-! Lemmas for C86: what the arrays of a batch hold, and what the march makes of it. -/
namespace DexRT.LteRun
open DexRT DexRT.Fs DexRT.AtmosFile DexRT.Dir DexRT.Given DexRT.Emis Classical

variable {r : Lte} {k nx nz : Nat} {a : Cond} {h : Coord2 → ℝ} {pf : Coord2 → Emis.Pops} {st : Started}

/-- a kernel that writes one element per cell -/
theorem cellCol_adr {V : Type} {nw : Nat} {eta chi : Coord2 → Int → ℝ} {scale : ℝ} {g : Given} {s : Settings} (hf : Fits s k nx nz)
    (hg : Good s k nx nz nw eta chi scale g) (val : Nat → Outcome V) (field : Coord2 → V)
    (hv : ∀ c, Given.InGrid k nx nz c → ∀ adr, Addr2 (2 ^ k) g.bm c adr → val adr.toNat = .ok (field c))
    (sched : List (Nat × Int))
    (hs : sched.Perm ((List.range (nx * nz)).flatMap fun t => (List.range (2 ^ k * 2 ^ k)).map fun b => (t, Int.ofNat b)))
    (old : Int → V) :
    ∃ m, cellCol s g val sched old = .ok m ∧ ∀ c, HasData2 (2 ^ k) nx nz (fun _ => True) c → ∀ adr, Addr2 (2 ^ k) g.bm c adr → m adr = field c := by
  have H := iterSpace2 k nx nz (fun _ => True) g.bm (axes hf).1 (axes hf).2 hg.map
  have hL : sched.Perm (loopIters (2 ^ k * 2 ^ k) g.bm) := by
    unfold loopIters
    rw [hg.num, show ((nx : Int) * nz).toNat = nx * nz by rw [← Nat.cast_mul, Int.toNat_natCast]]; exact hs
  have hstep : ∀ p ∈ sched, ∃ c, HasData2 (2 ^ k) nx nz (fun _ => True) c ∧ Addr2 (2 ^ k) g.bm c ((geo2 (2 ^ k)).loopIdx p.1 p.2) ∧
      (do
        let ks := (geo2 s.B).loopIdx p.1 p.2
        let _ ← loopCoord2 s.B g.bm p.1 p.2
        if ¬ (0 ≤ ks ∧ ks < numActiveCells ((s.B : Int) * (s.B : Int)) g.bm) then .ub
        else do
          let v ← val ks.toNat
          .ok (ks, v) : Outcome (Int × V)) = .ok ((geo2 (2 ^ k)).loopIdx p.1 p.2, field c) := by
    intro p hp
    have hp' := hL.mem_iff.1 hp
    obtain ⟨c, c1, c2, c3⟩ := H.co p hp'
    obtain ⟨r1, r2⟩ := H.rng p hp'
    refine ⟨c, c2, c3, ?_⟩
    have hin : Given.InGrid k nx nz c := by
      have := hasData2_inGrid _ nx nz _ c c2
      unfold InGrid2 at this
      unfold Given.InGrid
      push_cast at this ⊢
      exact ⟨this.1.1, this.1.2, this.2.1, this.2.2⟩
    rw [hf.block]
    simp only [c1, Outcome.ok_bind]
    rw [if_neg (not_not.2 ⟨r1, r2⟩), hv c hin _ c3]
    rfl
  obtain ⟨m, e, -, e3⟩ := writeLoop_spec _ sched old (fun p hp => by
    obtain ⟨c, -, -, e⟩ := hstep p hp
    exact ⟨_, _, e⟩)
  refine ⟨m, e, fun c hc adr hadr => ?_⟩
  obtain ⟨p, hp, hpc⟩ := H.ontoC c hc
  have hp' := hL.mem_iff.2 hp
  have huniq : ∀ p ∈ sched, ∀ v, (do
        let ks := (geo2 s.B).loopIdx p.1 p.2
        let _ ← loopCoord2 s.B g.bm p.1 p.2
        if ¬ (0 ≤ ks ∧ ks < numActiveCells ((s.B : Int) * (s.B : Int)) g.bm) then .ub
        else do
          let v ← val ks.toNat
          .ok (ks, v) : Outcome (Int × V)) = .ok (adr, v) → v = field c := by
    intro q hq v hqv
    obtain ⟨c', c1, c2, c3⟩ := hstep q hq
    rw [c3] at hqv
    injection hqv with hqv
    injection hqv with h1 h2
    rw [h1] at c2
    have e1 := hv c' (by
      have := hasData2_inGrid _ nx nz _ c' c1
      unfold InGrid2 at this
      unfold Given.InGrid
      push_cast at this ⊢
      exact ⟨this.1.1, this.1.2, this.2.1, this.2.2⟩) adr c2
    have e2 := hv c (by
      have := hasData2_inGrid _ nx nz _ c hc
      unfold InGrid2 at this
      unfold Given.InGrid
      push_cast at this ⊢
      exact ⟨this.1.1, this.1.2, this.2.1, this.2.2⟩) adr hadr
    rw [e1] at e2
    injection e2 with e2
    rw [← h2, e2]
  refine e3 adr (field c) ?_ huniq
  obtain ⟨c', c1, c2, c3⟩ := hstep p hp'
  obtain ⟨c'', d1, d2, d3⟩ := H.co p hp
  rw [hpc] at d1; injection d1 with d1; subst d1
  refine ⟨p, hp', field c', ?_⟩
  rw [c3, addr_unique _ _ _ _ _ hadr d3]

/-- a kernel that writes one element per cell -/
theorem cellCol_ok {V : Type} {nw : Nat} {eta chi : Coord2 → Int → ℝ} {scale : ℝ} {g : Given} {s : Settings} (hf : Fits s k nx nz)
    (hg : Good s k nx nz nw eta chi scale g) (val : Nat → Outcome V) (field : Coord2 → V)
    (hv : ∀ c, Given.InGrid k nx nz c → ∀ adr, Addr2 (2 ^ k) g.bm c adr → val adr.toNat = .ok (field c))
    (sched : List (Nat × Int))
    (hs : sched.Perm ((List.range (nx * nz)).flatMap fun t => (List.range (2 ^ k * 2 ^ k)).map fun b => (t, Int.ofNat b)))
    (old : Int → V) (lk : MLLookup Coord2) :
    ∃ m, cellCol s g val sched old = .ok m ∧ StoredAt2 (2 ^ k) nx nz (fun _ => True) (mrOf s g lk) 0 m field := by
  obtain ⟨m, e, h⟩ := cellCol_adr hf hg val field hv sched hs old
  exact ⟨m, e, stored_zero hf hg lk m field h⟩

theorem lines_congr (hl : LevelsExist r.ad) (n n' : Emis.Pops) (hn : ∀ ia at', r.ad.atoms[ia]? = some at' → ∀ l, l < at'.top + 1 → n ia l = n' ia l)
    (la : Nat) (p : Point) (w : ℝ) : EmisSpec.lines r.k r.phi r.ad la n p w = EmisSpec.lines r.k r.phi r.ad la n' p w := by
  have key : ∀ l ∈ r.ad.lines, n l.atom l.i = n' l.atom l.i ∧ n l.atom l.j = n' l.atom l.j := by
    intro l hm
    obtain ⟨x, x1, x2, x3⟩ := hl.1 l hm
    exact ⟨hn _ _ x1 _ x2, hn _ _ x1 _ x3⟩
  unfold EmisSpec.lines
  simp only
  congr 2
  · refine List.map_congr_left fun l hm => ?_
    unfold EmisSpec.lineEmissivity
    rw [(key l (List.mem_filter.1 hm).1).2]
  · refine List.map_congr_left fun l hm => ?_
    unfold EmisSpec.lineOpacity
    rw [(key l (List.mem_filter.1 hm).1).1, (key l (List.mem_filter.1 hm).1).2]

theorem conts_congr (hl : LevelsExist r.ad) (n n' s s' : Emis.Pops) (hn : ∀ ia at', r.ad.atoms[ia]? = some at' → ∀ l, l < at'.top + 1 → n ia l = n' ia l)
    (hs : ∀ ia at', r.ad.atoms[ia]? = some at' → ∀ l, l < at'.top + 1 → s ia l = s' ia l)
    (la : Nat) (p : Point) (v : ℝ) (w : ℝ) : EmisSpec.conts r.k r.ad la (EmisSpec.sigma la) n s p w =
      EmisSpec.conts r.k r.ad la (EmisSpec.sigma la) n' s' { p with vel := v } w := by
  have key : ∀ l ∈ r.ad.conts, n l.atom l.i = n' l.atom l.i ∧ n l.atom l.j = n' l.atom l.j ∧ s l.atom l.i = s' l.atom l.i ∧ s l.atom l.j = s' l.atom l.j := by
    intro l hm
    obtain ⟨x, x1, x2, x3⟩ := hl.2 l hm
    exact ⟨hn _ _ x1 _ x2, hn _ _ x1 _ x3, hs _ _ x1 _ x2, hs _ _ x1 _ x3⟩
  unfold EmisSpec.conts
  simp only
  congr 2
  · refine List.map_congr_left fun l hm => ?_
    obtain ⟨h1, h2, h3, h4⟩ := key l (List.mem_filter.1 hm).1
    unfold EmisSpec.contEmissivity
    rw [h2, h3, h4]
  · refine List.map_congr_left fun l hm => ?_
    obtain ⟨h1, h2, h3, h4⟩ := key l (List.mem_filter.1 hm).1
    unfold EmisSpec.contOpacity
    rw [h1, h2, h3, h4]

/-- the continua of a cell -/
noncomputable def contField (r : Lte) (a : Cond) (h : Coord2 → ℝ) (pf : Coord2 → Emis.Pops) (la : Nat) (c : Coord2) : EO :=
  EmisSpec.conts r.k r.ad la (EmisSpec.sigma la) (pf c) (ltePop r a c) (point a h 0 c) (r.ad.wavelength.getD la 0)

theorem base_ok (hr : Ready r) (hc : Cells r k nx nz a h pf st) (o : LteOrder) (la : Nat) (hW : r.s.W ∣ la) (hla : la < r.ad.wavelength.length)
    (w : Nat) (hw : w < waves r.s r.ad.wavelength.length la) (c : Coord2) (hg : Given.InGrid k nx nz c) (adr : Int) (hadr : Addr2 (2 ^ k) st.g.bm c adr) :
    baseVal r st o la (waves r.s r.ad.wavelength.length la) w adr.toNat = .ok (contField r a h pf (la + w) c) := by
  have hwl : waves r.s r.ad.wavelength.length la = min r.s.W (r.ad.wavelength.length - la) := rfl
  obtain ⟨res, scr, nStar, h1, h2, h3, h4, -⟩ := C57_fill_partial r.k r.phi r.ad hr.wellFormed (popsAt r.ad st.pops adr.toNat) (o.scratch adr.toNat)
    (pointAt st adr.toNat) .Continua (fun _ => false) la (la + waves r.s r.ad.wavelength.length la) (by omega) (by omega) (by
      rcases hr.continua la hW hla with q | q
      · exact Or.inl q
      · refine Or.inr fun c hc l l1 l2 => ?_
        have := q c hc (l - la) (by omega)
        rwa [show la + (l - la) = l by omega] at this)
  unfold baseVal
  rw [h1, Outcome.ok_bind, if_pos hr.levels]
  have hlen : w < res.length := by omega
  unfold readAt
  simp only [List.getElem?_eq_getElem hlen]
  have hwv : r.ad.wavelength[la + w]? = some (r.ad.wavelength.getD (la + w) 0) := by
    have : la + w < r.ad.wavelength.length := by omega
    rw [List.getD_eq_getElem?_getD, List.getElem?_eq_getElem this]; rfl
  rw [h4 w hlen _ hwv, hc.point c hg adr hadr]
  unfold EmisSpec.base
  simp only [EmisSpec.linesInBase, Bool.false_eq_true, if_false, zero_add]
  rw [hc.point c hg adr hadr] at h2
  rw [conts_congr hr.levels _ (pf c) nStar (ltePop r a c) (fun ia x hx l hl => hc.pops c hg adr hadr ia x hx l hl) (fun ia x hx l hl => by
    refine h2 ia l _ ?_
    unfold ltePop EmisSpec.lte
    rw [hx]
    simp only [Option.bind_some, hl, dif_pos, Option.getD_some]
    rfl) (la + w) (point a h 0 c) 0]
  rfl

theorem accum_congr (f g : Nat → Outcome EO) : ∀ (l : List Nat), (∀ x ∈ l, f x = g x) → ∀ e, accum f l e = accum g l e
  | [], _, _ => rfl
  | x :: l, hh, e => by
    unfold accum
    rw [hh x List.mem_cons_self]
    cases g x with
    | ok t => exact accum_congr f g l (fun y hy => hh y (List.mem_cons_of_mem _ hy)) _
    | throws => rfl
    | ub => rfl

theorem filled_of (d : List Nat) (max krl : Nat) (hk : krl < d.length) :
    filled (d.map (fun k : Nat => (k : Int)) ++ List.replicate (max - d.length) (-1)) krl = true := by
  unfold filled
  rw [List.take_append_of_le_length (by rw [List.length_map]; omega), List.all_eq_true]
  intro x hx
  obtain ⟨y, -, rfl⟩ := List.mem_map.1 (List.mem_of_mem_take hx)
  simp

/-- the slots: which are filled, and with which lines -/
theorem slots_ok (hr : Ready r) (la : Nat) (hW : r.s.W ∣ la) (hla : la < r.ad.wavelength.length) :
    ∃ d : List Nat, fillMapping2 r.maxLines ((List.range (waves r.s r.ad.wavelength.length la)).map fun i => scan Line.isActive r.ad.lines (la + i)) =
        .ok (d.map (fun k : Nat => (k : Int)) ++ List.replicate (r.maxLines - d.length) (-1)) ∧ d.length ≤ r.maxLines ∧ ∀ kr ∈ d, kr < r.ad.lines.length := by
  have hC := C52_slots r.maxLines ((List.range (waves r.s r.ad.wavelength.length la)).map fun i => scan Line.isActive r.ad.lines (la + i))
  have hlt : ∀ kr, (∃ s ∈ ((List.range (waves r.s r.ad.wavelength.length la)).map fun i => scan Line.isActive r.ad.lines (la + i)), kr ∈ s) →
      kr ∈ batchLines r la := by
    rintro kr ⟨s, hs, hk⟩
    obtain ⟨w, hw, rfl⟩ := List.mem_map.1 hs
    have hw := List.mem_range.1 hw
    unfold scan at hk
    obtain ⟨k1, k2⟩ := List.mem_filter.1 hk
    have k1 := List.mem_range.1 k1
    rw [List.getElem?_eq_getElem k1] at k2
    simp only [Line.isActive, Bool.and_eq_true, decide_eq_true_eq] at k2
    unfold batchLines
    rw [Finset.mem_filter, Finset.mem_range]
    exact ⟨k1, _, List.getElem?_eq_getElem k1, w, hw, k2.1, k2.2⟩
  rw [if_pos] at hC
  · obtain ⟨d, d1, -, d3, d4⟩ := hC
    refine ⟨d, d1, d3, fun kr hk => ?_⟩
    have := hlt kr ((d4 kr).1 hk)
    unfold batchLines at this
    exact Finset.mem_range.1 (Finset.mem_filter.1 this).1
  · refine le_trans (Finset.card_le_card fun kr hk => ?_) (hr.slots la hW hla)
    rw [List.mem_toFinset, List.mem_flatten] at hk
    exact hlt kr hk

/-- the stored line data of a slot -/
noncomputable def coreField (r : Lte) (a : Cond) (h : Coord2 → ℝ) (pf : Coord2 → Emis.Pops) (kr : Nat) (c : Coord2) : Core :=
  match coreAndVoigt r.k r.ad (pf c) (point a h 0 c) kr with
  | .ok x => x
  | _ => ⟨0, 0, 0, 0⟩

theorem coreField_ok (hr : Ready r) (kr : Nat) (hk : kr < r.ad.lines.length) (n : Emis.Pops) (c : Coord2) (v : ℝ)
    (hn : ∀ ia at', r.ad.atoms[ia]? = some at' → ∀ l, l < at'.top + 1 → n ia l = pf c ia l) :
    coreAndVoigt r.k r.ad n (point a h v c) kr = .ok (coreField r a h pf kr c) := by
  obtain ⟨x, x1, x2, x3⟩ := hr.levels.1 _ (List.getElem_mem hk)
  have hval : ∀ n' v', coreAndVoigt r.k r.ad n' (point a h v' c) kr = .ok (
      let l := r.ad.lines[kr]
      let dop := dopplerWidth r.k l.lambda0 x.mass (a.temperature c) (a.vturb c)
      let hnu := r.k.hc / (r.k.fourPi * l.lambda0)
      ⟨n' l.atom l.j * hnu * l.aji, hnu * (n' l.atom l.i * l.bij - n' l.atom l.j * l.bji),
        dampingFromGamma r.k (gammaFromBroadening l (a.temperature c) (a.ne c) (h c)) l.lambda0 dop, 1 / dop⟩) := by
    intro n' v'
    unfold coreAndVoigt readAt
    rw [List.getElem?_eq_getElem hk]
    simp only [Outcome.ok_bind, x1]
    rfl
  unfold coreField
  rw [hval, hval]
  simp only
  rw [hn _ _ x1 _ x2, hn _ _ x1 _ x3]

theorem core_ok (hr : Ready r) (hc : Cells r k nx nz a h pf st) (d : List Nat) (hd : ∀ kr ∈ d, kr < r.ad.lines.length) (krl : Nat) (hk : krl < d.length)
    (c : Coord2) (hg : Given.InGrid k nx nz c) (adr : Int) (hadr : Addr2 (2 ^ k) st.g.bm c adr) :
    coreVal r st (d.map (fun k : Nat => (k : Int)) ++ List.replicate (r.maxLines - d.length) (-1)) krl adr.toNat = .ok (coreField r a h pf d[krl] c) := by
  unfold coreVal readAt
  rw [List.getElem?_append_left (by rw [List.length_map]; exact hk), List.getElem?_map, List.getElem?_eq_getElem hk]
  simp only [Option.map_some, Outcome.ok_bind, Int.toNat_natCast]
  rw [hc.point c hg adr hadr, coreField_ok hr _ (hd _ (List.getElem_mem hk)) _ c 0 (fun ia x hx l hl => hc.pops c hg adr hadr ia x hx l hl),
    Outcome.ok_bind, if_pos hr.levels]

/-- what the march makes of the values of a cell -/
theorem sample_ok (hr : Ready r) (la : Nat) (hW : r.s.W ∣ la) (hla : la < r.ad.wavelength.length) (w : Nat)
    (hw : w < waves r.s r.ad.wavelength.length la) (d : List Nat)
    (hm : fillMapping2 r.maxLines ((List.range (waves r.s r.ad.wavelength.length la)).map fun i => scan Line.isActive r.ad.lines (la + i)) =
        .ok (d.map (fun k : Nat => (k : Int)) ++ List.replicate (r.maxLines - d.length) (-1))) (hd : ∀ kr ∈ d, kr < r.ad.lines.length)
    (mu : Fin 3 → ℝ) (c : Coord2) (cav : Nat → Core) (hcav : ∀ krl (hk : krl < d.length), cav krl = coreField r a h pf d[krl] c) :
    sampleOf r (d.map (fun k : Nat => (k : Int)) ++ List.replicate (r.maxLines - d.length) (-1)) ((la : ℤ) + (w : ℤ)) mu (contField r a h pf (la + w) c)
      (a.vx c, a.vy c, a.vz c) cav = .ok (gasOf r a h pf (la + w) mu c) := by
  have hwl : waves r.s r.ad.wavelength.length la = min r.s.W (r.ad.wavelength.length - la) := rfl
  set mapping := d.map (fun k : Nat => (k : Int)) ++ List.replicate (r.maxLines - d.length) (-1) with hmap
  set vel := a.vx c * mu 0 + a.vy c * mu 1 + a.vz c * mu 2 with hvel
  have hC := C53_same_value r.k r.phi r.ad hr.wellFormed hr.lambda0 (pf c) (point a h vel c) r.maxLines la
    (la + waves r.s r.ad.wavelength.length la) (la + w) (by omega) (by omega) mapping (by rw [Nat.add_sub_cancel_left]; exact hm)
    (r.ad.wavelength.getD (la + w) 0) (contField r a h pf (la + w) c)
  have ht : ((la : ℤ) + (w : ℤ)).toNat = la + w := by omega
  have hwv : readAt r.ad.wavelength (la + w) = .ok (r.ad.wavelength.getD (la + w) 0) := by
    have : la + w < r.ad.wavelength.length := by omega
    unfold readAt
    rw [List.getD_eq_getElem?_getD, List.getElem?_eq_getElem this]; rfl
  unfold sampleOf
  rw [ht, hwv]
  unfold cavSample at hC
  cases hls : localSet r.maxLines mapping (scan Line.isActive r.ad.lines (la + w)) with
  | throws => rw [hls] at hC; cases hC
  | ub => rw [hls] at hC; cases hC
  | ok set =>
    rw [hls] at hC
    simp only [Outcome.ok_bind] at hC ⊢
    have hset : set = (scan Line.isActive r.ad.lines (la + w)).flatMap (slotsOf mapping) := by
      unfold localSet at hls
      simp only at hls
      split at hls
      · injection hls with hls; exact hls.symm
      · cases hls
    rw [accum_congr _ (cavSlot r.k r.phi r.ad (pf c) (point a h vel c) mapping (r.ad.wavelength.getD (la + w) 0) vel) set ?_]
    · refine hC.trans ?_
      congr 1
      unfold gasOf EmisSpec.total EO.add
      simp only
      have e := conts_congr (r := r) hr.levels (pf c) (pf c) (ltePop r a c) (ltePop r a c) (fun _ _ _ _ _ => rfl) (fun _ _ _ _ _ => rfl)
        (la + w) (point a h 0 c) vel (r.ad.wavelength.getD (la + w) 0)
      unfold contField
      rw [e]
      have e2 : ({ point a h 0 c with vel := vel } : Point) = point a h vel c := rfl
      rw [e2, ← hvel]
      congr 1 <;> ring
    · intro krl hk
      rw [hset, List.mem_flatMap] at hk
      obtain ⟨kr, hkr, hk⟩ := hk
      unfold slotsOf at hk
      obtain ⟨k1, k2⟩ := List.mem_filter.1 hk
      simp only [decide_eq_true_eq] at k2
      have hkd : krl < d.length := by
        by_contra hno
        rw [hmap, List.getElem?_append_right (by rw [List.length_map]; omega)] at k2
        obtain ⟨q1, q2⟩ := List.getElem?_eq_some_iff.1 k2
        rw [List.getElem_replicate] at q2
        omega
      have hfil := filled_of d r.maxLines krl hkd
      rw [← hmap] at hfil
      unfold filled at hfil
      have hget : mapping[krl]? = some ((d[krl] : Nat) : Int) := by
        rw [hmap, List.getElem?_append_left (by rw [List.length_map]; exact hkd), List.getElem?_map, List.getElem?_eq_getElem hkd]; rfl
      unfold slotTerm cavSlot
      have hrd : readAt mapping krl = .ok ((d[krl] : Nat) : Int) := by unfold readAt; rw [hget]
      rw [hrd]
      simp only [Outcome.ok_bind, Int.toNat_natCast]
      rw [if_pos hfil, coreField_ok hr _ (hd _ (List.getElem_mem hkd)) (pf c) c vel (fun _ _ _ _ _ => rfl), hcav krl hkd]
      rfl

end DexRT.LteRun
