import Verif.Lemmas.RayStart
import Verif.Props.Lte
/-! Lemmas for C87: what is loaded, and the emissivity and opacity of the cells. -/
namespace DexRT.RayRun
open DexRT DexRT.AtmosFile DexRT.Emis DexRT.Ray DexRT.LteRun Classical

variable {t : Tool} {k nx nz : Nat} {a : Cond} {res : Result} {d : Loaded}

/-- what is loaded -/
structure IsLoaded (t : Tool) (k nx nz : Nat) (a : Cond) (res : Result) (d : Loaded) : Prop where
  map : MapFor2 (2 ^ k) nx nz (ActiveTile t k a) d.bm
  mrbm : d.mr.bm = d.bm
  off : d.mr.off 0 = 0
  store : 0 < d.mr.maxStore
  levels : LevelsFor (GridTile2 (2 ^ k) (nx * (2 ^ k : Nat)) (nz * (2 ^ k : Nat))) (ActiveTile t k a) d.mr (tileLevel t k a)
  rows : d.rows = res.levels
  cell : ∀ c, HasData2 (2 ^ k) nx nz (ActiveTile t k a) c → ∀ adr, Addr2 (2 ^ k) d.bm c adr → d.atmos.temperature adr = a.temperature c ∧
    d.atmos.ne adr = (updated a res).ne c ∧ d.atmos.nhTot adr = (updated a res).nhTot c ∧ d.atmos.vturb adr = a.vturb c ∧ d.atmos.vx adr = a.vx c ∧
    d.atmos.vy adr = a.vy c ∧ d.atmos.vz adr = a.vz c
  pops : ∀ c, HasData2 (2 ^ k) nx nz (ActiveTile t k a) c → ∀ adr, Addr2 (2 ^ k) d.bm c adr → 0 ≤ adr ∧ adr.toNat < d.cols ∧
    ∀ i < res.levels, d.pops adr i = res.pops c i
  scale : d.atmos.voxelScale = a.scale
  offX : d.atmos.offsetX = a.offset 0
  offZ : d.atmos.offsetZ = a.offset 2

theorem var_get (v : Var) (i : List Nat) (h : i.length = v.dims.length) (h' : ∀ n, n < i.length → i.getD n 0 < v.dims.getD n 0) : v.get i = .ok (v.val i) := by
  unfold Var.get
  rw [if_pos]
  exact ⟨h, fun n => by
    by_cases hn : n < i.length
    · exact Or.inl (h' n hn)
    · exact Or.inr (by omega)⟩

theorem data_inGrid {Active : Coord2 → Prop} {c : Coord2} (hc : HasData2 (2 ^ k) nx nz Active c) :
    Given.InGrid k nx nz c ∧ c.x.toNat < nx * 2 ^ k ∧ c.z.toNat < nz * 2 ^ k := by
  have := hasData2_inGrid _ nx nz _ c hc
  unfold InGrid2 at this
  have hin : Given.InGrid k nx nz c := by
    unfold Given.InGrid
    push_cast at this ⊢
    exact ⟨this.1.1, this.1.2, this.2.1, this.2.2⟩
  obtain ⟨h1, h2, h3, h4⟩ := hin
  exact ⟨⟨h1, h2, h3, h4⟩, by omega, by omega⟩

section
variable {W : Type} {cv : W → ℝ} {f : NcFile Coord2 W} {bm : BlockMap Coord2} {at' : Atmos Int ℝ} {sc : Sched Coord2} {junk : Atmos Int ℝ} {out : OutFile}

/-- a density from the output -/
theorem updateField_ok (hf : RayFits t k nx nz) (hm : MapFor2 (2 ^ k) nx nz (ActiveTile t k a) bm)
    (hsc : GoodSched (2 ^ k * 2 ^ k) inDims2 sc) (hl : load2 (2 ^ k) realOps cv (fun x => decide (x = 0)) f t.cutoff sc junk = .ok (bm, at'))
    (lay : Layout) (hlay : (out.format ≠ some "sparse" ∧ lay = denseLayout k nx nz) ∨
      (out.format = some "sparse" ∧ ∃ n, lay = sparseLayout t cv f k nx nz a n ∧ ∀ c i, Kept2 t k nx nz a c → Stored t cv f k c i → i.toNat < n))
    (name : String) (q : Option (Coord2 → ℝ)) (hq : HasDensity out lay name q) (sched : List (Nat × Int)) (hs : sched.Perm (loopIters (2 ^ k * 2 ^ k) bm))
    (old : Int → ℝ) (base : Coord2 → ℝ) (hold : ∀ c, HasData2 (2 ^ k) nx nz (ActiveTile t k a) c → ∀ adr, Addr2 (2 ^ k) bm c adr → old adr = base c) :
    ∃ m, updateField (2 ^ k) bm out name sched old = .ok m ∧
      ∀ c, HasData2 (2 ^ k) nx nz (ActiveTile t k a) c → ∀ adr, Addr2 (2 ^ k) bm c adr → m adr = q.getD base c := by
  have H := iterSpace2 k nx nz _ bm hf.axes.1 hf.axes.2 hm
  cases q with
  | none =>
    have hq : out.var name = none := hq
    unfold updateField
    rw [hq]
    exact ⟨old, rfl, hold⟩
  | some q =>
    obtain ⟨v, h1, h2, h3⟩ := hq
    unfold updateField
    rw [h1]
    rcases hlay with ⟨hn, rfl⟩ | ⟨hn, n, rfl, hlt⟩
    · have hns : isSparse out = false := by unfold isSparse; simp [hn]
      simp only [hns, Bool.false_eq_true, if_false, readVar, h1, need, Outcome.ok_bind, h2]
      rw [if_pos (by rfl)]
      simp only [Outcome.ok_bind]
      refine cells2_ok hf.axes.1 hf.axes.2 bm hm _ (fun c => (some q).getD base c) (fun c hc adr hadr => ?_) sched hs old
      obtain ⟨hin, hx, hz⟩ := data_inGrid hc
      rw [var_get _ _ (by rw [h2]; rfl), h3 c _ ⟨hin, rfl⟩]
      · rfl
      · intro n hn
        rw [h2]
        match n, hn with
        | 0, _ => exact hz
        | 1, _ => exact hx
    · have hns : isSparse out = true := by unfold isSparse; simp [hn]
      have hst : ∀ c adr, Addr2 (2 ^ k) bm c adr → Stored t cv f k c adr := fun c adr h => ⟨sc, junk, bm, at', hsc, hl, h⟩
      have hle : numActiveCells (((2 ^ k : Nat) : Int) * ((2 ^ k : Nat) : Int)) bm ≤ ((n : Nat) : Int) := by
        by_contra hcon
        push Not at hcon
        obtain ⟨p, hp, e⟩ := H.ontoN n (by omega) hcon
        obtain ⟨c, -, c2, c3⟩ := H.co p hp
        rw [e] at c3
        have := hlt c n ((kept_iff _ _ _ _ _ _).2 c2) (hst c n c3)
        simp at this
      simp only [hns, if_true, readVar, h1, need, Outcome.ok_bind, h2]
      rw [if_pos (by rfl)]
      simp only [Outcome.ok_bind, h2]
      rw [if_pos (by exact hle)]
      exact ⟨_, rfl, fun c hc adr hadr => h3 c _ ⟨(kept_iff _ _ _ _ _ _).2 hc, adr, hst c adr hadr, rfl⟩⟩

theorem loadPops_ok (hf : RayFits t k nx nz) (hm : MapFor2 (2 ^ k) nx nz (ActiveTile t k a) bm)
    (hsc : GoodSched (2 ^ k * 2 ^ k) inDims2 sc) (hl : load2 (2 ^ k) realOps cv (fun x => decide (x = 0)) f t.cutoff sc junk = .ok (bm, at'))
    (lay : Layout) (hlay : (out.format ≠ some "sparse" ∧ lay = denseLayout k nx nz) ∨
      (out.format = some "sparse" ∧ ∃ n, lay = sparseLayout t cv f k nx nz a n ∧ ∀ c i, Kept2 t k nx nz a c → Stored t cv f k c i → i.toNat < n))
    (hq : ∃ v, out.var "pops" = some v ∧ v.dims = res.levels :: lay.dims ∧ ∀ c p, lay.pos c p → ∀ i < res.levels, v.val (i :: p) = res.pops c i)
    (sched : List (Nat × Int)) (hs : sched.Perm (loopIters (2 ^ k * 2 ^ k) bm)) (old : Int → Nat → ℝ) :
    ∃ cols m, loadPops (2 ^ k) bm out sched old = .ok (res.levels, cols, m) ∧
      ∀ c, HasData2 (2 ^ k) nx nz (ActiveTile t k a) c → ∀ adr, Addr2 (2 ^ k) bm c adr → 0 ≤ adr ∧ adr.toNat < cols ∧ ∀ i < res.levels, m adr i = res.pops c i := by
  have H := iterSpace2 k nx nz _ bm hf.axes.1 hf.axes.2 hm
  have hrng : ∀ c, HasData2 (2 ^ k) nx nz (ActiveTile t k a) c → ∀ adr, Addr2 (2 ^ k) bm c adr →
      0 ≤ adr ∧ adr < numActiveCells (((2 ^ k : Nat) : Int) * ((2 ^ k : Nat) : Int)) bm := by
    intro c hc adr hadr
    obtain ⟨p, hp, hpc⟩ := H.ontoC c hc
    obtain ⟨c', c1, -, c3⟩ := H.co p hp
    rw [hpc] at c1
    rw [Outcome.ok.inj c1] at hadr
    rw [H.fn _ _ _ hadr c3]
    exact H.rng p hp
  obtain ⟨v, h1, h2, h3⟩ := hq
  unfold loadPops
  rcases hlay with ⟨hn, rfl⟩ | ⟨hn, n, rfl, hlt⟩
  · have hns : isSparse out = false := by unfold isSparse; simp [hn]
    simp only [hns, Bool.false_eq_true, if_false, readVar, h1, need, Outcome.ok_bind, h2]
    rw [if_pos (by rfl)]
    simp only [Outcome.ok_bind, h2]
    obtain ⟨m, e, hmv⟩ := cells2_ok hf.axes.1 hf.axes.2 bm hm (fun c _ =>
      if ∀ i < (res.levels :: (denseLayout k nx nz).dims).getD 0 0, ∃ x, v.get [i, c.z.toNat, c.x.toNat] = .ok x then .ok (fun i => v.val [i, c.z.toNat, c.x.toNat]) else .ub)
      (fun c i => v.val [i, c.z.toNat, c.x.toNat]) (fun c hc adr hadr => by
        obtain ⟨hin, hx, hz⟩ := data_inGrid hc
        rw [if_pos]
        intro i hi
        refine ⟨_, var_get _ _ (by rw [h2]; rfl) ?_⟩
        intro n hn
        rw [h2]
        match n, hn with
        | 0, _ => exact hi
        | 1, _ => exact hz
        | 2, _ => exact hx) sched hs old
    rw [e]
    refine ⟨_, m, rfl, fun c hc adr hadr => ?_⟩
    obtain ⟨r1, r2⟩ := hrng c hc adr hadr
    refine ⟨r1, by omega, fun i hi => ?_⟩
    rw [hmv c hc adr hadr]
    exact h3 c _ ⟨(data_inGrid hc).1, rfl⟩ i hi
  · have hns : isSparse out = true := by unfold isSparse; simp [hn]
    simp only [hns, if_true, readVar, h1, need, Outcome.ok_bind, h2]
    rw [if_pos (by rfl)]
    simp only [Outcome.ok_bind, h2]
    refine ⟨n, _, rfl, fun c hc adr hadr => ?_⟩
    have hst : Stored t cv f k c adr := ⟨sc, junk, bm, at', hsc, hl, hadr⟩
    have hk := (kept_iff t k nx nz a c).2 hc
    exact ⟨(hrng c hc adr hadr).1, hlt c adr hk hst, fun i hi => h3 c _ ⟨hk, adr, hst, rfl⟩ i hi⟩

theorem load_ok (hf : RayFits t k nx nz) (hd : Describes f cv (2 ^ k) nx nz a) (ho : OutputIs t cv f k nx nz a out res) (o : StartOrder)
    (hs : StartOrders t cv f k o) : ∃ d, load t cv f out o = .ok d ∧ IsLoaded t k nx nz a res d ∧
      ∃ at', load2 (2 ^ k) realOps cv (fun x => decide (x = 0)) f t.cutoff o.load o.junk = .ok (d.bm, at') := by
  obtain ⟨bm, s, hl, hm, hcell, hsca, hox, hoz⟩ := load_cells hf hd o.load hs.load o.junk
  obtain ⟨s1, s2, s3, s4⟩ := hs.rest bm s hl
  obtain ⟨lk, lk', off, c1, c2, c3, c4, c5⟩ := configure_ok hf bm hm o.tiles s1
  obtain ⟨lay, hlay, hp, hne, hnh⟩ := ho
  obtain ⟨mne, n1, n2⟩ := updateField_ok hf hm hs.load hl lay hlay "ne" res.ne hne o.ne s2 s.ne a.ne (fun c hc adr hadr => (hcell c hc adr hadr).2.1)
  obtain ⟨mnh, h1, h2⟩ := updateField_ok hf hm hs.load hl lay hlay "nh_tot" res.nhTot hnh o.nhTot s3 s.nhTot a.nhTot
    (fun c hc adr hadr => (hcell c hc adr hadr).2.2.1)
  obtain ⟨cols, mp, p1, p2⟩ := loadPops_ok (res := res) hf hm hs.load hl lay hlay hp o.pops s4 o.oldPops
  unfold load
  rw [hf.block]
  simp only [hl, c1, c2, c4, n1, h1, p1, Outcome.ok_bind]
  refine ⟨_, rfl, ⟨hm, rfl, c3, ?_, c5, rfl, fun c hc adr hadr => ?_, p2, hsca, hox, hoz⟩, s, rfl⟩
  · show 0 < 2 ^ t.E - 1
    have : 2 ≤ 2 ^ t.E := by
      calc 2 = 2 ^ 1 := rfl
        _ ≤ 2 ^ t.E := Nat.pow_le_pow_right (by norm_num) hf.entry.1
    omega
  · obtain ⟨x1, -, -, x4, x5, x6, x7⟩ := hcell c hc adr hadr
    exact ⟨x1, n2 c hc adr hadr, h2 c hc adr hadr, x4, x5, x6, x7⟩
end

/-- the neutral hydrogen density the tool computes -/
noncomputable def hOf (t : Tool) (a : Cond) (res : Result) (c : Coord2) : ℝ :=
  if t.haveH then res.pops c 0
  else match Lte.hPart t.sahaConst t.ionE (a.temperature c) ((updated a res).ne c) ((updated a res).nhTot c) with
    | .ok h => h.1
    | _ => 0

theorem hOf_neutral (hr : RayReady t) (hw : t.haveH = false → WarmKept t k nx nz a res) : NeutralH t k nx nz a res (hOf t a res) := by
  intro c hc
  unfold hOf
  by_cases hh : t.haveH = true
  · simp [hh]
  · have hh' : t.haveH = false := by simpa using hh
    obtain ⟨w1, w2, w3⟩ := hw hh' c hc
    obtain ⟨n0, n1, u, e1, e2, e3, e4, e5, e6⟩ := _root_.DexRT.C50_hydrogen t.sahaConst t.ionE _ _ _ hr.saha w1 w2 w3
    simp only [hh', Bool.false_eq_true, if_false, e1]
    exact ⟨e3, by linarith, u, e5, by rw [← e2, add_sub_cancel_left]; exact e6⟩

theorem lines_congr' (hl : LevelsExist t.ad) (n n' : Emis.Pops) (hn : ∀ ia at', t.ad.atoms[ia]? = some at' → ∀ l, l < at'.top + 1 → n ia l = n' ia l)
    (la : Nat) (p : Point) (w : ℝ) : EmisSpec.lines t.k t.phi t.ad la n p w = EmisSpec.lines t.k t.phi t.ad la n' p w := by
  have key : ∀ l ∈ t.ad.lines, n l.atom l.i = n' l.atom l.i ∧ n l.atom l.j = n' l.atom l.j := by
    intro l hm
    obtain ⟨x, x1, x2, x3⟩ := hl.1 l hm
    exact ⟨hn _ _ x1 _ x2, hn _ _ x1 _ x3⟩
  unfold EmisSpec.lines
  simp only
  congr 2
  · refine List.map_congr_left fun l hm => ?_
    unfold EmisSpec.lineEmissivity
    rw [(key l (List.mem_filter.1 hm).1).2]
  · refine List.map_congr_left fun l hm => ?_
    unfold EmisSpec.lineOpacity
    rw [(key l (List.mem_filter.1 hm).1).1, (key l (List.mem_filter.1 hm).1).2]

theorem conts_congr' (hl : LevelsExist t.ad) (sig : Cont → ℝ) (n n' s s' : Emis.Pops) (hn : ∀ ia at', t.ad.atoms[ia]? = some at' → ∀ l, l < at'.top + 1 → n ia l = n' ia l)
    (hs : ∀ ia at', t.ad.atoms[ia]? = some at' → ∀ l, l < at'.top + 1 → s ia l = s' ia l)
    (la : Nat) (p : Point) (w : ℝ) : EmisSpec.conts t.k t.ad la sig n s p w = EmisSpec.conts t.k t.ad la sig n' s' p w := by
  have key : ∀ l ∈ t.ad.conts, n l.atom l.i = n' l.atom l.i ∧ n l.atom l.j = n' l.atom l.j ∧ s l.atom l.i = s' l.atom l.i ∧ s l.atom l.j = s' l.atom l.j := by
    intro l hm
    obtain ⟨x, x1, x2, x3⟩ := hl.2 l hm
    exact ⟨hn _ _ x1 _ x2, hn _ _ x1 _ x3, hs _ _ x1 _ x2, hs _ _ x1 _ x3⟩
  unfold EmisSpec.conts
  simp only
  congr 2
  · refine List.map_congr_left fun l hm => ?_
    obtain ⟨k1, k2, k3, k4⟩ := key l (List.mem_filter.1 hm).1
    unfold EmisSpec.contEmissivity
    rw [k2, k3, k4]
  · refine List.map_congr_left fun l hm => ?_
    obtain ⟨k1, k2, k3, k4⟩ := key l (List.mem_filter.1 hm).1
    unfold EmisSpec.contOpacity
    rw [k1, k2, k3, k4]

/-- the rows of a level of an atom are rows of the file -/
theorem level_lt (ad : AData) : ∀ (l : List Atom) (ia : Nat) (x : Atom), l[ia]? = some x → ∀ i, i < x.top + 1 →
    ((l.take ia).map fun x => x.top + 1).sum + i < (l.map fun x => x.top + 1).sum
  | [], ia, x, h, i, hi => by simp at h
  | y :: l, 0, x, h, i, hi => by
    simp only [List.getElem?_cons_zero, Option.some.injEq] at h
    subst h
    simp only [List.take_zero, List.map_nil, List.sum_nil, List.map_cons, List.sum_cons]
    omega
  | y :: l, ia + 1, x, h, i, hi => by
    simp only [List.getElem?_cons_succ] at h
    have := level_lt ad l ia x h i hi
    simp only [List.take_succ_cons, List.map_cons, List.sum_cons]
    omega

/-- number of grid wavelengths not above -/
theorem count_spec (wl : List ℝ) (hs : wl.Pairwise (· < ·)) (lambda : ℝ) :
    ((wl.filter fun w => decide (w ≤ lambda)).length = 0 → ∀ w ∈ wl, lambda < w) ∧
    ∀ la, (wl.filter fun w => decide (w ≤ lambda)).length = la + 1 → ∃ h : la < wl.length, wl[la] ≤ lambda ∧ ∀ h' : la + 1 < wl.length, lambda < wl[la + 1] := by
  have hpre : ∀ (l : List ℝ), l.Pairwise (· < ·) → ∀ i (h : i < l.length), (l[i] ≤ lambda ↔ i < (l.filter fun w => decide (w ≤ lambda)).length) := by
    intro l
    induction l with
    | nil => intro _ i h; simp at h
    | cons x l ih =>
      intro hp i h
      obtain ⟨p1, p2⟩ := List.pairwise_cons.1 hp
      by_cases hx : x ≤ lambda
      · rw [List.filter_cons_of_pos (by simpa using hx)]
        cases i with
        | zero => simp [hx]
        | succ i =>
          simp only [List.getElem_cons_succ, List.length_cons, Nat.add_lt_add_iff_right]
          exact ih p2 i (by simpa using h)
      · have hall : ∀ y ∈ l, ¬ y ≤ lambda := fun y hy hle => hx (le_trans (p1 y hy).le hle)
        have hnil : (l.filter fun w => decide (w ≤ lambda)) = [] := by
          rw [List.filter_eq_nil_iff]; intro y hy; simpa using hall y hy
        rw [List.filter_cons_of_neg (by simpa using hx), hnil]
        simp only [List.length_nil, Nat.not_lt_zero, iff_false]
        cases i with
        | zero => simpa using hx
        | succ i => exact hall _ (List.getElem_mem _)
  have hle : (wl.filter fun w => decide (w ≤ lambda)).length ≤ wl.length := List.length_filter_le _ _
  refine ⟨fun h0 w hw => ?_, fun la hla => ⟨by omega, (hpre wl hs la (by omega)).2 (by omega), fun h' => ?_⟩⟩
  · obtain ⟨i, hi, rfl⟩ := List.getElem_of_mem hw
    have := hpre wl hs i hi
    rw [h0] at this
    exact not_le.1 fun h => absurd (this.1 h) (by omega)
  · have := (hpre wl hs (la + 1) h').not
    rw [hla] at this
    simpa using this

/-- emissivity and opacity of a cell -/
theorem cellVal_ok (hr : RayReady t) (hI : IsLoaded t k nx nz a res d) (hlev : totalLevels t.ad ≤ res.levels) (hw : t.haveH = false → WarmKept t k nx nz a res)
    (mu : Boundary.V3) (lambda : ℝ) (scratch : Emis.Pops) (c : Coord2) (hc : HasData2 (2 ^ k) nx nz (ActiveTile t k a) c) (adr : Int)
    (hadr : Addr2 (2 ^ k) d.bm c adr) :
    cellVal t d mu lambda scratch adr.toNat = .ok (gasAt t (updated a res) res (hOf t a res) mu lambda c) := by
  obtain ⟨p1, p2, p3⟩ := hI.pops c hc adr hadr
  obtain ⟨x1, x2, x3, x4, x5, x6, x7⟩ := hI.cell c hc adr hadr
  have hpos : t.haveH = true → 0 < res.levels := by
    intro hh
    have hne := hr.hydrogen hh
    obtain ⟨y, l, hyl⟩ := List.exists_cons_of_ne_nil hne
    have : 0 < totalLevels t.ad := by
      unfold totalLevels
      rw [hyl]; simp
    omega
  have hz : ((adr.toNat : Nat) : Int) = adr := Int.toNat_of_nonneg p1
  unfold cellVal
  rw [if_neg]
  swap
  · rintro (h | h | h | ⟨h1, h2⟩)
    · rw [hI.rows] at h; omega
    · omega
    · exact h hr.levels
    · rw [hI.rows] at h2; have := hpos h1; omega
  simp only [hz]
  have hh : (if t.haveH = true then Outcome.ok (d.pops adr 0) else do
      let h ← Lte.hPart t.sahaConst t.ionE (d.atmos.temperature adr) (d.atmos.ne adr) (d.atmos.nhTot adr)
      .ok h.1) = .ok (hOf t a res c) := by
    unfold hOf
    by_cases hh : t.haveH = true
    · simp only [hh, if_true]
      rw [p3 0 (hpos hh)]
    · have hh' : t.haveH = false := by simpa using hh
      obtain ⟨w1, w2, w3⟩ := hw hh' c ((kept_iff _ _ _ _ _ _).2 hc)
      obtain ⟨n0, n1, u, e1, -⟩ := _root_.DexRT.C50_hydrogen t.sahaConst t.ionE _ _ _ hr.saha w1 w2 w3
      simp only [hh', Bool.false_eq_true, if_false, x1, x2, x3, e1, Outcome.ok_bind]
  rw [hh, Outcome.ok_bind]
  have hpt : pointOf d mu (hOf t a res c) adr =
      point (updated a res) (hOf t a res) (-((updated a res).vx c * mu.x + (updated a res).vy c * mu.y + (updated a res).vz c * mu.z)) c := by
    unfold pointOf point updated
    simp only [x1, x4]
    rw [x2, x3]
    have : vProj mu ⟨d.atmos.vx adr, d.atmos.vy adr, d.atmos.vz adr⟩ = -(a.vx c * mu.x + a.vy c * mu.y + a.vz c * mu.z) := by
      unfold vProj
      simp only [x5, x6, x7]; ring
    rw [this]
    rfl
  rw [hpt]
  have hpop : ∀ ia at', t.ad.atoms[ia]? = some at' → ∀ l, l < at'.top + 1 → popsAt t d adr ia l = popsOf t res c ia l := by
    intro ia x hx l hl
    unfold popsAt popsOf levelStart
    refine p3 _ (lt_of_lt_of_le (level_lt t.ad _ _ _ hx l hl) hlev)
  obtain ⟨c1, c2⟩ := count_spec t.ad.wavelength hr.sorted lambda
  obtain ⟨g1, g2⟩ := C54_any_wavelength t.k t.phi t.ad hr.wellFormed hr.sorted (popsAt t d adr) scratch
    (point (updated a res) (hOf t a res) (-((updated a res).vx c * mu.x + (updated a res).vy c * mu.y + (updated a res).vz c * mu.z)) c) lambda
  unfold gasAt
  cases hn : (t.ad.wavelength.filter fun w => decide (w ≤ lambda)).length with
  | zero => rw [g1 (c1 hn)]; rfl
  | succ la =>
    obtain ⟨q1, q2, q3⟩ := c2 la hn
    obtain ⟨nStar, scratch', s1, s2⟩ := g2 la q1 q2 q3
    rw [s2]
    simp only [Outcome.ok_bind, Nat.succ_ne_zero, if_false, Nat.add_sub_cancel]
    rw [lines_congr' hr.levels _ _ hpop, conts_congr' hr.levels _ _ _ nStar (starOf t (updated a res) c) hpop]
    intro ia x hx l hl
    unfold starOf
    have : ∃ y, EmisSpec.lte t.k t.ad (point (updated a res) (fun _ => 0) 0 c) ia l = some y ∧
        EmisSpec.lte t.k t.ad (point (updated a res) (hOf t a res) (-((updated a res).vx c * mu.x + (updated a res).vy c * mu.y + (updated a res).vz c * mu.z)) c) ia l = some y := by
      unfold EmisSpec.lte
      simp only [hx, Option.bind_some, dif_pos hl]
      exact ⟨_, rfl, rfl⟩
    obtain ⟨y, y1, y2⟩ := this
    rw [y1, s1 ia l y y2]
    rfl

end DexRT.RayRun
