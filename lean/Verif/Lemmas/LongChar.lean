import Verif.Spec.LongChar
import Verif.Lemmas.MeanJ
import Verif.Lemmas.Rc
import Verif.Lemmas.GivenBatch3
import Verif.Lemmas.GivenMarch
import Verif.Lemmas.GivenFs3
import Verif.Lemmas.GivenMarch3
/-! Lemmas for the long-characteristics mode. -/
namespace DexRT.LongChar
open DexRT DexRT.Fs DexRT.Given3

theorem dims0 (c : RcCfg3) (s : Casc3) {b : List ℝ} (h : Sized s b) :
    (cascadeSize3 c.branch s 0).np0 = s.np0 ∧ (cascadeSize3 c.branch s 0).np1 = s.np1 ∧ (cascadeSize3 c.branch s 0).np2 = s.np2 ∧
    (cascadeSize3 c.branch s 0).az = s.az ∧ (cascadeSize3 c.branch s 0).polar = s.polar ∧
    (cascadeComputeSize3 c s 0).np0 = s.np0 ∧ (cascadeComputeSize3 c s 0).np1 = s.np1 ∧ (cascadeComputeSize3 c s 0).np2 = s.np2 := by
  obtain ⟨h0, h1, h2, -, -⟩ := h.pos
  simp only [cascadeSize3, cascadeComputeSize3, Nat.shiftRight_zero]
  refine ⟨by omega, by omega, by omega, ?_, ?_, by omega, by omega, by omega⟩
  · cases c.branch <;> simp [azFactor]
  · cases c.branch <;> simp [polarFactor]

theorem flat (a b k : Nat) : k % a + a * (k / a % b + b * (k / a / b)) = k := by
  rw [Nat.mod_add_div, Nat.mod_add_div]

theorem body_ok (c : RcCfg3) (s : Casc3) {b : List ℝ} (h : Sized s b) (I : Coord3 → ℝ) (k : Nat) (hk : k < s.np0 * s.np1 * s.np2) :
    lcBody c s I k = .ok (s.az * (s.polar * k), I (probeAt s k), 0) := by
  obtain ⟨d0, d1, d2, d3, d4, -, -, -⟩ := dims0 c s h
  have e := probeCoord_ok (cascadeSize3 c.branch s 0) s.np0 s.np1 s.np2 k d0 d1 d2 h.pos.1 h.pos.2.1 h.pos.2.2.1 h.count hk
  unfold lcBody
  simp only [e, Outcome.ok_bind]
  rw [if_pos ⟨by positivity, by positivity, by positivity⟩, probeLinearIndex3_nest]
  simp only [Int.toNat_natCast, d0, d1, d3, d4, Nat.zero_div, Nat.zero_mul, Nat.sub_self, ite_self, Nat.zero_add, flat]
  rfl

theorem merge_ok (c : RcCfg3) (s : Casc3) {b : List ℝ} (h : Sized s b) (w : ℝ) (la : Nat) (c0 : List ℝ) (hc0 : c0.length = b.length)
    (i : JIter3) (hk : i.k < s.np0 * s.np1 * s.np2) (ht : i.theta < s.polar) (hp : i.phi < s.az) :
    lcJ c s w la c0 i = .ok ((la : Int), (i.k : Int), w * c0.getD (i.phi + s.az * (i.theta + s.polar * i.k)) 0) := by
  obtain ⟨-, -, -, -, -, d0, d1, d2⟩ := dims0 c s h
  have e := probeCoord_ok (cascadeComputeSize3 c s 0) s.np0 s.np1 s.np2 i.k d0 d1 d2 h.pos.1 h.pos.2.1 h.pos.2.2.1 h.count hk
  unfold lcJ
  simp only [e, Outcome.ok_bind]
  unfold fetch3
  rw [if_pos ⟨by positivity, by positivity, by positivity⟩]
  simp only [Int.toNat_natCast, flat]
  have hlt : i.phi + s.az * (i.theta + s.polar * i.k) < c0.length := by
    rw [hc0]
    refine lt_of_lt_of_le ?_ h.buffer
    have h1 : i.theta + s.polar * i.k < s.polar * (s.np0 * s.np1 * s.np2) := by nlinarith
    nlinarith
  rw [readAt_ok (List.getElem?_eq_getElem hlt)]
  simp only [Outcome.ok_bind]
  rw [List.getD_eq_getElem?_getD, List.getElem?_eq_getElem hlt]; rfl

/-- the kernel of one direction: it writes the first direction of every probe, and nothing else -/
theorem kernel_ok (c : RcCfg3) (s : Casc3) {b0 : List ℝ} (h : Sized s b0) (I : Coord3 → ℝ) :
    ∀ (sched : List Nat), (∀ k ∈ sched, k < s.np0 * s.np1 * s.np2) → ∀ (m : Mem ℝ) (b : List ℝ), m.bufs[0]? = some b →
      b.length = b0.length →
      ∃ m' b', rcLoop (fun _ k => lcBody c s I k) 0 false sched m = .ok m' ∧ m'.bufs[0]? = some b' ∧ b'.length = b0.length ∧
        (∀ i, (∀ k, i = s.az * (s.polar * k) → k ∉ sched) → b'.getD i 0 = b.getD i 0) ∧
        (∀ k ∈ sched, b'.getD (s.az * (s.polar * k)) 0 = I (probeAt s k))
  | [], _, m, b, hb, hl => ⟨m, b, rfl, hb, hl, fun _ _ => rfl, fun _ hk => by simp at hk⟩
  | k :: ks, hks, m, b, hb, hl => by
    have hk := hks k List.mem_cons_self
    obtain ⟨-, -, -, pa, pp⟩ := h.pos
    have hlt : s.az * (s.polar * k) < b.length := by
      rw [hl]
      refine lt_of_lt_of_le ?_ h.buffer
      exact Nat.mul_lt_mul_of_pos_left (Nat.mul_lt_mul_of_pos_left hk pp) pa
    have h0 : 0 < m.bufs.length := by
      by_contra hc
      rw [List.getElem?_eq_none (by omega)] at hb
      exact absurd hb (by simp)
    obtain ⟨m', b', e1, e2, e3, e4, e5⟩ := kernel_ok c s h I ks (fun k' hk' => hks k' (List.mem_cons_of_mem _ hk'))
      { bufs := m.bufs.set 0 (b.set (s.az * (s.polar * k)) (I (probeAt s k))), psi := m.psi }
      (b.set (s.az * (s.polar * k)) (I (probeAt s k))) (by simp [h0]) (by simpa using hl)
    refine ⟨m', b', ?_, e2, e3, ?_, ?_⟩
    · rw [rcLoop, body_ok c s h I k hk, Outcome.ok_bind, readAt_ok hb, Outcome.ok_bind]
      have hst : storeAt b (s.az * (s.polar * k)) (I (probeAt s k)) = .ok (b.set (s.az * (s.polar * k)) (I (probeAt s k))) := by
        unfold storeAt; rw [if_pos hlt]
      simp only [hst, Outcome.ok_bind, storePsi, Bool.false_eq_true, if_false]
      exact e1
    · intro i hi
      rw [e4 i fun k' hk' hm => hi k' hk' (List.mem_cons_of_mem _ hm)]
      have hne : s.az * (s.polar * k) ≠ i := fun he => hi k he.symm List.mem_cons_self
      rw [List.getD_eq_getElem?_getD, List.getD_eq_getElem?_getD, List.getElem?_set_ne hne]
    · intro k' hk'
      by_cases hm : k' ∈ ks
      · exact e5 k' hm
      · have hkk : k' = k := by
          rcases List.mem_cons.1 hk' with h' | h'
          · exact h'
          · exact absurd h' hm
        subst hkk
        rw [e4 _ fun k'' hk'' hm' => hm (by
          have := Nat.eq_of_mul_eq_mul_left pp (Nat.eq_of_mul_eq_mul_left pa hk'')
          rwa [this])]
        rw [List.getD_eq_getElem?_getD, List.getElem?_set_self hlt]; rfl

/-- a lookup without entries: no cell has data -/
theorem readLevel_empty {s : Settings} {k nx ny nz nw : Nat} {eta chi : Coord3 → Int → ℝ} {scale : ℝ} {g : Given}
    (hf : Fits s k nx ny nz) (hg : Good s k nx ny nz nw eta chi scale g) (lk : MLLookup Coord3)
    (hl : LevelsFor (GridTile3 (2 ^ k) (nx * (2 ^ k : Nat)) (ny * (2 ^ k : Nat)) (nz * (2 ^ k : Nat))) (fun _ => True) (mrOf s g lk) (fun _ => -1))
    (junk : ℤ) : readLevel s (mrOf s g lk) junk = fun _ => -1 := by
  funext c
  obtain ⟨b1, b2, b3, -, -⟩ := bounds hf
  unfold readLevel
  by_cases hfit : fitsI32 (c 0) = true ∧ fitsI32 (c 1) = true ∧ fitsI32 (c 2) = true
  · rw [if_pos hfit]
    have hI : IsI32Coord3 ⟨c 0, c 1, c 2⟩ := by
      unfold fitsI32 at hfit
      simpa [IsI32Coord3] using hfit
    obtain ⟨v, w, s', e1, e2, e3⟩ := C07_level3 k nx ny nz (fun _ => True) (mrOf s g lk) (fun _ => -1) b1 b2 b3 hg.map hl
      (max 0 ((match (mgeo3 (2 ^ k)).sampleLevel (mrOf s g lk) (mgeo3 (2 ^ k)).fresh ⟨c 0, c 1, c 2⟩ with | .ok (v, _) => v | _ => 0) + 1))
      (le_max_left _ _) [] (by simp) (by simp) (mgeo3 (2 ^ k)).fresh rfl ⟨c 0, c 1, c 2⟩ hI
    rw [hf.block]
    simp only [e1] at e3 ⊢
    have hw : w = -1 := by
      rcases e2 with ⟨t, t1, t2, t3⟩ | ⟨t1, t2⟩
      · exact t3
      · exact t2
    rw [← hw]
    have h1 := le_max_left 0 (v + 1)
    have h2 := le_max_right 0 (v + 1)
    rw [min_eq_left (by omega), min_eq_left (by omega)] at e3
    exact e3
  · rw [if_neg hfit]

theorem march_empty (a : StaticArgs) (h0 : a.env.lvl = fun _ => -1) (hm : 0 ≤ a.env.maxMip) (fuel : ℕ) (r : ℝ × ℝ)
    (hr : staticMarch a fuel = some r) : r = (0, 0) := by
  unfold staticMarch at hr
  cases hs : ddaStart a.env a.seg with
  | none => rw [hs] at hr; exact (Option.some.inj hr).symm
  | some rv =>
    obtain ⟨q, v⟩ := rv
    rw [hs] at hr
    simp only at hr
    cases hl : visitsEnd a.env q fuel v with
    | none => rw [hl] at hr; exact absurd hr (by simp)
    | some l =>
      rw [hl] at hr
      have hlev := march_levels a.env a.seg (fun c m _ => by rw [h0]) q v hs fuel l hl
      have key : ∀ L : List (Dda .three), (∀ x ∈ L, x.mip < 0) → (L.map a.stepOf).foldl (staticStep a.scale) (0, 0) = (0, 0) := by
        intro L
        induction L with
        | nil => intro _; rfl
        | cons x L ih =>
          intro hx
          rw [List.map_cons, List.foldl_cons]
          have h1 : staticStep a.scale (0, 0) (a.stepOf x) = (0, 0) := by
            unfold staticStep StaticArgs.stepOf
            have := hx x List.mem_cons_self
            rw [if_neg]
            simp only [decide_eq_true_eq]; omega
          rw [h1]
          exact ih fun y hy => hx y (List.mem_cons_of_mem _ hy)
      rw [← Option.some.inj hr]
      refine key _ fun x hx => ?_
      rw [hlev x hx]
      unfold DdaEnv.sampleLevel
      rw [h0]
      have := min_le_left (-1 : ℤ) a.env.maxMip
      simp only; omega

/-- the samples of one probe -/
theorem samples (s : Casc3) {b0 : List ℝ} (h : Sized s b0) (c0 : List ℝ) (sched : List Nat) (k : Nat) (I : Coord3 → ℝ)
    (hold : ∀ i, (∀ k, i = s.az * (s.polar * k) → k ∉ sched) → c0.getD i 0 = b0.getD i 0)
    (hnew : c0.getD (s.az * (s.polar * k)) 0 = I (probeAt s k)) :
    ∑ p ∈ Finset.range s.polar, ∑ a ∈ Finset.range s.az, c0.getD (a + s.az * (p + s.polar * k)) 0 =
      I (probeAt s k) + stale s b0 k := by
  obtain ⟨-, -, -, pa, pp⟩ := h.pos
  have e : ∀ p ∈ Finset.range s.polar, ∀ a ∈ Finset.range s.az, c0.getD (a + s.az * (p + s.polar * k)) 0 =
      (if p = 0 ∧ a = 0 then I (probeAt s k) else 0) +
        (if p = 0 ∧ a = 0 then 0 else b0.getD (a + s.az * (p + s.polar * k)) 0) := by
    intro p hp a ha
    rw [Finset.mem_range] at hp ha
    by_cases h0 : p = 0 ∧ a = 0
    · obtain ⟨rfl, rfl⟩ := h0
      simp only [Nat.zero_add, and_self, if_true, add_zero]
      exact hnew
    · rw [if_neg h0, if_neg h0, zero_add]
      refine hold _ fun k' hk' => absurd hk' fun hc => h0 ?_
      have h1 := congrArg (· % s.az) hc
      simp only [Nat.add_mul_mod_self_left, Nat.mul_mod_right, Nat.mod_eq_of_lt ha] at h1
      subst h1
      have h2 : p + s.polar * k = s.polar * k' := Nat.eq_of_mul_eq_mul_left pa (by omega)
      have h3 := congrArg (· % s.polar) h2
      simp only [Nat.add_mul_mod_self_left, Nat.mul_mod_right, Nat.mod_eq_of_lt hp] at h3
      exact ⟨h3, rfl⟩
  rw [Finset.sum_congr rfl fun p hp => Finset.sum_congr rfl fun a ha => e p hp a ha]
  simp only [Finset.sum_add_distrib]
  congr 1
  rw [Finset.sum_eq_single_of_mem 0 (Finset.mem_range.2 pp) fun p _ hp => by simp [hp],
    Finset.sum_eq_single_of_mem 0 (Finset.mem_range.2 pa) fun a _ ha => by simp [ha]]
  simp

theorem merge_sum (c : RcCfg3) (s : Casc3) {b0 : List ℝ} (h : Sized s b0) (w : ℝ) (la : Nat) (c0 : List ℝ) (hc0 : c0.length = b0.length)
    (sched : List JIter3) (hp : sched.Perm (jIters3 (s.np0 * s.np1 * s.np2) s.polar s.az)) (J : Arr2 ℝ) (hr : la < J.rows)
    (hc : s.np0 * s.np1 * s.np2 ≤ J.cols) :
    ∃ J', addAll (lcJ c s w la c0) sched J = .ok J' ∧ J'.rows = J.rows ∧ J'.cols = J.cols ∧
      (∀ r k, r ≠ la → J'.get r k = J.get r k) ∧
      ∀ k, k < s.np0 * s.np1 * s.np2 → J'.get la k = J.get la k +
        w * ∑ p ∈ Finset.range s.polar, ∑ a ∈ Finset.range s.az, c0.getD (a + s.az * (p + s.polar * k)) 0 := by
  obtain ⟨J', e1, e2, e3, e4⟩ := addAll_perm (lcJ c s w la c0)
    (fun i => ((la : Int), (i.k : Int), w * c0.getD (i.phi + s.az * (i.theta + s.polar * i.k)) 0)) _ sched hp J (by
      intro i hi
      obtain ⟨h1, h2, h3⟩ := (mem_jIters3 _ _ _ i).1 hi
      exact ⟨merge_ok c s h w la c0 hc0 i h1 h2 h3, by show (0 : Int) ≤ (la : Int); positivity, by
        show (la : Int) < J.rows
        exact_mod_cast hr, by show (0 : Int) ≤ (i.k : Int); positivity, by
        show (i.k : Int) < J.cols
        have : i.k < J.cols := lt_of_lt_of_le h1 hc
        exact_mod_cast this⟩)
  refine ⟨J', e1, e2, e3, fun r k hrk => ?_, fun k hk => ?_⟩
  · rw [e4, sum_jIters3]
    simp only [contrib]
    have : ¬ ((r : Int) = (la : Int)) := by exact_mod_cast hrk
    simp [this]
  · rw [e4, sum_jIters3]
    congr 1
    rw [Finset.sum_eq_single_of_mem k (Finset.mem_range.2 hk)]
    · rw [Finset.mul_sum]
      refine Finset.sum_congr rfl fun p _ => ?_
      rw [Finset.mul_sum]
      refine Finset.sum_congr rfl fun a _ => ?_
      simp [contrib]
    · intro k' _ hne
      have : ¬ ((k : Int) = (k' : Int)) := by exact_mod_cast (Ne.symm hne)
      simp [contrib, this]

/-- with a filled lookup and copied arrays the march is the march along the path -/
theorem lc_mem {s : Settings} {k nx ny nz nw : Nat} {eta chi : Coord3 → Int → ℝ} {scale : ℝ} {g : Given}
    (hf : Fits s k nx ny nz) (hg : Good s k nx ny nz nw eta chi scale g) (lk : MLLookup Coord3) (junk : ℝ) (junkLevel : ℤ)
    (emis opac : Int → ℝ) (E X : Coord3 → ℝ)
    (he : StoredAt3 (2 ^ k) nx ny nz (fun _ => True) (mrOf s g lk) 0 emis E)
    (hc : StoredAt3 (2 ^ k) nx ny nz (fun _ => True) (mrOf s g lk) 0 opac X)
    (hl : LevelsFor (GridTile3 (2 ^ k) (nx * (2 ^ k : Nat)) (ny * (2 ^ k : Nat)) (nz * (2 ^ k : Nat))) (fun _ => True) (mrOf s g lk) (fun _ => 0))
    (dist : ℝ) (d : Fin 3 → ℝ) (x : Coord3) (fuel : ℕ) :
    staticMarch (lcArgs s g lk junk junkLevel emis opac dist d x) fuel =
      (raymarch (pathTo k nx ny nz E X scale dist d x) fuel).map fun r => (r.I, r.tau) := by
  have hlvl := readLevel_ok hf hg lk hl junkLevel
  have h1 : ((s.B : Nat) : ℤ) = ((2 ^ k : Nat) : ℤ) := by rw [hf.block]
  have h2 : (![g.nx, g.ny, g.nz] : Fin 3 → ℤ) = ![((nx * 2 ^ k : Nat) : Int), ((ny * 2 ^ k : Nat) : Int), ((nz * 2 ^ k : Nat) : Int)] := by
    rw [hg.sx, hg.sy, hg.sz]; push_cast; rfl
  have henv : (lcArgs s g lk junk junkLevel emis opac dist d x).env = (pathTo k nx ny nz E X scale dist d x).env := by
    show (⟨readLevel s (mrOf s g lk) junkLevel, 0, ((s.B : Nat) : ℤ), ![g.nx, g.ny, g.nz]⟩ : DdaEnv .three) = _
    rw [hlvl, h1, h2]; rfl
  have hp : ∀ y : ℤ, ((probePos y 0 : ℚ) : ℝ) = (y : ℝ) + 1 / 2 := by
    intro y; unfold probePos; push_cast; ring
  have hseg : (lcArgs s g lk junk junkLevel emis opac dist d x).seg = (pathTo k nx ny nz E X scale dist d x).seg := by
    unfold lcArgs pathTo
    simp only [hp]
  rw [static_eq _ false 0 0]
  congr 1
  have harg : toRay (lcArgs s g lk junk junkLevel emis opac dist d x) false 0 0 =
      { pathTo k nx ny nz E X scale dist d x with
        eta := readCell s g (mrOf s g lk) junk emis
        chi := readCell s g (mrOf s g lk) junk opac } := by
    unfold toRay
    rw [henv, hseg]
    show RaymarchArgs.mk _ _ _ _ _ g.scale _ _ _ _ _ _ = RaymarchArgs.mk _ _ _ _ _ scale _ _ _ _ _ _
    rw [hg.vox]; rfl
  rw [harg]
  refine raymarch_congr (pathTo k nx ny nz E X scale dist d x) _ _ (fun c m hm => file_blk 0 c m hm) (fun c hc0 => ?_) fuel
  have hlv : (pathTo k nx ny nz E X scale dist d x).env.sampleLevel c = 0 := by
    have : (pathTo k nx ny nz E X scale dist d x).env.sampleLevel c ≤ 0 := min_le_right _ _
    omega
  have hcin : InGrid k nx ny nz ⟨c 0, c 1, c 2⟩ := by
    by_contra hno
    have : (pathTo k nx ny nz E X scale dist d x).env.lvl c = -1 := by
      show (fileWorld k nx ny nz (fun c _ => E c) (fun c _ => X c) scale).lvl c = -1
      rw [lvl_eq, if_neg hno]
    unfold DdaEnv.sampleLevel at hc0
    rw [this] at hc0
    have := min_le_left (-1 : ℤ) (pathTo k nx ny nz E X scale dist d x).env.maxMip
    omega
  rw [hlv]
  exact ⟨readCell_ok hf hg lk junk emis _ he c hcin, readCell_ok hf hg lk junk opac _ hc c hcin⟩

/-- arrays outside the grid are not read -/
theorem stored_clip {k nx ny nz : Nat} {m : MRMap Coord3} {a : Int → ℝ} {E : Coord3 → ℝ}
    (h : StoredAt3 (2 ^ k) nx ny nz (fun _ => True) m 0 a E) [DecidablePred (InGrid k nx ny nz)] :
    StoredAt3 (2 ^ k) nx ny nz (fun _ => True) m 0 a (fun c => if InGrid k nx ny nz c then E c else 0) := by
  intro c hc
  obtain ⟨i, s', e1, e2⟩ := h c hc
  refine ⟨i, s', e1, ?_⟩
  obtain ⟨t, t1, -, t2⟩ := hc
  rw [e2]
  exact (if_pos (inGrid_of t1 t2)).symm

end DexRT.LongChar
