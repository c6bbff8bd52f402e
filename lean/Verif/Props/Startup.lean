import Verif.Lemmas.Startup
import Verif.Props.Sparse
import Verif.Props.StatEq
import Verif.Props.Config
/-!
C72: initial populations. C73: LTE runs.
-/
namespace DexRT
namespace Startup

section load
variable {V : Type}

/-- C72 (2D): populations on the full grid end up in their cells, for every level and in any order of the kernel; a file
written in the order of the active cells is taken as it is. -/
theorem C72_load2 (k nx nz levels : ℕ) (Active : Coord2 → Prop) (bm : BlockMap Coord2)
    (hx : FitsI32Axis k nx) (hz : FitsI32Axis k nz) (hm : MapFor2 (2 ^ k) nx nz Active bm)
    (val : ℕ → Coord2 → V) (sval : ℕ → ℤ → V) (sched : List (ℕ × ℕ × ℤ))
    (hs : sched.Perm (popsIters (2 ^ k * 2 ^ k) levels bm)) (old : ℕ × ℤ → V) :
    let d : Coord2 := { x := nx * (2 ^ k : ℕ), z := nz * (2 ^ k : ℕ) }
    (∃ s, loadPops2 (2 ^ k) levels bm d (.dense levels d val) sched old = .ok s ∧
      ∀ l < levels, ∀ c, HasData2 (2 ^ k) nx nz Active c → ∀ a, Addr2 (2 ^ k) bm c a → s (l, a) = val l c) ∧
    (∃ s, loadPops2 (2 ^ k) levels bm d (.sparse levels (numActiveCells ((2 ^ k : ℕ) * (2 ^ k : ℕ)) bm) sval) sched old = .ok s ∧
      ∀ l a, s (l, a) = sval l a) := by
  intro d
  constructor
  · obtain ⟨s, h1, h2⟩ := gather_levels levels (iterSpace2 k nx nz Active bm hx hz hm) _
      (fun c hc => (inGrid2_inDims (2 ^ k) nx nz c).2 (hasData2_inGrid _ nx nz Active c hc)) val sched
      (fun q => by rw [hs.mem_iff, mem_popsIters]) old
    refine ⟨s, ?_, h2⟩
    simp only [loadPops2, d]
    rw [if_neg (by simp), if_neg (by simp)]
    exact h1
  · simp [loadPops2]

/-- Two levels on a 4 by 2 grid of which one tile is active, kernel in reverse order. -/
example : ((setupSparse2 (F := Int) 2 4 2 (fun _ x => if x < 2 then 0 else 9) 5 false).bind fun bm =>
    (loadPops2 2 2 bm ⟨4, 2⟩ (.dense 2 ⟨4, 2⟩ fun l c => (100 * l + 10 * c.z + c.x + 1 : ℤ)) (popsIters 4 2 bm).reverse
      (fun _ => -7)).bind fun s => .ok (s (0, 0), s (0, 3), s (1, 1), s (1, 2))) = .ok (1, 12, 102, 111) := by decide +kernel

/-- C72 (3D). -/
theorem C72_load3 (k nx ny nz levels : ℕ) (Active : Coord3 → Prop) (bm : BlockMap Coord3)
    (hx : FitsI32Axis k nx) (hy : FitsI32Axis k ny) (hz : FitsI32Axis k nz) (hm : MapFor3 (2 ^ k) nx ny nz Active bm)
    (val : ℕ → Coord3 → V) (sval : ℕ → ℤ → V) (sched : ℕ → List (ℕ × ℤ))
    (hs : ∀ l, (sched l).Perm (loopIters (2 ^ k * 2 ^ k * 2 ^ k) bm)) (old : ℕ × ℤ → V) :
    let d : Coord3 := { x := nx * (2 ^ k : ℕ), y := ny * (2 ^ k : ℕ), z := nz * (2 ^ k : ℕ) }
    (∃ s, loadPops3 (2 ^ k) levels bm d (.dense levels d val) sched old = .ok s ∧
      ∀ l < levels, ∀ c, HasData3 (2 ^ k) nx ny nz Active c → ∀ a, Addr3 (2 ^ k) bm c a → s (l, a) = val l c) ∧
    (∃ s, loadPops3 (2 ^ k) levels bm d
        (.sparse levels (numActiveCells ((2 ^ k : ℕ) * (2 ^ k : ℕ) * (2 ^ k : ℕ)) bm) sval) sched old = .ok s ∧
      ∀ l a, s (l, a) = sval l a) := by
  intro d
  constructor
  · obtain ⟨s, h1, h2⟩ := foldlM_levels
      (fun l m => sparsifyField3 (2 ^ k) bm d (val l) (sched l) m)
      (fun l s => ∀ c, HasData3 (2 ^ k) nx ny nz Active c → ∀ a, Addr3 (2 ^ k) bm c a → s a = val l c)
      (fun l m => C36_sparsify3 k nx ny nz Active bm hx hy hz hm (val l) (sched l) (hs l) m) levels old
    refine ⟨s, ?_, h2⟩
    simp only [loadPops3]
    rw [if_neg (by simp), if_neg (by simp)]
    exact h1
  · simp [loadPops3]

/-- C72: files of another size are rejected, in both programs. -/
theorem C72_rejects (B levels : ℕ) :
    (∀ (bm : BlockMap Coord2) (d : Coord2) (file : PopsFile Coord2 V) sched old s, loadPops2 B levels bm d file sched old = .ok s →
      match file with
      | .sparse l n _ => l = levels ∧ n = numActiveCells (B * B) bm
      | .dense l e _ => l = levels ∧ e = d) ∧
    (∀ (bm : BlockMap Coord3) (d : Coord3) (file : PopsFile Coord3 V) sched old s, loadPops3 B levels bm d file sched old = .ok s →
      match file with
      | .sparse l n _ => l = levels ∧ n = numActiveCells (B * B * B) bm
      | .dense l e _ => l = levels ∧ e = d) := by
  constructor
  · intro bm d file sched old s h
    cases file with
    | sparse l n v =>
      simp only [loadPops2] at h
      split_ifs at h with h1 h2
      exact ⟨not_not.1 h1, not_not.1 h2⟩
    | dense l e v =>
      simp only [loadPops2] at h
      split_ifs at h with h1 h2
      refine ⟨not_not.1 h1, ?_⟩
      push Not at h2
      cases e; cases d; simp_all
  · intro bm d file sched old s h
    cases file with
    | sparse l n v =>
      simp only [loadPops3] at h
      split_ifs at h with h1 h2
      exact ⟨not_not.1 h1, not_not.1 h2⟩
    | dense l e v =>
      simp only [loadPops3] at h
      split_ifs at h with h1 h2
      refine ⟨not_not.1 h1, ?_⟩
      push Not at h2
      cases e; cases d; simp_all

end load

/-! ### Before the first iteration -/

variable {A E H G : Type}

/-- C72: without charge conservation, atoms that are not to start from `ZeroRadiation` enter the first iteration with the
populations of the file (or LTE if there is none), the others with the equilibrium without radiation. Densities are those of the
atmosphere. (Partial: false with charge conservation, `C72_refuted`.) -/
theorem C72_start_partial (c : StartCfg) (ph : StartPhys A E H G) (e : E) (h : H) (file : Option (ℕ → A))
    (hc : c.charge = false) (hp : c.pressure = false) :
    ∃ f, start c ph e h file none = .ok (0, f) ∧ f.ne = e ∧ f.nh = h ∧
      ∀ ia, f.pops ia = if c.nonLte = true ∧ ia < c.atoms ∧ c.zeroRad ia = true
        then ph.solve ia (file.getD (ph.lte e h) ia) (ph.dark ia (ph.collGamma e h ia) e) h
        else file.getD (ph.lte e h) ia := by
  unfold start
  simp only [hc, hp, Bool.false_and, Bool.false_eq_true, if_false, Option.isNone_none, Bool.and_true]
  cases hn : c.nonLte with
  | false =>
    cases c.press2 <;> exact ⟨_, rfl, rfl, rfl, fun ia => by simp⟩
  | true =>
    simp only [Bool.not_true, Bool.and_false, Bool.false_eq_true, if_false, if_true]
    exact ⟨_, rfl, rfl, rfl, fun ia => by simp [special]⟩

theorem lteLoop_forgets (c : StartCfg) (ph : StartPhys A E H G) (hs : ∀ ia a a' g h, ph.solve ia a g h = ph.solve ia a' g h)
    (n : ℕ) (hn : 0 < n) (f : Fields (ℕ → A) E H) (p : ℕ → A) (ch : Fl) :
    lteLoop c ph n 0 ch { f with pops := p } = lteLoop c ph n 0 ch f := by
  have hcol : ∀ f f' : Fields (ℕ → A) E H, f.ne = f'.ne → f.nh = f'.nh → (collEq ph f).1 = (collEq ph f').1 := by
    intro f f' h1 h2
    simp only [collEq, Fields.mk.injEq]
    refine ⟨?_, h1, h2⟩
    funext ia
    rw [h1, h2]
    exact hs _ _ _ _ _
  obtain ⟨m, rfl⟩ : ∃ m, n = m + 1 := ⟨n - 1, by omega⟩
  have h1 : ∀ g : Fields (ℕ → A) E H, lteLoop c ph (m + 1) 0 ch g =
      lteLoop c ph m 1 (collEq ph g).2 (collEq ph g).1 := by
    intro g
    simp [lteLoop, ltePass]
  rw [h1, h1]
  rw [hcol { f with pops := p } f rfl rfl]
  cases m with
  | zero => rfl
  | succ m => simp [lteLoop]

/-- C72 is **false** with charge conservation: whatever populations the file holds, the run starts as if there was no file.
(Unless restarting. The solution of the rate equations does not depend on the old populations, see
`C25_any_elimination`; `max_iter` is at least 1.) -/
theorem C72_refuted (c : StartCfg) (ph : StartPhys A E H G) (e : E) (h : H) (p : ℕ → A) (hc : c.charge = true)
    (hn : c.nonLte = true) (hi : 0 < c.maxIters) (hs : ∀ ia a a' g h, ph.solve ia a g h = ph.solve ia a' g h) :
    start c ph e h (some p) none = start c ph e h none none := by
  have hl := lteLoop_forgets c ph hs c.maxIters.toNat (by omega) { pops := ph.lte e h, ne := e, nh := h } p (some 1)
  unfold start
  simp only [hc, hn, Bool.true_and, Option.isNone_none, if_true, Option.getD_some, Option.getD_none]
  rw [hl]
  simp

/-- The condition of `C72_refuted` on the rate equations is what `C25_any_elimination` proves: one atom in one cell, whichever
level's equation the old populations select. -/
theorem C72_solution_forgets {K : Type} [Field K] [LinearOrder K] [IsStrictOrderedRing K] {n : ℕ}
    (sel : (Fin n → K) → Fin n) (Gm : Fin n → Fin n → K) (ntot : K) (hG : RatesNonneg Gm)
    (hr : ∀ i, Reaches Gm i) (old old' : Fin n → K) :
    StatEq.statEqCell (sel old) Gm ntot = StatEq.statEqCell (sel old') Gm ntot :=
  C25_any_elimination _ _ Gm ntot hG (hr _) (hr _)

/-- A start with charge conservation and physics as in `C72_refuted`: 5 is read, 2 is used. -/
example :
    let ph : StartPhys ℚ ℚ ℚ ℚ :=
      { lte := fun e h _ => e * h, collGamma := fun e _ _ => e, solve := fun _ _ g h => g * h,
        change := fun _ _ => some 0, nr := fun _ f => (f, some 0), press := fun f => (f, some 0), dark := fun _ g _ => g }
    let c : StartCfg :=
      { nonLte := true, charge := true, pressure := false, haveH := true, maxIters := 200, atoms := 1,
        zeroRad := fun _ => false, press2 := true }
    (∀ ia a a' g h, ph.solve ia a g h = ph.solve ia a' g h) ∧
      (match start c ph 1 2 (some fun _ => 5) none with | .ok r => r.2.pops 0 | _ => 0) = 2 := by
  intro ph c
  refine ⟨fun _ _ _ _ _ => rfl, ?_⟩
  rw [C72_refuted c ph 1 2 _ rfl rfl (by decide) fun _ _ _ _ _ => rfl]
  have : lteLoop c ph 200 0 (some 1) { pops := fun _ => 2, ne := 1, nh := 2 } = { pops := fun _ => 2, ne := 1, nh := 2 } := by
    have hp : ∀ i, ltePass c ph i { pops := fun _ => 2, ne := 1, nh := 2 } = ({ pops := fun _ => 2, ne := 1, nh := 2 }, some 0) := by
      intro i
      simp [ltePass, collEq, ph, c]
    have hl : ∀ n i ch, lteLoop c ph n i ch { pops := fun _ => 2, ne := 1, nh := 2 } = { pops := fun _ => 2, ne := 1, nh := 2 } := by
      intro n
      induction n with
      | zero => intro i ch; rfl
      | succ n ih =>
        intro i ch
        simp only [lteLoop, hp, ih, ite_self]
    exact hl _ _ _
  have h2 : ph.lte 1 2 = fun _ => 2 := by funext i; simp [ph]
  simp only [start, c, Option.getD_none, h2, Option.isNone_none, Bool.and_true, Bool.not_true, Bool.and_false, if_false, if_true,
    Bool.false_eq_true]
  have h3 : (200 : ℤ).toNat = 200 := rfl
  rw [h3]
  have := this
  simp only [c] at this
  rw [this]
  simp [special]

/-- C72: a restarted run starts from its snapshot; neither the file nor the LTE iteration nor `ZeroRadiation` matter. -/
theorem C72_restart (c : StartCfg) (ph : StartPhys A E H G) (e : E) (h : H) (file : Option (ℕ → A))
    (s : Snapshot (ℕ → A) E H) (hn : c.nonLte = true) (hh : c.charge = true → c.haveH = true)
    (hp : c.pressure = true → c.charge = true) (p : ℕ → A) (i : ℤ) (hsp : s.pops = some p) (hsi : s.numIter = some i) :
    start c ph e h file (some s) = .ok (i, { pops := p, ne := s.ne.getD e, nh := s.nh.getD h }) := by
  unfold start
  have h1 : (c.charge && !c.haveH) = false := by
    cases hc : c.charge with
    | false => rfl
    | true => simp [hh hc]
  have h2 : (c.pressure && !c.charge) = false := by
    cases hc : c.pressure with
    | false => rfl
    | true => simp [hp hc]
  simp [h1, h2, hn, handleRestart, hsp, hsi]

/-- C72: charge conservation without hydrogen and pressure conservation without charge conservation are refused. -/
theorem C72_checks (c : StartCfg) (ph : StartPhys A E H G) (e : E) (h : H) (file : Option (ℕ → A))
    (restart : Option (Snapshot (ℕ → A) E H))
    (hbad : c.charge = true ∧ c.haveH = false ∨ c.pressure = true ∧ c.charge = false) :
    start c ph e h file restart = .throws := by
  unfold start
  rcases hbad with ⟨h1, h2⟩ | ⟨h1, h2⟩
  · simp [h1, h2]
  · simp [h1, h2]

/-! ### LTE runs -/

/-- The settings of LTE mode. -/
theorem lte_settings (pp : Bool) (f : Config.File) (c : Config.Cfg) (h : Config.parse pp f = .ok c) (hm : c.mode = .Lte) :
    c.popTol = 1 / 1000 ∧ c.lambdaIters = 2 ∧ c.maxIter = 200 := by
  obtain ⟨m, c1, c2, -, h1, h2, h3⟩ := Config.parse_ok h
  obtain ⟨e1, -⟩ := Config.extra_mode h1
  obtain ⟨h2, -⟩ := Config.outputIf_ok h2
  obtain ⟨l, -, h3⟩ := Config.mip_ok h3
  have hmm : m = .Lte := by
    rw [h3, h2] at hm
    simp only at hm
    rw [e1] at hm
    exact hm
  subst hmm
  obtain ⟨as, l, b, -, -, -, rfl⟩ := Config.lte_ok h1
  rw [h3, h2]
  exact ⟨rfl, rfl, rfl⟩

/-- C73: an LTE run solves for the radiation exactly once, whatever the configuration. (Partial: for the 3D program not when
restarting, see `C73_refuted`.) -/
theorem C73_once_partial (pp : Bool) (f : Config.File) (c : Config.Cfg) (h : Config.parse pp f = .ok c) (hm : c.mode = .Lte) :
    (∀ i, lteSolutions false c.popTol c.lambdaIters c.maxIter i = 1) ∧
    ∀ i < 200, lteSolutions true c.popTol c.lambdaIters c.maxIter i = 1 := by
  obtain ⟨h1, h2, h3⟩ := lte_settings pp f c h hm
  refine ⟨fun _ => rfl, fun i hi => ?_⟩
  rw [h1, h3]
  norm_num [lteSolutions, hi]

example : ∃ c, Config.parse true { mode := some "Lte", atoms := some [{ path := some "H.yaml" }] } = .ok c ∧ c.mode = .Lte :=
  ⟨_, rfl, rfl⟩

/-- C73 is **false** for the 3D program started from a snapshot of a long run: nothing is computed. -/
theorem C73_refuted (pp : Bool) (f : Config.File) (c : Config.Cfg) (h : Config.parse pp f = .ok c) (hm : c.mode = .Lte)
    (i : ℤ) (hi : 200 ≤ i) : lteSolutions true c.popTol c.lambdaIters c.maxIter i = 0 := by
  obtain ⟨h1, h2, h3⟩ := lte_settings pp f c h hm
  have : ¬ i < 200 := by omega
  simp [lteSolutions, h3, this]

end Startup
end DexRT
