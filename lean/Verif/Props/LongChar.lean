import Verif.Lemmas.LongChar
import Verif.Props.GivenFs3
/-!
**C97** The long-characteristics mode in 3D (`FORCE_LC_QUADRATURE`).
-/
namespace DexRT.LongChar
open DexRT DexRT.Fs DexRT.Given3

/-- For every quadrature and every order of the kernels, the loop over the directions of a wavelength runs within bounds and adds
to J of each probe the weighted sum over directions of what the march gives, *plus* what cascade 0 held before in the entries of
the probe other than its first: these are merged with every direction. The other rows of J are as they were. -/
theorem C97_sum (c : RcCfg3) (s : Casc3) (b0 : List ℝ) (h : Sized s b0) (I : Nat → Coord3 → ℝ) (w : Nat → ℝ) (la : Nat)
    (rc : Nat → List Nat) (j : Nat → List JIter3)
    (hrc : ∀ t, (rc t).Perm (List.range (s.np0 * s.np1 * s.np2)))
    (hj : ∀ t, (j t).Perm (jIters3 (s.np0 * s.np1 * s.np2) s.polar s.az)) (ts : List Nat) (m : Mem ℝ)
    (hm : m.bufs[0]? = some b0) (J : Arr2 ℝ) (hr : la < J.rows) (hc : s.np0 * s.np1 * s.np2 ≤ J.cols) :
    ∃ m' J', directions c s I w la rc j ts m J = .ok (m', J') ∧ J'.rows = J.rows ∧ J'.cols = J.cols ∧
      (∀ r k, r ≠ la → J'.get r k = J.get r k) ∧
      ∀ k, k < s.np0 * s.np1 * s.np2 →
        J'.get la k = J.get la k + (ts.map fun t => w t * (I t (probeAt s k) + stale s b0 k)).sum := by
  suffices H : ∀ (ts : List Nat) (m : Mem ℝ) (b : List ℝ), m.bufs[0]? = some b → b.length = b0.length →
      (∀ i, (∀ k, i = s.az * (s.polar * k) → ¬ k < s.np0 * s.np1 * s.np2) → b.getD i 0 = b0.getD i 0) →
      ∀ J : Arr2 ℝ, la < J.rows → s.np0 * s.np1 * s.np2 ≤ J.cols →
      ∃ m' J', directions c s I w la rc j ts m J = .ok (m', J') ∧ J'.rows = J.rows ∧ J'.cols = J.cols ∧
        (∀ r k, r ≠ la → J'.get r k = J.get r k) ∧
        ∀ k, k < s.np0 * s.np1 * s.np2 →
          J'.get la k = J.get la k + (ts.map fun t => w t * (I t (probeAt s k) + stale s b0 k)).sum from
    H ts m b0 hm rfl (fun _ _ => rfl) J hr hc
  intro ts
  induction ts with
  | nil => exact fun m b _ _ _ J _ _ => ⟨m, J, rfl, rfl, rfl, fun _ _ _ => rfl, fun _ _ => by simp⟩
  | cons t ts ih =>
    intro m b hb hl hold J hr hc
    have hmem : ∀ k, k ∈ rc t ↔ k < s.np0 * s.np1 * s.np2 := fun k => by rw [(hrc t).mem_iff, List.mem_range]
    obtain ⟨m1, b1, e1, e2, e3, e4, e5⟩ := kernel_ok c s h (I t) (rc t) (fun k hk => (hmem k).1 hk) m b hb hl
    have hold1 : ∀ i, (∀ k, i = s.az * (s.polar * k) → ¬ k < s.np0 * s.np1 * s.np2) → b1.getD i 0 = b0.getD i 0 := by
      intro i hi
      rw [e4 i fun k hk hkm => hi k hk ((hmem k).1 hkm), hold i hi]
    obtain ⟨J1, f1, f2, f3, f4, f5⟩ := merge_sum c s h (w t) la b1 e3 (j t) (hj t) J hr hc
    obtain ⟨m', J', g1, g2, g3, g4, g5⟩ := ih m1 b1 e2 e3 hold1 J1 (by rw [f2]; exact hr) (by rw [f3]; exact hc)
    refine ⟨m', J', ?_, g2.trans f2, g3.trans f3, fun r k hrk => (g4 r k hrk).trans (f4 r k hrk), fun k hk => ?_⟩
    · unfold directions at g1 ⊢
      rw [passesJ, e1, Outcome.ok_bind, readAt_ok e2, Outcome.ok_bind, f1, Outcome.ok_bind]
      exact g1
    · rw [g5 k hk, f5 k hk, samples s h b1 (rc t) k (I t) (fun i hi => hold1 i fun k' hk' hlt => hi k' hk' ((hmem k').2 hlt))
        (e5 k ((hmem k).2 hk)), List.map_cons, List.sum_cons]
      ring

/-- If the buffer holds zeros - which the program does not establish, see `C97_stale_refuted` - J is the weighted sum of
the marches over the directions. -/
theorem C97_zeroed_partial (c : RcCfg3) (s : Casc3) (b0 : List ℝ) (h : Sized s b0) (hz : ∀ x ∈ b0, x = 0) (I : Nat → Coord3 → ℝ)
    (w : Nat → ℝ) (la : Nat) (rc : Nat → List Nat) (j : Nat → List JIter3)
    (hrc : ∀ t, (rc t).Perm (List.range (s.np0 * s.np1 * s.np2)))
    (hj : ∀ t, (j t).Perm (jIters3 (s.np0 * s.np1 * s.np2) s.polar s.az)) (ts : List Nat) (m : Mem ℝ)
    (hm : m.bufs[0]? = some b0) (J : Arr2 ℝ) (hr : la < J.rows) (hc : s.np0 * s.np1 * s.np2 ≤ J.cols) :
    ∃ m' J', directions c s I w la rc j ts m J = .ok (m', J') ∧
      ∀ k, k < s.np0 * s.np1 * s.np2 → J'.get la k = J.get la k + (ts.map fun t => w t * I t (probeAt s k)).sum := by
  obtain ⟨m', J', e1, -, -, -, e5⟩ := C97_sum c s b0 h I w la rc j hrc hj ts m hm J hr hc
  refine ⟨m', J', e1, fun k hk => ?_⟩
  have h0 : ∀ i, b0.getD i 0 = 0 := by
    intro i
    rw [List.getD_eq_getElem?_getD]
    cases hi : b0[i]? with
    | none => rfl
    | some x => exact hz x (List.mem_of_getElem? hi)
  have hs : stale s b0 k = 0 := by
    unfold stale
    refine Finset.sum_eq_zero fun p _ => Finset.sum_eq_zero fun a _ => ?_
    rw [h0]; split <;> rfl
  rw [e5 k hk, hs]
  simp only [add_zero]

/-- So with a buffer of zeros, weights that are not negative and have sum at most 1 (the tables' do up to rounding), and marches
that give something between 0 and `hi`, J starting at zero ends between 0 and `hi`. -/
theorem C97_bounds_partial (c : RcCfg3) (s : Casc3) (b0 : List ℝ) (h : Sized s b0) (hz : ∀ x ∈ b0, x = 0) (I : Nat → Coord3 → ℝ)
    (w : Nat → ℝ) (la : Nat) (rc : Nat → List Nat) (j : Nat → List JIter3)
    (hrc : ∀ t, (rc t).Perm (List.range (s.np0 * s.np1 * s.np2)))
    (hj : ∀ t, (j t).Perm (jIters3 (s.np0 * s.np1 * s.np2) s.polar s.az)) (ts : List Nat) (m : Mem ℝ)
    (hm : m.bufs[0]? = some b0) (J : Arr2 ℝ) (hr : la < J.rows) (hc : s.np0 * s.np1 * s.np2 ≤ J.cols)
    (hw : ∀ t ∈ ts, 0 ≤ w t) (hw1 : (ts.map w).sum ≤ 1) (hi : ℝ) (hhi : 0 ≤ hi)
    (hI : ∀ t ∈ ts, ∀ x, 0 ≤ I t x ∧ I t x ≤ hi) :
    ∃ m' J', directions c s I w la rc j ts m J = .ok (m', J') ∧
      ∀ k, k < s.np0 * s.np1 * s.np2 → J.get la k = 0 → 0 ≤ J'.get la k ∧ J'.get la k ≤ hi := by
  obtain ⟨m', J', e1, e2⟩ := C97_zeroed_partial c s b0 h hz I w la rc j hrc hj ts m hm J hr hc
  refine ⟨m', J', e1, fun k hk h0 => ?_⟩
  rw [e2 k hk, h0, zero_add]
  have key : ∀ l : List Nat, (∀ t ∈ l, t ∈ ts) → 0 ≤ (l.map fun t => w t * I t (probeAt s k)).sum ∧
      (l.map fun t => w t * I t (probeAt s k)).sum ≤ hi * (l.map w).sum := by
    intro l
    induction l with
    | nil => intro _; simp
    | cons t l ih =>
      intro hl
      obtain ⟨i1, i2⟩ := ih fun t' ht' => hl t' (List.mem_cons_of_mem _ ht')
      have h1 := hw t (hl t List.mem_cons_self)
      obtain ⟨h2, h3⟩ := hI t (hl t List.mem_cons_self) (probeAt s k)
      simp only [List.map_cons, List.sum_cons]
      constructor
      · positivity
      · nlinarith [mul_le_mul_of_nonneg_left h3 h1]
  obtain ⟨k1, k2⟩ := key ts fun _ ht => ht
  exact ⟨k1, k2.trans (by nlinarith)⟩

/-- One probe with the default 12 directions. -/
def exCasc : Casc3 := ⟨1, 1, 1, 12, 1⟩

theorem exSized (x : ℝ) : Sized exCasc (List.replicate 12 x) where
  pos := by decide
  count := by decide
  buffer := by simp [exCasc]

/-- Non-vacuity, and the refutation: the memory of the cascade buffers is not initialised (source/CascadeState3d.cpp:34-42), and
a J with a different value results for different contents, for the same medium (here one that emits nothing). -/
theorem C97_stale_refuted (c : RcCfg3) : ∃ (m1 m2 m1' m2' : Mem ℝ) (J J1 J2 : Arr2 ℝ),
    m1.bufs.map List.length = m2.bufs.map List.length ∧
    directions c exCasc (fun _ _ => 0) (fun _ => 1) 0 (fun _ => List.range 1) (fun _ => jIters3 1 1 12) [0] m1 J = .ok (m1', J1) ∧
    directions c exCasc (fun _ _ => 0) (fun _ => 1) 0 (fun _ => List.range 1) (fun _ => jIters3 1 1 12) [0] m2 J = .ok (m2', J2) ∧
    J1.get 0 0 = 0 ∧ J2.get 0 0 = 11 := by
  have J0 : ∃ J : Arr2 ℝ, J.rows = 1 ∧ J.cols = 1 ∧ J.get 0 0 = 0 := ⟨⟨1, 1, fun _ _ => 0⟩, rfl, rfl, rfl⟩
  obtain ⟨J, r1, r2, r3⟩ := J0
  obtain ⟨m1', J1, a1, -, -, -, a5⟩ := C97_sum c exCasc _ (exSized 0) (fun _ _ => 0) (fun _ => 1) 0 (fun _ => List.range 1)
    (fun _ => jIters3 1 1 12) (fun _ => List.Perm.refl _) (fun _ => List.Perm.refl _) [0] ⟨[List.replicate 12 0], none⟩ rfl J
    (by omega) (by rw [r2]; decide)
  obtain ⟨m2', J2, b1, -, -, -, b5⟩ := C97_sum c exCasc _ (exSized 1) (fun _ _ => 0) (fun _ => 1) 0 (fun _ => List.range 1)
    (fun _ => jIters3 1 1 12) (fun _ => List.Perm.refl _) (fun _ => List.Perm.refl _) [0] ⟨[List.replicate 12 1], none⟩ rfl J
    (by omega) (by rw [r2]; decide)
  refine ⟨_, _, m1', m2', J, J1, J2, by simp, a1, b1, ?_, ?_⟩
  · rw [a5 0 (by decide), r3]
    have : stale exCasc (List.replicate 12 (0 : ℝ)) 0 = 0 := by
      unfold stale
      refine Finset.sum_eq_zero fun p _ => Finset.sum_eq_zero fun a _ => ?_
      split
      · rfl
      · rw [List.getD_eq_getElem?_getD, List.getElem?_replicate]; split <;> rfl
    rw [this]; simp
  · rw [b5 0 (by decide), r3]
    simp [stale, exCasc, Finset.sum_range_succ]
    norm_num

/-- The mode returns before the lookup of the multi-resolution map is filled: if its entries are zero, as those of zeroed memory,
then whatever the file holds, every march of every direction from every probe gives nothing at all. -/
theorem C97_unmarked_refuted {s : Settings} {k nx ny nz nw : Nat} {eta chi : Coord3 → Int → ℝ} {scale : ℝ} {g : Given}
    (hf : Fits s k nx ny nz) (hg : Good s k nx ny nz nw eta chi scale g) (lk : MLLookup Coord3)
    (hl : ∀ t : Coord3, 0 ≤ t.x → t.x < nx → 0 ≤ t.y → t.y < ny → 0 ≤ t.z → t.z < nz → lk.get s.E (lk.flat3 t) = .ok 0)
    (junk : ℝ) (junkLevel : ℤ) (emis opac : Int → ℝ) (dist : ℝ) (d : Fin 3 → ℝ) (x : Coord3) (fuel : ℕ) (r : ℝ × ℝ)
    (hr : staticMarch (lcArgs s g lk junk junkLevel emis opac dist d x) fuel = some r) : r = (0, 0) := by
  have hE : 1 < 2 ^ s.E := Nat.one_lt_two_pow (by have := hf.entry; omega)
  refine march_empty _ ?_ le_rfl fuel r hr
  refine readLevel_empty hf hg lk ⟨fun t ht => ?_, fun t ht => ⟨le_rfl, ?_⟩, fun t ht h0 => trivial⟩ junkLevel
  · obtain ⟨q1, q2, q3, q4, q5, q6⟩ := grid_iff _ |>.1 ht
    exact hl t q1 q2 q3 q4 q5 q6
  · show (-1 : Int) < ((2 ^ s.E - 1 : Nat) : Int)
    have : 0 < 2 ^ s.E - 1 := by omega
    have : (0 : Int) < ((2 ^ s.E - 1 : Nat) : Int) := by exact_mod_cast this
    omega

/-- Non-vacuity: such a lookup exists for every file that loads. -/
example {s : Settings} {k nx ny nz nw : Nat} {eta chi : Coord3 → Int → ℝ} {scale : ℝ} {g : Given}
    (hg : Good s k nx ny nz nw eta chi scale g) : ∃ lk : MLLookup Coord3,
    ∀ t : Coord3, 0 ≤ t.x → t.x < nx → 0 ≤ t.y → t.y < ny → 0 ≤ t.z → t.z < nz → lk.get s.E (lk.flat3 t) = .ok 0 := by
  refine ⟨g.lk.pack s.E (List.replicate (nx * ny * nz) 0), fun t q1 q2 q3 q4 q5 q6 => ?_⟩
  obtain ⟨r1, r2⟩ := hg.range t q1 q2 q3 q4 q5 q6
  have := hg.pack (List.replicate (nx * ny * nz) 0) (by simp) t q1 q2 q3 q4 q5 q6 0 (by
    rw [List.getElem?_replicate, if_pos (by
      have : ((g.lk.flat3 t).toNat : Int) < ((nx * ny * nz : Nat) : Int) := by push_cast; omega
      exact_mod_cast this)])
  rw [show (g.lk.pack s.E (List.replicate (nx * ny * nz) 0)).flat3 t = g.lk.flat3 t from rfl, this]
  simp

/-- If the lookup were filled as the other mode fills it, and the arrays copied: the march of a direction from a probe (any
direction with components of size at most 1, any length up to 1e24) ends, is the march along the path to the centre of the probe
(C78), and gives a radiance between 0 and the largest source function `hi` of the grid. -/
theorem C97_marked {s : Settings} {k nx ny nz nw : Nat} {eta chi : Coord3 → Int → ℝ} {scale : ℝ} {g : Given}
    (hf : Fits s k nx ny nz) (hg : Good s k nx ny nz nw eta chi scale g) (lk : MLLookup Coord3) (junk : ℝ) (junkLevel : ℤ)
    (emis opac : Int → ℝ) (la : Nat)
    (he : StoredAt3 (2 ^ k) nx ny nz (fun _ => True) (mrOf s g lk) 0 emis (fun c => eta c la))
    (hc : StoredAt3 (2 ^ k) nx ny nz (fun _ => True) (mrOf s g lk) 0 opac (fun c => chi c la))
    (hl : LevelsFor (GridTile3 (2 ^ k) (nx * (2 ^ k : Nat)) (ny * (2 ^ k : Nat)) (nz * (2 ^ k : Nat))) (fun _ => True) (mrOf s g lk) (fun _ => 0))
    (dist : ℝ) (hdist : dist ≤ 1e24) (d : Fin 3 → ℝ) (hd : ∀ i, |d i| ≤ 1) (x : Coord3) :
    ∃ N res, (∀ fuel, N ≤ fuel → raymarch (pathTo k nx ny nz (fun c => eta c la) (fun c => chi c la) scale dist d x) fuel = some res ∧
        staticMarch (lcArgs s g lk junk junkLevel emis opac dist d x) fuel = some (res.I, res.tau)) ∧
      ∀ hi : ℝ, 0 ≤ hi → 0 ≤ scale →
        (∀ c, InGrid k nx ny nz c → 0 ≤ chi c la ∧ 0 ≤ eta c la ∧ eta c la ≤ hi * chi c la) → 0 ≤ res.I ∧ res.I ≤ hi := by
  have hB : 1 ≤ (pathTo k nx ny nz (fun c => eta c la) (fun c => chi c la) scale dist d x).env.block := by
    show (1 : ℤ) ≤ ((2 ^ k : Nat) : ℤ)
    exact_mod_cast Nat.one_le_two_pow
  obtain ⟨N, res, hN⟩ := dense_ends (pathTo k nx ny nz (fun c => eta c la) (fun c => chi c la) scale dist d x) hB
    ⟨hd, fun i _ => Or.inl rfl⟩ (file_dense 0) (by show (0 : ℝ) - -dist ≤ _; linarith)
  refine ⟨N, res, fun fuel hfu => ⟨hN fuel hfu, ?_⟩, fun hi hhi hsc hsrc => ?_⟩
  · rw [lc_mem hf hg lk junk junkLevel emis opac _ _ he hc hl, hN fuel hfu]; rfl
  · classical
    have h1 := lc_mem hf hg lk junk junkLevel emis opac _ _ he hc hl dist d x N
    rw [lc_mem hf hg lk junk junkLevel emis opac _ _ (stored_clip he) (stored_clip hc) hl, hN N le_rfl] at h1
    obtain ⟨res', k1, k2⟩ := Option.map_eq_some_iff.1 h1
    have k3 : res'.I = res.I := congrArg Prod.fst k2
    rw [← k3]
    refine raymarch_between _ hsc (lo := 0) (hi := hi) (fun m c => ?_) (fun b => startI_in _ b ⟨le_rfl, hhi⟩ ⟨le_rfl, hhi⟩) N res' k1
    show 0 ≤ (if InGrid k nx ny nz ⟨c 0, c 1, c 2⟩ then chi ⟨c 0, c 1, c 2⟩ la else 0) ∧ _ ≤ (if InGrid k nx ny nz ⟨c 0, c 1, c 2⟩ then eta ⟨c 0, c 1, c 2⟩ la else 0) ∧
      (if InGrid k nx ny nz ⟨c 0, c 1, c 2⟩ then eta ⟨c 0, c 1, c 2⟩ la else 0) ≤ hi * ((if InGrid k nx ny nz ⟨c 0, c 1, c 2⟩ then chi ⟨c 0, c 1, c 2⟩ la else 0) + 1e-15)
    have h15 : 0 ≤ hi * 1e-15 := by positivity
    by_cases hh : InGrid k nx ny nz ⟨c 0, c 1, c 2⟩
    · rw [if_pos hh, if_pos hh]
      obtain ⟨e0, e1, e2⟩ := hsrc _ hh
      refine ⟨e0, by rw [zero_mul]; exact e1, ?_⟩
      rw [mul_add]; linarith
    · rw [if_neg hh, if_neg hh]
      refine ⟨le_rfl, by rw [zero_mul], ?_⟩
      rw [mul_add]; linarith

/-- Non-vacuity: the hypotheses are met by what the copies (source/StaticFormalSolution3d.cpp:232-242) and the packing of the lookup
(source/Mipmaps3d.cpp:172-182) produce, for every grid, every wavelength and every order of the kernels. -/
example {s : Settings} {k nx ny nz nw : Nat} {eta chi : Coord3 → Int → ℝ} {scale : ℝ} {g : Given}
    (hf : Fits s k nx ny nz) (hg : Good s k nx ny nz nw eta chi scale g) (la : Nat) (hla : la < nw)
    (o : WaveOrder) (ho : Orders s k nx ny nz o) : ∃ lk emis opac, packTiles s g o.tiles = .ok lk ∧
    copyWave s g g.eta la o.copy o.oldEmis = .ok emis ∧ copyWave s g g.chi la o.copy o.oldOpac = .ok opac ∧
    StoredAt3 (2 ^ k) nx ny nz (fun _ => True) (mrOf s g lk) 0 emis (fun c => eta c la) ∧
    StoredAt3 (2 ^ k) nx ny nz (fun _ => True) (mrOf s g lk) 0 opac (fun c => chi c la) ∧
    LevelsFor (GridTile3 (2 ^ k) (nx * (2 ^ k : Nat)) (ny * (2 ^ k : Nat)) (nz * (2 ^ k : Nat))) (fun _ => True) (mrOf s g lk) (fun _ => 0) := by
  obtain ⟨lk, l1, l2⟩ := pack_ok hf hg o.tiles ho.tiles
  obtain ⟨emis, e1, e2⟩ := copy_ok hf hg g.eta la hla o.copy ho.copy o.oldEmis lk
  obtain ⟨opac, c1, c2⟩ := copy_ok hf hg g.chi la hla o.copy ho.copy o.oldOpac lk
  rw [hg.emis] at e2
  rw [hg.opac] at c2
  exact ⟨lk, emis, opac, l1, e1, c1, e2, c2, l2⟩

/-- and a file that loads exists -/
example (eta chi : Coord3 → Int → ℝ) (nw : Nat) : ∃ g, Good exSettings 3 4 4 4 nw eta chi 1 g := by
  obtain ⟨g, -, hg⟩ := init_ok exFits (exHolds eta chi nw)
  exact ⟨g, hg⟩

end DexRT.LongChar
