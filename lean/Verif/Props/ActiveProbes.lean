import Verif.Lemmas.ActiveProbes
/-!
C20, C21: in a sparse run, are all the probes a merge reads computed?
`bilinearSample` / `trilinearSample` (Model/RcInterp.lean) give the probes and weights a merge reads
(properties C18, C19).
-/
namespace DexRT

/-- A sparse 2D run: a block map of `nx` by `nz` tiles of side `2^k` whose active tiles are `Active`,
cascade 0 with one probe per cell, and for each cascade a thread order of the marking loop. -/
structure SparseRun2 (cfg : RcCfg) (c0 : Casc2) (k nx nz : Nat) (Active : Coord2 → Prop)
    (bm : BlockMap Coord2) (sched : Nat → List Coord2) : Prop where
  fitx : FitsI32Axis k nx
  fitz : FitsI32Axis k nz
  map : MapFor2 (2 ^ k) nx nz Active bm
  np0 : c0.np0 = nx * 2 ^ k
  np1 : c0.np1 = nz * 2 ^ k
  codex : nx * 2 ^ k ≤ 131072
  codez : nz * 2 ^ k ≤ 131072
  order : ∀ n, (sched n).Perm (cells2 (probeDims2 cfg c0 n))

/-- C20 at cascade `n`, in full: every upper probe that contributes to the merge of a listed probe is
listed. -/
def MergeClosed2 (B : Nat) (bm : BlockMap Coord2) (D : Nat → Coord2) (sched : Nat → List Coord2)
    (n : Nat) : Prop :=
  ∃ lower upper, activeList2 B bm D sched n = .ok lower ∧ activeList2 B bm D sched (n + 1) = .ok upper ∧
    ∀ p ∈ lower, ∀ k < 4,
      let s := bilinearSample p.x p.z (D (n + 1)).x (D (n + 1)).z k
      s.2 ≠ 0 → ({ x := s.1.1, z := s.1.2 } : Coord2) ∈ upper

/-- C20: for every thread order the lists are computed without error, name each probe at most once, only
existing probes, and cascade 0 lists exactly the cells of active tiles. -/
theorem C20_lists {cfg : RcCfg} {c0 : Casc2} {k nx nz : Nat} {Active : Coord2 → Prop}
    {bm : BlockMap Coord2} {sched : Nat → List Coord2} (h : SparseRun2 cfg c0 k nx nz Active bm sched)
    (n : Nat) :
    ∃ l, activeList2 (2 ^ k) bm (probeDims2 cfg c0) sched n = .ok l ∧ l.Nodup ∧
      (∀ p ∈ l, inDims2 (probeDims2 cfg c0 n) p = true) ∧
      (n = 0 → ∀ p, p ∈ l ↔ HasData2 (2 ^ k) nx nz Active p) := by
  obtain ⟨l, h1, h2, h3, h4⟩ := list2_spec cfg c0 k nx nz Active bm h.fitx h.fitz h.map h.np0 h.np1
    h.codex h.codez sched h.order n
  refine ⟨l, h1, h2, h4, ?_⟩
  rintro rfl
  exact h3

/-- C20 does not depend on the thread order: any two orders list the same probes. -/
theorem C20_schedule {cfg : RcCfg} {c0 : Casc2} {k nx nz : Nat} {Active : Coord2 → Prop}
    {bm : BlockMap Coord2} {s s' : Nat → List Coord2} (h : SparseRun2 cfg c0 k nx nz Active bm s)
    (h' : SparseRun2 cfg c0 k nx nz Active bm s') (n : Nat) :
    ∃ l l', activeList2 (2 ^ k) bm (probeDims2 cfg c0) s n = .ok l ∧
      activeList2 (2 ^ k) bm (probeDims2 cfg c0) s' n = .ok l' ∧ ∀ p, p ∈ l ↔ p ∈ l' := by
  obtain ⟨l, h1, -, h3, -⟩ := list2_spec cfg c0 k nx nz Active bm h.fitx h.fitz h.map h.np0 h.np1
    h.codex h.codez s h.order n
  obtain ⟨l', h1', -, h3', -⟩ := list2_spec cfg c0 k nx nz Active bm h.fitx h.fitz h.map h.np0 h.np1
    h.codex h.codez s' h'.order n
  exact ⟨l, l', h1, h1', fun p => (h3 p).trans (h3' p).symm⟩

/-- C20 for the cascades whose probes are still finer than a tile (`n + 2 ≤ k`, tiles of side `2^k`):
merge-closed. With the default side 16 this covers merges 0-1, 1-2 and 2-3.
Missing: coarser cascades, see `C20_refuted`. -/
theorem C20_fine_partial {cfg : RcCfg} {c0 : Casc2} {k nx nz : Nat} {Active : Coord2 → Prop}
    {bm : BlockMap Coord2} {sched : Nat → List Coord2} (h : SparseRun2 cfg c0 k nx nz Active bm sched)
    (n : Nat) (hn : n + 2 ≤ k) : MergeClosed2 (2 ^ k) bm (probeDims2 cfg c0) sched n := by
  obtain ⟨l, h1, -, h3, h4⟩ := list2_spec cfg c0 k nx nz Active bm h.fitx h.fitz h.map h.np0 h.np1
    h.codex h.codez sched h.order n
  obtain ⟨u, g1, -, g3, -⟩ := list2_spec cfg c0 k nx nz Active bm h.fitx h.fitz h.map h.np0 h.np1
    h.codex h.codez sched h.order (n + 1)
  refine ⟨l, u, h1, g1, ?_⟩
  intro p hp j _ s hw
  have hd := h4 p hp
  unfold inDims2 at hd; rw [decide_eq_true_eq] at hd
  obtain ⟨nx', nz'⟩ := bilinear_need hw
  rw [g3]
  have hf := (h3 p).1 hp
  have h4w : (4 : Int) ≤ 2 ^ (k - n) := by
    calc (4 : Int) = 2 ^ 2 := by norm_num
      _ ≤ 2 ^ (k - n) := pow_le_pow_right₀ (by norm_num) (by omega)
  have hmark3 : ∀ N : Int, AxisMark N 3 1 := fun N => Or.inl (by decide)
  -- move along x to a probe that marks the needed column
  have hxstep : ∃ x', Flagged2 (HasData2 (2 ^ k) nx nz Active) (probeDims2 cfg c0) n { x := x', z := p.z } ∧
      AxisMark (probeDims2 cfg c0 (n + 1)).x x' s.1.1 := by
    rcases axisNeed_mark hd.1 nx' with hm | ⟨h12, hq, -⟩
    · exact ⟨p.x, hf, hm⟩
    · refine ⟨3, (flagged2_runs nx nz k Active _ n (by omega) p hf).1 (by omega) 3 (by omega) (by omega), ?_⟩
      show AxisMark _ 3 s.1.1
      rw [show s.1.1 = 1 from hq]; exact hmark3 _
  obtain ⟨x', hfx, hmx⟩ := hxstep
  rcases axisNeed_mark hd.2.2.1 nz' with hm | ⟨h12, hq, -⟩
  · exact ⟨_, hfx, hmx, hm⟩
  · refine ⟨_, (flagged2_runs nx nz k Active _ n (by omega) _ hfx).2 (by simp only; omega) 3 (by omega)
      (by omega), hmx, ?_⟩
    show AxisMark _ 3 s.1.2
    rw [show s.1.2 = 1 from hq]; exact hmark3 _

/-- C20 at every cascade, away from the low edges: a needed upper probe is listed unless the lower probe
is in row or column 1 or 2 (and the upper cascade has more than one row or column).
Missing: exactly those rows and columns, see `C20_refuted`. -/
theorem C20_partial {cfg : RcCfg} {c0 : Casc2} {k nx nz : Nat} {Active : Coord2 → Prop}
    {bm : BlockMap Coord2} {sched : Nat → List Coord2} (h : SparseRun2 cfg c0 k nx nz Active bm sched)
    (n : Nat) :
    ∃ lower upper, activeList2 (2 ^ k) bm (probeDims2 cfg c0) sched n = .ok lower ∧
      activeList2 (2 ^ k) bm (probeDims2 cfg c0) sched (n + 1) = .ok upper ∧
      ∀ p ∈ lower, ((probeDims2 cfg c0 (n + 1)).x = 1 ∨ p.x ≠ 1 ∧ p.x ≠ 2) →
        ((probeDims2 cfg c0 (n + 1)).z = 1 ∨ p.z ≠ 1 ∧ p.z ≠ 2) → ∀ k < 4,
        let s := bilinearSample p.x p.z (probeDims2 cfg c0 (n + 1)).x (probeDims2 cfg c0 (n + 1)).z k
        s.2 ≠ 0 → ({ x := s.1.1, z := s.1.2 } : Coord2) ∈ upper := by
  obtain ⟨l, h1, -, h3, h4⟩ := list2_spec cfg c0 k nx nz Active bm h.fitx h.fitz h.map h.np0 h.np1
    h.codex h.codez sched h.order n
  obtain ⟨u, g1, -, g3, -⟩ := list2_spec cfg c0 k nx nz Active bm h.fitx h.fitz h.map h.np0 h.np1
    h.codex h.codez sched h.order (n + 1)
  refine ⟨l, u, h1, g1, ?_⟩
  intro p hp hxe hze j _ s hw
  have hd := h4 p hp
  unfold inDims2 at hd; rw [decide_eq_true_eq] at hd
  obtain ⟨nx', nz'⟩ := bilinear_need hw
  rw [g3]
  refine ⟨p, (h3 p).1 hp, ?_, ?_⟩
  · rcases axisNeed_mark hd.1 nx' with hm | ⟨h12, -, hne⟩
    · exact hm
    · rcases hxe with h | h
      · exact absurd h hne
      · omega
  · rcases axisNeed_mark hd.2.2.1 nz' with hm | ⟨h12, -, hne⟩
    · exact hm
    · rcases hze with h | h
      · exact absurd h hne
      · omega

/-- C20 when every tile is active: every probe of every cascade is listed, so all merges are closed.
Missing: partly active maps. -/
theorem C20_all_active_partial {cfg : RcCfg} {c0 : Casc2} {k nx nz : Nat}
    {bm : BlockMap Coord2} {sched : Nat → List Coord2} (hx : 0 < nx) (hz : 0 < nz)
    (h : SparseRun2 cfg c0 k nx nz (fun _ => True) bm sched) (n : Nat) :
    ∃ l, activeList2 (2 ^ k) bm (probeDims2 cfg c0) sched n = .ok l ∧
      ∀ p, inDims2 (probeDims2 cfg c0 n) p = true → p ∈ l := by
  obtain ⟨l, h1, -, h3, -⟩ := list2_spec cfg c0 k nx nz _ bm h.fitx h.fitz h.map h.np0 h.np1
    h.codex h.codez sched h.order n
  refine ⟨l, h1, fun p hp => (h3 p).2 ?_⟩
  clear h1 h3 l
  induction n generalizing p with
  | zero =>
    have hB : 0 < 2 ^ k := Nat.two_pow_pos k
    have hBi : (0 : Int) < (2 ^ k : Nat) := by exact_mod_cast hB
    unfold inDims2 probeDims2 cascadeSize at hp
    rw [decide_eq_true_eq] at hp
    simp only [Nat.shiftRight_zero, h.np0, h.np1] at hp
    have e1 : max 1 (nx * 2 ^ k) = nx * 2 ^ k := by have := Nat.mul_pos hx hB; omega
    have e2 : max 1 (nz * 2 ^ k) = nz * 2 ^ k := by have := Nat.mul_pos hz hB; omega
    rw [e1, e2, Nat.cast_mul, Nat.cast_mul] at hp
    refine ⟨{ x := p.x / (2 ^ k : Nat), z := p.z / (2 ^ k : Nat) }, ?_, trivial, ?_⟩
    · have a1 := Int.ediv_mul_le p.x (ne_of_gt hBi)
      have a2 := Int.ediv_mul_le p.z (ne_of_gt hBi)
      exact ⟨Int.ediv_nonneg hp.1 hBi.le, by simp only; omega, Int.ediv_nonneg hp.2.2.1 hBi.le,
        by simp only; omega⟩
    · have a1 := (floor_iff (2 ^ k) hB p.x (p.x / (2 ^ k : Nat))).1 rfl
      have a2 := (floor_iff (2 ^ k) hB p.z (p.z / (2 ^ k : Nat))).1 rfl
      exact ⟨a1.1, a1.2, a2.1, a2.2⟩
  | succ n ih =>
    unfold inDims2 at hp
    rw [decide_eq_true_eq] at hp
    have hhx := halves2x cfg c0 n
    have hhz := halves2z cfg c0 n
    have key : ∀ P N q : Int, Halves P N → 0 ≤ q → q < N →
        ∃ r, 0 ≤ r ∧ r < P ∧ AxisMark N r q := by
      intro P N q hh h0 h1
      unfold Halves at hh
      by_cases hq : q = 0
      · exact ⟨0, by omega, by omega, Or.inl (by subst hq; decide)⟩
      · refine ⟨2 * q + 1, by omega, by omega, Or.inl ?_⟩
        rw [markCorner_eq (by omega)]; split <;> omega
    obtain ⟨x, hx0, hx1, hxm⟩ := key _ _ p.x hhx hp.1 hp.2.1
    obtain ⟨z, hz0, hz1, hzm⟩ := key _ _ p.z hhz hp.2.2.1 hp.2.2.2
    exact ⟨{ x := x, z := z }, ih _ (by unfold inDims2; rw [decide_eq_true_eq]; exact ⟨hx0, hx1, hz0, hz1⟩),
      hxm, hzm⟩

/-- C20 is false of the code: 32 by 32 cells in tiles of 16 with only the tile (0,0) active. Probe (2,0) of
cascade 3 is computed and merges with probe (1,0) of cascade 4 with weight 3/4, which is not in the list of
probes to compute. For every thread order. -/
theorem C20_refuted {cfg : RcCfg} {c0 : Casc2} {bm : BlockMap Coord2} {sched : Nat → List Coord2}
    (h : SparseRun2 cfg c0 4 2 2 (fun t => t = { x := 0, z := 0 }) bm sched) :
    ¬ MergeClosed2 (2 ^ 4) bm (probeDims2 cfg c0) sched 3 := by
  rintro ⟨l, u, hl, hu, hclosed⟩
  obtain ⟨l', h1, -, h3, -⟩ := list2_spec cfg c0 4 2 2 _ bm h.fitx h.fitz h.map h.np0 h.np1
    h.codex h.codez sched h.order 3
  obtain ⟨u', g1, -, g3, -⟩ := list2_spec cfg c0 4 2 2 _ bm h.fitx h.fitz h.map h.np0 h.np1
    h.codex h.codez sched h.order 4
  rw [h1] at hl; injection hl with hl; subst hl
  rw [g1] at hu; injection hu with hu; subst hu
  have hdx : ∀ n, (probeDims2 cfg c0 n).x = ((max 1 (32 >>> n) : Nat) : Int) := by
    intro n; unfold probeDims2 cascadeSize; simp only [h.np0]; rfl
  have hdz : ∀ n, (probeDims2 cfg c0 n).z = ((max 1 (32 >>> n) : Nat) : Int) := by
    intro n; unfold probeDims2 cascadeSize; simp only [h.np1]; rfl
  have mk1 : ∀ N p : Int, AxisMark N p (markCorner p) := fun N p => Or.inl rfl
  have mz : ∀ N : Int, AxisMark N 0 0 := fun N => Or.inl (by decide)
  have e1 : markCorner 15 = 7 := by decide
  have e2 : markCorner 8 = 3 := by decide
  have e3 : markCorner 4 = 1 := by decide
  have f0 : Flagged2 (HasData2 (2 ^ 4) 2 2 fun t => t = { x := 0, z := 0 }) (probeDims2 cfg c0) 0
      { x := 15, z := 0 } := by
    refine ⟨{ x := 0, z := 0 }, ?_, rfl, ?_⟩
    · unfold GridTile2; norm_num
    · unfold InTile2; norm_num
  have f1 : Flagged2 (HasData2 (2 ^ 4) 2 2 fun t => t = { x := 0, z := 0 }) (probeDims2 cfg c0) 1
      { x := 8, z := 0 } := ⟨_, f0, Or.inr (by rw [hdx]; simp only [e1]; decide), mz _⟩
  have f2 : Flagged2 (HasData2 (2 ^ 4) 2 2 fun t => t = { x := 0, z := 0 }) (probeDims2 cfg c0) 2
      { x := 4, z := 0 } := ⟨_, f1, Or.inr (by rw [hdx]; simp only [e2]; decide), mz _⟩
  have f3 : Flagged2 (HasData2 (2 ^ 4) 2 2 fun t => t = { x := 0, z := 0 }) (probeDims2 cfg c0) 3
      { x := 2, z := 0 } := ⟨_, f2, Or.inr (by rw [hdx]; simp only [e3]; decide), mz _⟩
  have hx4 : (probeDims2 cfg c0 4).x = 2 := by rw [hdx]; rfl
  have hz4 : (probeDims2 cfg c0 4).z = 2 := by rw [hdz]; rfl
  have hsample : bilinearSample 2 0 (probeDims2 cfg c0 4).x (probeDims2 cfg c0 4).z 1 = ((1, 0), 3 / 4) := by
    rw [hx4, hz4]
    have hc2 : cornerAxis 2 = (0, 1 / 4) := by
      unfold cornerAxis; norm_num; decide
    unfold bilinearSample
    rw [hc2, cornerAxis_zero]
    norm_num [bilinearOffset, bilinearWeight]
  have hneed := hclosed _ ((h3 _).2 f3) 1 (by norm_num)
  simp only [hsample] at hneed
  have h4 := (g3 _).1 (hneed (by norm_num))
  -- probe (1,0) of cascade 4 is not flagged
  have b0 : ∀ l, Flagged2 (HasData2 (2 ^ 4) 2 2 fun t => t = { x := 0, z := 0 }) (probeDims2 cfg c0) 0 l →
      0 ≤ l.x ∧ l.x ≤ 15 := by
    rintro l ⟨t, -, rfl, hi⟩
    unfold InTile2 at hi; norm_num at hi; omega
  have step : ∀ n (m m' : Int), 3 ≤ m → m' = (m - 1) / 2 + 1 →
      (∀ l, Flagged2 (HasData2 (2 ^ 4) 2 2 fun t => t = { x := 0, z := 0 }) (probeDims2 cfg c0) n l →
        0 ≤ l.x ∧ l.x ≤ m) →
      ∀ l, Flagged2 (HasData2 (2 ^ 4) 2 2 fun t => t = { x := 0, z := 0 }) (probeDims2 cfg c0) (n + 1) l →
        0 ≤ l.x ∧ l.x ≤ m' := by
    rintro n m m' hm hm' hprev l ⟨q, hq, hax, -⟩
    have hb := hprev q hq
    unfold AxisMark at hax
    rw [markCorner_eq hb.1] at hax
    split at hax <;> omega
  have b1 := step 0 15 8 (by norm_num) (by norm_num) b0
  have b2 := step 1 8 4 (by norm_num) (by norm_num) b1
  have b3 := step 2 4 2 (by norm_num) (by norm_num) b2
  obtain ⟨q, hq, hax, -⟩ := h4
  have hb := b3 q hq
  unfold AxisMark at hax
  rw [markCorner_eq hb.1] at hax
  simp only at hax
  split at hax <;> omega

/-- C21: in 3D every merge is closed: if a probe is listed for cascade `n`, every probe of cascade `n+1`
read with non-zero weight when merging it is listed, for every set of active tiles and every cascade. -/
theorem C21_closed (br : Branch3) (c0 : Casc3) (k nx ny nz : Nat) (Active : Coord3 → Prop)
    (bm : BlockMap Coord3) (hx : FitsI32Axis k nx) (hy : FitsI32Axis k ny) (hz : FitsI32Axis k nz)
    (hm : MapFor3 (2 ^ k) nx ny nz Active bm)
    (h0 : c0.np0 = nx * 2 ^ k) (h1 : c0.np1 = ny * 2 ^ k) (h2 : c0.np2 = nz * 2 ^ k) (n : Nat) :
    let D := probeDims3 br c0
    ∃ lower upper, activeList3 (2 ^ k) bm D n = .ok lower ∧ activeList3 (2 ^ k) bm D (n + 1) = .ok upper ∧
      lower.Nodup ∧ (n = 0 → ∀ p, p ∈ lower ↔ HasData3 (2 ^ k) nx ny nz Active p) ∧
      (∀ p ∈ lower, inDims3 (D n) p = true) ∧
      ∀ p ∈ lower, ∀ k < 8,
        let s := trilinearSample p.x p.y p.z (D (n + 1)).x (D (n + 1)).y (D (n + 1)).z k
        s.2 ≠ 0 → ({ x := s.1.1, y := s.1.2.1, z := s.1.2.2 } : Coord3) ∈ upper := by
  intro D
  obtain ⟨l, l1, l2, l3⟩ := list3_spec br c0 k nx ny nz Active bm hx hy hz hm h0 h1 h2 n
  obtain ⟨u, u1, u2, u3⟩ := list3_spec br c0 k nx ny nz Active bm hx hy hz hm h0 h1 h2 (n + 1)
  have hin : ∀ p ∈ l, inDims3 (D n) p = true := by
    intro p hp
    have hp := (l3 p).1 hp
    cases n with
    | zero =>
      have := hasData3_dims _ nx ny nz (Nat.two_pow_pos k) Active p hp
      unfold inDims3; rw [decide_eq_true_eq]
      show 0 ≤ p.x ∧ p.x < ((max 1 (c0.np0 >>> 0) : Nat) : Int) ∧ 0 ≤ p.y ∧
        p.y < ((max 1 (c0.np1 >>> 0) : Nat) : Int) ∧ 0 ≤ p.z ∧ p.z < ((max 1 (c0.np2 >>> 0) : Nat) : Int)
      rw [h0, h1, h2]
      simp only [Nat.shiftRight_zero]
      push_cast at this ⊢
      omega
    | succ n => exact hp.1
  refine ⟨l, u, l1, u1, l2, ?_, hin, ?_⟩
  · rintro rfl; exact l3
  intro p hp j _ s hw
  have hd := hin p hp
  unfold inDims3 at hd; rw [decide_eq_true_eq] at hd
  have hhx : Halves (D n).x (D (n + 1)).x := halves_shift c0.np0 n
  have hhy : Halves (D n).y (D (n + 1)).y := halves_shift c0.np1 n
  have hhz : Halves (D n).z (D (n + 1)).z := halves_shift c0.np2 n
  have hcorner : ∀ P N q : Int, Halves P N → 0 ≤ q → q < P → markCorner q ≤ N - 1 := by
    intro P N q hh a b
    rw [markCorner_eq a]; unfold Halves at hh; split <;> omega
  obtain ⟨n1, n2, n3⟩ := trilinear_need (hcorner _ _ _ hhx hd.1 hd.2.1)
    (hcorner _ _ _ hhy hd.2.2.1 hd.2.2.2.1) (hcorner _ _ _ hhz hd.2.2.2.2.1 hd.2.2.2.2.2) hw
  have g1 := axisNeed_gather hhx ⟨hd.1, hd.2.1⟩ n1
  have g2 := axisNeed_gather hhy ⟨hd.2.2.1, hd.2.2.2.1⟩ n2
  have g3 := axisNeed_gather hhz ⟨hd.2.2.2.2.1, hd.2.2.2.2.2⟩ n3
  rw [u3]
  refine ⟨?_, p, (l3 p).1 hp, g1.1, g2.1, g3.1⟩
  unfold inDims3; rw [decide_eq_true_eq]
  exact ⟨g1.2.1, g1.2.2, g2.2.1, g2.2.2, g3.2.1, g3.2.2⟩

/-! ### The hypotheses are met -/

/-- The map of the counterexample exists: it is what the sparse constructor builds for a 32 by 32 field
that is cold (1) in the first 16 by 16 cells and hot (9) elsewhere, cutoff 5. -/
example (cfg : RcCfg) : ∃ bm, setupSparse2 (F := Int) 16 32 32
      (fun z x => if z < 16 ∧ x < 16 then 1 else 9) 5 false = .ok bm ∧
    SparseRun2 cfg { np0 := 32, np1 := 32, dirs := 1, wave := 1, incl := 4 } 4 2 2
      (fun t => t = { x := 0, z := 0 }) bm
      (fun n => cells2 (probeDims2 cfg { np0 := 32, np1 := 32, dirs := 1, wave := 1, incl := 4 } n)) := by
  obtain ⟨bm, h1, h2⟩ := C04_sparse2 (F := Int) 16 2 2 (by unfold GoodSize2 i32Max; norm_num)
    (fun z x => if z < 16 ∧ x < 16 then 1 else 9) 5 false
  refine ⟨bm, h1, ?_⟩
  refine ⟨by unfold FitsI32Axis i32Max; norm_num, by unfold FitsI32Axis i32Max; norm_num, ?_, rfl, rfl,
    by norm_num, by norm_num, fun n => List.Perm.refl _⟩
  obtain ⟨hd, hb, -, hn⟩ := h2
  refine ⟨hd, hb, hn.congr ?_⟩
  intro c hc
  unfold GridTile2 at hc; norm_num at hc
  constructor
  · rintro (h | ⟨z, x, a1, a2, a3, a4, a5⟩)
    · simp at h
    · push_cast at a1 a2 a3 a4
      by_cases hh : z < 16 ∧ x < 16
      · obtain ⟨cx, cz⟩ := c
        simp only at *
        rw [Coord2.mk.injEq]; omega
      · simp only [if_neg hh] at a5; omega
  · rintro rfl
    exact Or.inr ⟨0, 0, by norm_num, by norm_num, by norm_num, by norm_num, by norm_num⟩

/-- C21 applies to the map the 3D sparse constructor builds for any temperature field on 16 by 8 by 24
cells in tiles of 8. -/
example (temp : Int → Int → Int → Int) : ∃ bm, setupSparse3 (F := Int) 8 16 8 24 temp 5 false = .ok bm ∧
    MapFor3 (2 ^ 3) 2 1 3 (HasColdCell3 8 temp 5) bm ∧ FitsI32Axis 3 2 ∧ FitsI32Axis 3 1 ∧
      FitsI32Axis 3 3 := by
  obtain ⟨bm, h1, hd, hb, -, hn⟩ := C04_sparse3 (F := Int) 8 2 1 3 (by unfold GoodSize3 i32Max; norm_num)
    temp 5 false
  refine ⟨bm, h1, ⟨hd, hb, hn.congr ?_⟩, ?_, ?_, ?_⟩
  · intro c _; simp
  all_goals unfold FitsI32Axis i32Max; norm_num

end DexRT
