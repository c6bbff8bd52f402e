import Verif.Lemmas.SparseIter
/-!
C36: dense fields to sparse storage and back.
Vocabulary: `Verif/Spec/Grid.lean`, `Verif/Spec/Sparse.lean`.
-/
namespace DexRT

section
variable {V : Type}

/-! ## 2D -/

/-- C36 (2D), sparsify: in every order of the parallel kernel and whatever the new array held, each
cell with data ends at the address the index generator reports for it; nothing is read or written
outside the arrays. -/
theorem C36_sparsify2 (k nx nz : Nat) (Active : Coord2 → Prop) (bm : BlockMap Coord2)
    (hx : FitsI32Axis k nx) (hz : FitsI32Axis k nz) (hm : MapFor2 (2 ^ k) nx nz Active bm)
    (src : Coord2 → V) (sched : List (Nat × Int)) (hs : sched.Perm (loopIters (2 ^ k * 2 ^ k) bm))
    (junk : Int → V) :
    ∃ s, sparsifyField2 (2 ^ k) bm { x := nx * (2 ^ k : Nat), z := nz * (2 ^ k : Nat) } src sched junk = .ok s ∧
      ∀ c, HasData2 (2 ^ k) nx nz Active c → ∀ a, Addr2 (2 ^ k) bm c a → s a = src c :=
  gather_spec (iterSpace2 k nx nz Active bm hx hz hm) _
    (fun c hc => (inGrid2_inDims (2 ^ k) nx nz c).2 (hasData2_inGrid _ nx nz Active c hc)) src sched hs junk

variable [Zero V]

/-- C36 (2D), rehydrate: the device, host and single-field variants all return, for each page, the stored
value on every cell with data and 0 on every other cell of the grid. -/
theorem C36_rehydrate2 (k nx nz : Nat) (Active : Coord2 → Prop) (bm : BlockMap Coord2)
    (hx : FitsI32Axis k nx) (hz : FitsI32Axis k nz) (hm : MapFor2 (2 ^ k) nx nz Active bm)
    (q : Pages V) (hq : q.cells = numActiveCells (((2 ^ k : Nat) : Int) * ((2 ^ k : Nat) : Int)) bm)
    (sched : Nat → List (Nat × Int)) (hs : ∀ n, (sched n).Perm (loopIters (2 ^ k * 2 ^ k) bm))
    (junk : Nat × Coord2 → V) :
    let Good : (Int → V) → (Coord2 → V) → Prop :=
      Rehydrated (InGrid2 (2 ^ k) nx nz) (HasData2 (2 ^ k) nx nz Active) (Addr2 (2 ^ k) bm)
    (∃ r, rehydrate2Device (2 ^ k) bm q sched junk = .ok r ∧
      ∀ n < q.pages, Good (q.val n) (fun c => r (n, c))) ∧
    (∃ r, rehydrate2Host (2 ^ k) bm q sched junk = .ok r ∧
      ∀ n < q.pages, Good (q.val n) (fun c => r (n, c))) ∧
    (∀ n, ∃ r, rehydrate2Field (2 ^ k) bm q.cells (q.val n) (sched 0) = .ok r ∧ Good (q.val n) r) := by
  intro Good
  classical
  have key : ∀ (page : Nat → Outcome (Coord2 → V)),
      (∀ n < q.pages, ∃ s, page n = .ok s ∧ Good (q.val n) s) →
      ∃ r, (List.range q.pages).foldlM (fun res n => do
        let p ← page n
        .ok (copyPage2 (bm.dims.x * ((2 ^ k : Nat) : Int)) (bm.dims.z * ((2 ^ k : Nat) : Int)) p res n)) junk
          = Outcome.ok r ∧ ∀ n < q.pages, Good (q.val n) (fun c => r (n, c)) := by
    intro page hp
    have : ∀ n, ∃ s, n < q.pages → page n = .ok s ∧ Good (q.val n) s := by
      intro n
      by_cases hn : n < q.pages
      · obtain ⟨s, h⟩ := hp n hn; exact ⟨s, fun _ => h⟩
      · exact ⟨fun _ => 0, fun h => absurd h hn⟩
    choose pg hpg using this
    obtain ⟨r, e, h1, _⟩ := foldlM_pages page (InGrid2 (2 ^ k) nx nz)
      (fun p res n => copyPage2 (bm.dims.x * ((2 ^ k : Nat) : Int)) (bm.dims.z * ((2 ^ k : Nat) : Int)) p res n)
      (fun p res n n' c => by rw [copyPage2_spec, hm.dims]; exact if_congr Iff.rfl rfl rfl) q.pages pg (fun n hn => (hpg n hn).1) junk
    refine ⟨r, e, fun n hn => ⟨?_, ?_⟩⟩
    · intro c hc a ha
      simp only [h1 n c hn (hasData2_inGrid _ _ _ _ c hc)]
      exact (hpg n hn).2.data c hc a ha
    · intro c hg hc
      simp only [h1 n c hn hg]
      exact (hpg n hn).2.hole c hg hc
  refine ⟨key _ fun n hn => rehydratePage2_spec k nx nz Active bm hx hz hm q hq n hn _ (hs n),
    key _ fun n hn => rehydratePage2_spec k nx nz Active bm hx hz hm
      { pages := 1, cells := q.cells, val := fun _ ks => q.val n ks } hq 0 (by show 0 < 1; omega) _ (hs n), ?_⟩
  intro n
  exact rehydratePage2_spec k nx nz Active bm hx hz hm
    { pages := 1, cells := q.cells, val := fun _ ks => q.val n ks } hq 0 (by show 0 < 1; omega) _ (hs 0)

/-- C36 (2D), dense to sparse to dense: the original value on every cell with data, 0 elsewhere. -/
theorem C36_roundtrip_dense2 (k nx nz : Nat) (Active : Coord2 → Prop) (bm : BlockMap Coord2)
    (hx : FitsI32Axis k nx) (hz : FitsI32Axis k nz) (hm : MapFor2 (2 ^ k) nx nz Active bm)
    (src : Coord2 → V) (sched sched' : List (Nat × Int))
    (hs : sched.Perm (loopIters (2 ^ k * 2 ^ k) bm)) (hs' : sched'.Perm (loopIters (2 ^ k * 2 ^ k) bm))
    (junk : Int → V) :
    ∃ r, (do
      let s ← sparsifyField2 (2 ^ k) bm { x := nx * (2 ^ k : Nat), z := nz * (2 ^ k : Nat) } src sched junk
      rehydrate2Field (2 ^ k) bm (numActiveCells (((2 ^ k : Nat) : Int) * ((2 ^ k : Nat) : Int)) bm) s sched') = .ok r ∧
      (∀ c, HasData2 (2 ^ k) nx nz Active c → r c = src c) ∧
      (∀ c, InGrid2 (2 ^ k) nx nz c → ¬ HasData2 (2 ^ k) nx nz Active c → r c = 0) := by
  obtain ⟨s, e, h⟩ := C36_sparsify2 k nx nz Active bm hx hz hm src sched hs junk
  obtain ⟨_, _, h3⟩ := C36_rehydrate2 k nx nz Active bm hx hz hm
    { pages := 1, cells := numActiveCells (((2 ^ k : Nat) : Int) * ((2 ^ k : Nat) : Int)) bm, val := fun _ => s } rfl
    (fun _ => sched') (fun _ => hs') (fun _ => 0)
  obtain ⟨r, e', hr⟩ := h3 0
  refine ⟨r, by rw [e, Outcome.ok_bind]; exact e', ?_, fun c hg hc => hr.hole c hg hc⟩
  intro c hc
  obtain ⟨p, hp, hpc⟩ := (iterSpace2 k nx nz Active bm hx hz hm).ontoC c hc
  obtain ⟨c', e1, _, ha⟩ := (iterSpace2 k nx nz Active bm hx hz hm).co p hp
  have hpc' : loopCoord2 (2 ^ k) bm p.1 p.2 = .ok c := hpc
  rw [hpc'] at e1; injection e1 with e1; subst e1
  rw [hr.data c hc _ ha, ← h c hc _ ha]

/-- C36 (2D), sparse to dense to sparse: every stored value of every page comes back. -/
theorem C36_roundtrip_sparse2 (k nx nz : Nat) (Active : Coord2 → Prop) (bm : BlockMap Coord2)
    (hx : FitsI32Axis k nx) (hz : FitsI32Axis k nz) (hm : MapFor2 (2 ^ k) nx nz Active bm)
    (q : Pages V) (hq : q.cells = numActiveCells (((2 ^ k : Nat) : Int) * ((2 ^ k : Nat) : Int)) bm)
    (sched : Nat → List (Nat × Int)) (hs : ∀ n, (sched n).Perm (loopIters (2 ^ k * 2 ^ k) bm))
    (sched' : List (Nat × Int)) (hs' : sched'.Perm (loopIters (2 ^ k * 2 ^ k) bm))
    (junk : Nat × Coord2 → V) (junk' : Int → V) (n : Nat) (hn : n < q.pages) :
    ∃ s, (do
      let r ← rehydrate2Device (2 ^ k) bm q sched junk
      sparsifyField2 (2 ^ k) bm { x := nx * (2 ^ k : Nat), z := nz * (2 ^ k : Nat) } (fun c => r (n, c)) sched' junk')
        = .ok s ∧
      ∀ a, 0 ≤ a → a < q.cells → s a = q.val n a := by
  obtain ⟨⟨r, e, hr⟩, _⟩ := C36_rehydrate2 k nx nz Active bm hx hz hm q hq sched hs junk
  obtain ⟨s, e', h⟩ := C36_sparsify2 k nx nz Active bm hx hz hm (fun c => r (n, c)) sched' hs' junk'
  refine ⟨s, by rw [e, Outcome.ok_bind]; exact e', ?_⟩
  intro a h0 h1
  obtain ⟨p, hp, hpa⟩ := (iterSpace2 k nx nz Active bm hx hz hm).ontoN a h0 (by rw [← hq]; exact h1)
  obtain ⟨c, _, hd, ha⟩ := (iterSpace2 k nx nz Active bm hx hz hm).co p hp
  rw [hpa] at ha
  rw [h c hd a ha]; exact (hr n hn).data c hd a ha

omit [Zero V] in
/-- C36 (2D), the "active" output map: 1 exactly on the cells with data, 0 on the rest of the grid. -/
theorem C36_active_map (k nx nz : Nat) (Active : Coord2 → Prop) (bm : BlockMap Coord2)
    (hx : FitsI32Axis k nx) (hz : FitsI32Axis k nz) (hm : MapFor2 (2 ^ k) nx nz Active bm)
    (sched : List (Nat × Int)) (hs : sched.Perm (loopIters (2 ^ k * 2 ^ k) bm)) :
    ∃ r, reifyActive (2 ^ k) bm sched = .ok r ∧
      (∀ c, HasData2 (2 ^ k) nx nz Active c → r c = 1) ∧
      (∀ c, ¬ HasData2 (2 ^ k) nx nz Active c → r c = 0) := by
  obtain ⟨s, e, h1, h2⟩ := scatter_spec (iterSpace2 k nx nz Active bm hx hz hm)
    (inDims2 { x := nx * (2 ^ k : Nat), z := nz * (2 ^ k : Nat) })
    (fun c hc => (inGrid2_inDims (2 ^ k) nx nz c).2 (hasData2_inGrid _ nx nz Active c hc))
    (fun _ => .ok (1 : BitVec 8)) (fun _ => 1) (fun _ _ _ => rfl) sched hs (fun _ => 0)
  refine ⟨s, ?_, ?_, h2⟩
  · unfold reifyActive; rw [hm.dims]; exact e
  · intro c hc
    obtain ⟨p, hp, hpc⟩ := (iterSpace2 k nx nz Active bm hx hz hm).ontoC c hc
    obtain ⟨c', e1, _, ha⟩ := (iterSpace2 k nx nz Active bm hx hz hm).co p hp
    have hpc' : loopCoord2 (2 ^ k) bm p.1 p.2 = .ok c := hpc
    rw [hpc'] at e1; injection e1 with e1; subst e1
    exact h1 c hc _ ha

/-! ## 3D -/

omit [Zero V] in
/-- C36 (3D), sparsify. -/
theorem C36_sparsify3 (k nx ny nz : Nat) (Active : Coord3 → Prop) (bm : BlockMap Coord3)
    (hx : FitsI32Axis k nx) (hy : FitsI32Axis k ny) (hz : FitsI32Axis k nz)
    (hm : MapFor3 (2 ^ k) nx ny nz Active bm)
    (src : Coord3 → V) (sched : List (Nat × Int))
    (hs : sched.Perm (loopIters (2 ^ k * 2 ^ k * 2 ^ k) bm)) (junk : Int → V) :
    ∃ s, sparsifyField3 (2 ^ k) bm
        { x := nx * (2 ^ k : Nat), y := ny * (2 ^ k : Nat), z := nz * (2 ^ k : Nat) } src sched junk = .ok s ∧
      ∀ c, HasData3 (2 ^ k) nx ny nz Active c → ∀ a, Addr3 (2 ^ k) bm c a → s a = src c :=
  gather_spec (iterSpace3 k nx ny nz Active bm hx hy hz hm) _
    (fun c hc => (inGrid3_inDims (2 ^ k) nx ny nz c).2 (hasData3_inGrid _ nx ny nz Active c hc))
    src sched hs junk

/-- C36 (3D), rehydrate, host and single-field variants only. Missing: the device variant for
multi-page quantities, which is refuted by `C36_refuted3`. -/
theorem C36_rehydrate3_partial (k nx ny nz : Nat) (Active : Coord3 → Prop) (bm : BlockMap Coord3)
    (hx : FitsI32Axis k nx) (hy : FitsI32Axis k ny) (hz : FitsI32Axis k nz)
    (hm : MapFor3 (2 ^ k) nx ny nz Active bm) (q : Pages V)
    (hq : q.cells = numActiveCells (((2 ^ k : Nat) : Int) * ((2 ^ k : Nat) : Int) * ((2 ^ k : Nat) : Int)) bm)
    (sched : Nat → List (Nat × Int)) (hs : ∀ n, (sched n).Perm (loopIters (2 ^ k * 2 ^ k * 2 ^ k) bm))
    (junk : Nat × Coord3 → V) :
    let Good : (Int → V) → (Coord3 → V) → Prop :=
      Rehydrated (InGrid3 (2 ^ k) nx ny nz) (HasData3 (2 ^ k) nx ny nz Active) (Addr3 (2 ^ k) bm)
    (∃ r, rehydrate3Host (2 ^ k) bm q sched junk = .ok r ∧
      ∀ n < q.pages, Good (q.val n) (fun c => r (n, c))) ∧
    (∀ n, ∃ r, rehydrate3Field (2 ^ k) bm q.cells (q.val n) (sched 0) = .ok r ∧ Good (q.val n) r) := by
  intro Good
  classical
  have hpage : ∀ n, ∃ s, rehydratePage3 (2 ^ k) bm
      { pages := 1, cells := q.cells, val := fun _ ks => q.val n ks } 0 (sched n) = .ok s ∧
      Good (q.val n) s := fun n => rehydratePage3_spec k nx ny nz Active bm hx hy hz hm
      { pages := 1, cells := q.cells, val := fun _ ks => q.val n ks } hq 0 (by show 0 < 1; omega) _ (hs n)
  choose pg hpg using hpage
  obtain ⟨r, e, h1, _⟩ := foldlM_pages (fun n => rehydratePage3 (2 ^ k) bm
      { pages := 1, cells := q.cells, val := fun _ ks => q.val n ks } 0 (sched n)) (InGrid3 (2 ^ k) nx ny nz)
    (fun p res n => copyPage3Host (bm.dims.x * ((2 ^ k : Nat) : Int)) (bm.dims.y * ((2 ^ k : Nat) : Int))
      (bm.dims.z * ((2 ^ k : Nat) : Int)) p res n)
    (fun p res n n' c => by rw [copyPage3_spec, hm.dims]; exact if_congr Iff.rfl rfl rfl) q.pages pg (fun n _ => (hpg n).1) junk
  refine ⟨⟨r, e, fun n hn => ⟨?_, ?_⟩⟩, ?_⟩
  · intro c hc a ha
    simp only [h1 n c hn (hasData3_inGrid _ _ _ _ _ c hc)]
    exact (hpg n).2.data c hc a ha
  · intro c hg hc
    simp only [h1 n c hn hg]
    exact (hpg n).2.hole c hg hc
  · intro n
    exact rehydratePage3_spec k nx ny nz Active bm hx hy hz hm
      { pages := 1, cells := q.cells, val := fun _ ks => q.val n ks } hq 0 (by show 0 < 1; omega) _ (hs 0)

/-- C36 (3D), dense to sparse to dense, one field. -/
theorem C36_roundtrip_dense3 (k nx ny nz : Nat) (Active : Coord3 → Prop) (bm : BlockMap Coord3)
    (hx : FitsI32Axis k nx) (hy : FitsI32Axis k ny) (hz : FitsI32Axis k nz)
    (hm : MapFor3 (2 ^ k) nx ny nz Active bm)
    (src : Coord3 → V) (sched sched' : List (Nat × Int))
    (hs : sched.Perm (loopIters (2 ^ k * 2 ^ k * 2 ^ k) bm))
    (hs' : sched'.Perm (loopIters (2 ^ k * 2 ^ k * 2 ^ k) bm)) (junk : Int → V) :
    ∃ r, (do
      let s ← sparsifyField3 (2 ^ k) bm
        { x := nx * (2 ^ k : Nat), y := ny * (2 ^ k : Nat), z := nz * (2 ^ k : Nat) } src sched junk
      rehydrate3Field (2 ^ k) bm
        (numActiveCells (((2 ^ k : Nat) : Int) * ((2 ^ k : Nat) : Int) * ((2 ^ k : Nat) : Int)) bm) s sched') = .ok r ∧
      (∀ c, HasData3 (2 ^ k) nx ny nz Active c → r c = src c) ∧
      (∀ c, InGrid3 (2 ^ k) nx ny nz c → ¬ HasData3 (2 ^ k) nx ny nz Active c → r c = 0) := by
  obtain ⟨s, e, h⟩ := C36_sparsify3 k nx ny nz Active bm hx hy hz hm src sched hs junk
  obtain ⟨_, h3⟩ := C36_rehydrate3_partial k nx ny nz Active bm hx hy hz hm
    { pages := 1, cells := numActiveCells (((2 ^ k : Nat) : Int) * ((2 ^ k : Nat) : Int) * ((2 ^ k : Nat) : Int)) bm,
      val := fun _ => s } rfl (fun _ => sched') (fun _ => hs') (fun _ => 0)
  obtain ⟨r, e', hr⟩ := h3 0
  refine ⟨r, by rw [e, Outcome.ok_bind]; exact e', ?_, fun c hg hc => hr.hole c hg hc⟩
  intro c hc
  obtain ⟨p, hp, hpc⟩ := (iterSpace3 k nx ny nz Active bm hx hy hz hm).ontoC c hc
  obtain ⟨c', e1, _, ha⟩ := (iterSpace3 k nx ny nz Active bm hx hy hz hm).co p hp
  have hpc' : loopCoord3 (2 ^ k) bm p.1 p.2 = .ok c := hpc
  rw [hpc'] at e1; injection e1 with e1; subst e1
  rw [hr.data c hc _ ha, ← h c hc _ ha]

/-- C36 (3D), sparse to dense to sparse through the host variant: every stored value comes back. -/
theorem C36_roundtrip_sparse3 (k nx ny nz : Nat) (Active : Coord3 → Prop) (bm : BlockMap Coord3)
    (hx : FitsI32Axis k nx) (hy : FitsI32Axis k ny) (hz : FitsI32Axis k nz)
    (hm : MapFor3 (2 ^ k) nx ny nz Active bm) (q : Pages V)
    (hq : q.cells = numActiveCells (((2 ^ k : Nat) : Int) * ((2 ^ k : Nat) : Int) * ((2 ^ k : Nat) : Int)) bm)
    (sched : Nat → List (Nat × Int)) (hs : ∀ n, (sched n).Perm (loopIters (2 ^ k * 2 ^ k * 2 ^ k) bm))
    (sched' : List (Nat × Int)) (hs' : sched'.Perm (loopIters (2 ^ k * 2 ^ k * 2 ^ k) bm))
    (junk : Nat × Coord3 → V) (junk' : Int → V) (n : Nat) (hn : n < q.pages) :
    ∃ s, (do
      let r ← rehydrate3Host (2 ^ k) bm q sched junk
      sparsifyField3 (2 ^ k) bm
        { x := nx * (2 ^ k : Nat), y := ny * (2 ^ k : Nat), z := nz * (2 ^ k : Nat) }
        (fun c => r (n, c)) sched' junk') = .ok s ∧
      ∀ a, 0 ≤ a → a < q.cells → s a = q.val n a := by
  obtain ⟨⟨r, e, hr⟩, _⟩ := C36_rehydrate3_partial k nx ny nz Active bm hx hy hz hm q hq sched hs junk
  obtain ⟨s, e', h⟩ := C36_sparsify3 k nx ny nz Active bm hx hy hz hm (fun c => r (n, c)) sched' hs' junk'
  refine ⟨s, by rw [e, Outcome.ok_bind]; exact e', ?_⟩
  intro a h0 h1
  obtain ⟨p, hp, hpa⟩ := (iterSpace3 k nx ny nz Active bm hx hy hz hm).ontoN a h0 (by rw [← hq]; exact h1)
  obtain ⟨c, _, hd, ha⟩ := (iterSpace3 k nx ny nz Active bm hx hy hz hm).co p hp
  rw [hpa] at ha
  rw [h c hd a ha]; exact (hr n hn).data c hd a ha

/-- C36 refuted for the 3D device variant (multi-page quantities in device memory, e.g. the level
populations): on every non-empty grid the copy loop tests `z` instead of `y` and runs outside the
arrays, in every order of the kernel. -/
theorem C36_refuted3 (k nx ny nz : Nat) (Active : Coord3 → Prop) (bm : BlockMap Coord3)
    (hx : FitsI32Axis k nx) (hy : FitsI32Axis k ny) (hz : FitsI32Axis k nz) (hny : 0 < ny) (hnz : 0 < nz)
    (hm : MapFor3 (2 ^ k) nx ny nz Active bm) (q : Pages V)
    (hq : q.cells = numActiveCells (((2 ^ k : Nat) : Int) * ((2 ^ k : Nat) : Int) * ((2 ^ k : Nat) : Int)) bm)
    (hpages : 0 < q.pages) (sched : Nat → List (Nat × Int))
    (hs : ∀ n, (sched n).Perm (loopIters (2 ^ k * 2 ^ k * 2 ^ k) bm)) (junk : Nat × Coord3 → V) :
    rehydrate3Device (2 ^ k) bm q sched junk = .ub := by
  obtain ⟨P, hP⟩ : ∃ P, q.pages = P + 1 := ⟨q.pages - 1, by omega⟩
  obtain ⟨s, e, _⟩ := rehydratePage3_spec k nx ny nz Active bm hx hy hz hm q hq 0 hpages _ (hs 0)
  have hB : (0 : Int) < ((2 ^ k : Nat) : Int) := by exact_mod_cast Nat.two_pow_pos k
  have hY : (0 : Int) < ny * ((2 ^ k : Nat) : Int) := mul_pos (by exact_mod_cast hny) hB
  have hZ : (0 : Int) < nz * ((2 ^ k : Nat) : Int) := mul_pos (by exact_mod_cast hnz) hB
  have hcopy : copyPage3Device (bm.dims.x * ((2 ^ k : Nat) : Int)) (bm.dims.y * ((2 ^ k : Nat) : Int))
      (bm.dims.z * ((2 ^ k : Nat) : Int)) s junk 0 = .ub := by
    rw [hm.dims]
    unfold copyPage3Device loopTo
    obtain ⟨Z, hZ'⟩ : ∃ Z, ((nz : Int) * ((2 ^ k : Nat) : Int)).toNat = Z + 1 :=
      ⟨((nz : Int) * ((2 ^ k : Nat) : Int)).toNat - 1, by omega⟩
    simp only
    rw [hZ', List.range_succ_eq_map, List.map_cons, List.foldlM_cons]
    have := copyRows3_ub (nx * ((2 ^ k : Nat) : Int)) (ny * ((2 ^ k : Nat) : Int)) s 0 0 hY
      ((ny : Int) * ((2 ^ k : Nat) : Int)).toNat 0 (by omega) junk
    rw [show (Int.ofNat 0) = (0 : Int) from rfl, this]; rfl
  unfold rehydrate3Device
  rw [hP, List.range_succ_eq_map, List.foldlM_cons, e, Outcome.ok_bind, hcopy]; rfl

end

/-! Non-vacuity: real maps satisfy the hypotheses (`MapFor2`/`MapFor3` examples in `Props/IndexGen.lean`);
a concrete sparse map with one hole, a reversed schedule, and the values that come back. -/
example : ((setupSparse2 (F := Int) 2 4 2 (fun _ x => if x < 2 then 0 else 9) 5 false).bind fun bm =>
    (sparsifyField2 2 bm ⟨4, 2⟩ (fun c => 10 * c.z + c.x + 1) (loopIters 4 bm).reverse (fun _ => -7)).bind
      fun s => (rehydrate2Field 2 bm 4 s (loopIters 4 bm)).bind fun r =>
        .ok ((s 0, s 1, s 2, s 3), (r ⟨1, 1⟩, r ⟨0, 1⟩, r ⟨2, 1⟩))) =
    .ok ((1, 2, 11, 12), (12, 11, 0)) := by decide +kernel

end DexRT
