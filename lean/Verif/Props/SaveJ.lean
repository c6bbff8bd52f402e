import Verif.Lemmas.SaveJ
/-!
# C63: the mean intensity in the output file

Vocabulary: `Verif/Spec/SaveJ.lean`. `SaveCfg.lastSparse` says whether the last formal solution of the run
was restricted to the cells with data.
-/
namespace DexRT

variable {V : Type} [Zero V]

/-- Every tile of the grid has data (2D). -/
def AllActive2 (k nx nz : Nat) (Active : Coord2 → Prop) : Prop :=
  ∀ t, GridTile2 (2 ^ k) (nx * (2 ^ k : Nat)) (nz * (2 ^ k : Nat)) t → Active t

/-- Every tile of the grid has data (3D). -/
def AllActive3 (k nx ny nz : Nat) (Active : Coord3 → Prop) : Prop :=
  ∀ t, GridTile3 (2 ^ k) (nx * (2 ^ k : Nat)) (ny * (2 ^ k : Nat)) (nz * (2 ^ k : Nat)) t → Active t

/-- The cells whose J was computed by the last formal solution. -/
def Solved2 (k nx nz : Nat) (Active : Coord2 → Prop) (sparse : Bool) (c : Coord2) : Prop :=
  if sparse then HasData2 (2 ^ k) nx nz Active c else InGrid2 (2 ^ k) nx nz c

/-- 3D version of `Solved2`. -/
def Solved3 (k nx ny nz : Nat) (Active : Coord3 → Prop) (sparse : Bool) (c : Coord3) : Prop :=
  if sparse then HasData3 (2 ^ k) nx ny nz Active c else InGrid3 (2 ^ k) nx ny nz c

private theorem width2 {k nx nz : Nat} {Active : Coord2 → Prop} {bm : BlockMap Coord2}
    (hm : MapFor2 (2 ^ k) nx nz Active bm) (h : ¬ AllActive2 k nx nz Active) :
    allocCells2 (2 ^ k) bm false ≠ numActiveCells (((2 ^ k : Nat) : Int) * ((2 ^ k : Nat) : Int)) bm := by
  have hB : (0 : Int) < ((2 ^ k : Nat) : Int) := by exact_mod_cast Nat.two_pow_pos k
  unfold AllActive2 at h
  push Not at h
  have := (count_active2 hm).2 h
  unfold allocCells2 numActiveCells
  rw [hm.dims]
  simp only [Bool.false_eq_true, if_false]
  have := mul_lt_mul_of_pos_right this (mul_pos hB hB)
  omega

/-- **C63** (2D), in every run except the one kind below: whatever the options, J is written without
error, and the file shows the J of every solved cell at that cell (and zero on cells not solved).
Missing: a non-LTE run with `sparse_calculation` and `final_dense_fs` in which every tile has data, where the
file is wrong (`C63_refuted2`). -/
theorem C63_file2_partial (k nx nz : Nat) (Active : Coord2 → Prop) (bm : BlockMap Coord2)
    (hx : FitsI32Axis k nx) (hz : FitsI32Axis k nz) (hm : MapFor2 (2 ^ k) nx nz Active bm) (cfg : SaveCfg)
    (hok : ¬ (cfg.nonLte = true ∧ cfg.sparseCalc = true ∧ cfg.finalDense = true ∧ AllActive2 k nx nz Active))
    (I : Nat → Coord2 → V) (q : Pages V) (hJ : HoldsJ2 (2 ^ k) nx nz Active bm cfg.lastSparse I q)
    (sched : Nat → List (Nat × Int)) (hs : ∀ n, (sched n).Perm (loopIters (2 ^ k * 2 ^ k) bm))
    (junk : Nat × Coord2 → V) :
    ∃ f, saveJ2 (2 ^ k) bm cfg (numActiveCells (((2 ^ k : Nat) : Int) * ((2 ^ k : Nat) : Int)) bm) q sched junk = .ok f ∧
      Shows (InGrid2 (2 ^ k) nx nz) (Solved2 k nx nz Active cfg.lastSparse) (HasData2 (2 ^ k) nx nz Active)
        (Addr2 (2 ^ k) bm) I q.pages f := by
  obtain ⟨hcells, hval⟩ := hJ
  by_cases hl : cfg.lastSparse = true
  · rw [hl] at hcells hval
    simp only [if_true] at hval
    have hcells' : q.cells = numActiveCells (((2 ^ k : Nat) : Int) * ((2 ^ k : Nat) : Int)) bm := hcells
    have hsp : cfg.sparseCalc = true := by
      unfold SaveCfg.lastSparse at hl
      split at hl
      · simp at hl
      · exact hl
    obtain ⟨⟨rd, ed, hd⟩, ⟨rh, eh, hh⟩, -⟩ := C36_rehydrate2 k nx nz Active bm hx hz hm q hcells' sched hs junk
    unfold saveJ2
    simp only [hsp, hcells', decide_true, Bool.and_true, if_true]
    by_cases ho : cfg.outSparse = true
    · rw [if_pos ho]
      exact ⟨_, rfl, fun la _ c a hc ha => hval la c a hc ha⟩
    · rw [if_neg ho]
      have fin : ∀ r : Nat × Coord2 → V,
          (∀ n < q.pages, Rehydrated (InGrid2 (2 ^ k) nx nz) (HasData2 (2 ^ k) nx nz Active) (Addr2 (2 ^ k) bm)
            (q.val n) (fun c => r (n, c))) →
          Shows (InGrid2 (2 ^ k) nx nz) (Solved2 k nx nz Active cfg.lastSparse) (HasData2 (2 ^ k) nx nz Active)
            (Addr2 (2 ^ k) bm) I q.pages (.grid r) := by
        intro r hr la hla c
        rw [hl]
        unfold Solved2
        simp only [if_true]
        refine ⟨fun hc => ?_, fun hg hn => (hr la hla).hole c hg hn⟩
        obtain ⟨p, hp, hpc⟩ := (iterSpace2 k nx nz Active bm hx hz hm).ontoC c hc
        obtain ⟨c', e1, _, ha⟩ := (iterSpace2 k nx nz Active bm hx hz hm).co p hp
        have hpc' : loopCoord2 (2 ^ k) bm p.1 p.2 = .ok c := hpc
        rw [hpc'] at e1; injection e1 with e1; subst e1
        have h1 := (hr la hla).data c hc _ ha
        rw [hval la c _ hc ha] at h1
        exact h1
      by_cases hcpu : cfg.storeOnCpu = true
      · rw [if_pos hcpu, eh]; exact ⟨_, rfl, fin rh hh⟩
      · rw [if_neg hcpu, ed]; exact ⟨_, rfl, fin rd hd⟩
  · have hl' : cfg.lastSparse = false := by simpa using hl
    rw [hl'] at hcells hval
    simp only [Bool.false_eq_true, if_false] at hval
    have hsJ : (cfg.sparseCalc && decide (q.cells = numActiveCells (((2 ^ k : Nat) : Int) * ((2 ^ k : Nat) : Int)) bm)) = false := by
      rw [Bool.and_eq_false_iff]
      by_cases hsp : cfg.sparseCalc = true
      · right
        rw [decide_eq_false_iff_not, hcells]
        apply width2 hm
        intro hall
        apply hok
        unfold SaveCfg.lastSparse at hl'
        rw [hsp] at hl'
        revert hl'
        cases cfg.nonLte <;> cases cfg.finalDense <;> simp [hsp, hall]
      · left; simpa using hsp
    unfold saveJ2
    simp only [hsJ, Bool.false_eq_true, if_false]
    unfold reshape2
    rw [hcells]
    unfold allocCells2
    rw [hm.dims]
    simp only [Bool.false_eq_true, if_false]
    rw [if_pos (by ring)]
    refine ⟨_, rfl, fun la _ c => ?_⟩
    rw [hl']
    unfold Solved2
    simp only [Bool.false_eq_true, if_false]
    exact ⟨fun hc => hval la c hc, fun h1 h2 => absurd h1 h2⟩

/-- **C63 refuted** (2D): in a non-LTE run with `sparse_calculation` and `final_dense_fs` (its default) where
every tile has data (for example with the default `threshold_temperature`), on any grid more than one tile
wide and any tile side above 1, if no two cells have the same J then the file does not show the right J:
the dense J of the last solution is taken for a sparse one. -/
theorem C63_refuted2 (k nx nz : Nat) (hk : 0 < k) (hnx : 2 ≤ nx) (hnz : 0 < nz) (Active : Coord2 → Prop)
    (bm : BlockMap Coord2) (hx : FitsI32Axis k nx) (hz : FitsI32Axis k nz) (hm : MapFor2 (2 ^ k) nx nz Active bm)
    (cfg : SaveCfg) (hbad : cfg.nonLte = true ∧ cfg.sparseCalc = true ∧ cfg.finalDense = true)
    (hall : AllActive2 k nx nz Active)
    (I : Nat → Coord2 → V) (hI : ∀ c c', InGrid2 (2 ^ k) nx nz c → InGrid2 (2 ^ k) nx nz c' → I 0 c = I 0 c' → c = c')
    (q : Pages V) (hJ : HoldsJ2 (2 ^ k) nx nz Active bm cfg.lastSparse I q) (hpages : 0 < q.pages)
    (sched : Nat → List (Nat × Int)) (hs : ∀ n, (sched n).Perm (loopIters (2 ^ k * 2 ^ k) bm))
    (junk : Nat × Coord2 → V) :
    ∃ f, saveJ2 (2 ^ k) bm cfg (numActiveCells (((2 ^ k : Nat) : Int) * ((2 ^ k : Nat) : Int)) bm) q sched junk = .ok f ∧
      ¬ Shows (InGrid2 (2 ^ k) nx nz) (Solved2 k nx nz Active cfg.lastSparse) (HasData2 (2 ^ k) nx nz Active)
        (Addr2 (2 ^ k) bm) I q.pages f := by
  obtain ⟨hb1, hb2, hb3⟩ := hbad
  have hl : cfg.lastSparse = false := by unfold SaveCfg.lastSparse; simp [hb1, hb2, hb3]
  rw [hl] at hJ
  obtain ⟨hcells, hval⟩ := hJ
  simp only [Bool.false_eq_true, if_false] at hval
  have hB : (2 : Int) ≤ ((2 ^ k : Nat) : Int) := by
    have : 2 ^ 1 ≤ 2 ^ k := Nat.pow_le_pow_right (by omega) hk
    exact_mod_cast this
  have hna := (count_active2 hm).1 hall
  have hcells' : q.cells = numActiveCells (((2 ^ k : Nat) : Int) * ((2 ^ k : Nat) : Int)) bm := by
    rw [hcells]; unfold allocCells2 numActiveCells; rw [hm.dims, hna]; simp
  generalize hBd : ((2 ^ k : Nat) : Int) = B at *
  have hNXpos : 0 < (nx : Int) * B := mul_pos (by omega) (by omega)
  have hNZ : B ≤ (nz : Int) * B := by nlinarith
  have hNX : 2 * B ≤ (nx : Int) * B := by nlinarith
  -- the two cells and their addresses
  have ht : GridTile2 (2 ^ k) (nx * (2 ^ k : Nat)) (nz * (2 ^ k : Nat)) ⟨0, 0⟩ := by
    unfold GridTile2; rw [hBd]; simp only; omega
  have addr : ∀ z : Int, 0 ≤ z → z < B → ∃ s', (geo2 (2 ^ k)).idx bm (geo2 (2 ^ k)).fresh ⟨0, z⟩ =
      .ok (bm.lookup ⟨0, 0⟩ * (B * B) + z * B, s') := by
    intro z h0 h1
    have hfits : B ≤ i32Max := by
      unfold FitsI32Axis at hz; rw [hBd] at hz; omega
    have := (C06_cache2_partial k nx nz Active bm hx hz hm [] (by simp) _ rfl ⟨0, z⟩
      (by unfold IsI32Coord2; unfold i32Max at hfits; simp only; omega)
      (Or.inl (by unfold InTile2; rw [hBd]; simp only; omega))).addr ⟨0, 0⟩ ht
      (by unfold InTile2; rw [hBd]; simp only; omega) (hall _ ht)
    simpa [hBd] using this
  have hdata : ∀ z : Int, 0 ≤ z → z < B → HasData2 (2 ^ k) nx nz Active ⟨0, z⟩ := fun z h0 h1 =>
    ⟨⟨0, 0⟩, ht, hall _ ht, by unfold InTile2; rw [hBd]; simp only; omega⟩
  obtain ⟨hl0, hl1⟩ := hm.numbering.active ⟨0, 0⟩ ht (hall _ ht)
  generalize bm.lookup ⟨0, 0⟩ = t at *
  have hBB : 0 < B * B := mul_pos (by omega) (by omega)
  have htot : (t + 1) * (B * B) ≤ (nx * B) * (nz * B) := by
    have h1 : t + 1 ≤ (nx : Int) * nz := by rw [← hna]; omega
    have h2 := mul_le_mul_of_nonneg_right h1 hBB.le
    calc (t + 1) * (B * B) ≤ (nx : Int) * nz * (B * B) := h2
      _ = (nx * B) * (nz * B) := by ring
  -- the contradiction from correct values at the two addresses
  have key : ∀ z : Int, 0 ≤ z → z < B → q.val 0 (t * (B * B) + z * B) = I 0 ⟨0, z⟩ →
      t * (B * B) + z * B = z * (nx * B) := by
    intro z h0 h1 hq
    set a := t * (B * B) + z * B with ha
    have ha0 : 0 ≤ a := add_nonneg (mul_nonneg hl0 hBB.le) (mul_nonneg h0 (by omega))
    have ha1 : a < (nx * B) * (nz * B) := by
      have : z * B < B * B := mul_lt_mul_of_pos_right h1 (by omega)
      have e : (t + 1) * (B * B) = t * (B * B) + B * B := by ring
      omega
    have hin : InGrid2 (2 ^ k) nx nz ⟨a % (nx * B), a / (nx * B)⟩ := by
      unfold InGrid2; rw [hBd]
      exact ⟨⟨Int.emod_nonneg _ (by omega), Int.emod_lt_of_pos _ hNXpos⟩, Int.ediv_nonneg ha0 hNXpos.le,
        Int.ediv_lt_of_lt_mul hNXpos (by rw [mul_comm]; exact ha1)⟩
    have hv := hval 0 _ hin
    simp only [hBd] at hv
    rw [mul_comm (a / _), Int.mul_ediv_add_emod, hq] at hv
    have := hI _ _ (by unfold InGrid2; rw [hBd]; simp only; omega) hin hv
    simp only [Coord2.mk.injEq] at this
    have e := Int.mul_ediv_add_emod a (nx * B)
    rw [← this.1, ← this.2] at e
    rw [← e]; ring
  have contra : ¬ (q.val 0 (t * (B * B) + 0 * B) = I 0 ⟨0, 0⟩ ∧ q.val 0 (t * (B * B) + 1 * B) = I 0 ⟨0, 1⟩) := by
    rintro ⟨h0, h1⟩
    have e0 := key 0 (le_refl _) (by omega) h0
    have e1 := key 1 (by omega) (by omega) h1
    omega
  obtain ⟨s0, a0⟩ := addr 0 (le_refl _) (by omega)
  obtain ⟨s1, a1⟩ := addr 1 (by omega) (by omega)
  have d0 := hdata 0 (le_refl _) (by omega)
  have d1 := hdata 1 (by omega) (by omega)
  obtain ⟨⟨rd, ed, hd⟩, ⟨rh, eh, hh⟩, -⟩ := C36_rehydrate2 k nx nz Active bm hx hz hm q (by rw [hBd]; exact hcells') sched hs junk
  unfold saveJ2
  simp only [hb2, hcells', decide_true, Bool.and_true, if_true]
  by_cases ho : cfg.outSparse = true
  · rw [if_pos ho]
    exact ⟨_, rfl, fun hshow => contra ⟨hshow 0 hpages _ _ d0 ⟨s0, a0⟩, hshow 0 hpages _ _ d1 ⟨s1, a1⟩⟩⟩
  · rw [if_neg ho]
    have fin : ∀ r : Nat × Coord2 → V,
        (∀ n < q.pages, Rehydrated (InGrid2 (2 ^ k) nx nz) (HasData2 (2 ^ k) nx nz Active) (Addr2 (2 ^ k) bm)
          (q.val n) (fun c => r (n, c))) →
        ¬ Shows (InGrid2 (2 ^ k) nx nz) (Solved2 k nx nz Active cfg.lastSparse) (HasData2 (2 ^ k) nx nz Active)
          (Addr2 (2 ^ k) bm) I q.pages (.grid r) := by
      intro r hr hshow
      rw [hl] at hshow
      unfold Solved2 at hshow
      simp only [Bool.false_eq_true, if_false] at hshow
      have g0 := (hshow 0 hpages ⟨0, 0⟩).1 (by unfold InGrid2; rw [hBd]; simp only; omega)
      have g1 := (hshow 0 hpages ⟨0, 1⟩).1 (by unfold InGrid2; rw [hBd]; simp only; omega)
      have v0 := (hr 0 hpages).data _ d0 _ ⟨s0, a0⟩
      have v1 := (hr 0 hpages).data _ d1 _ ⟨s1, a1⟩
      exact contra ⟨by rw [← v0, ← g0], by rw [← v1, ← g1]⟩
    by_cases hcpu : cfg.storeOnCpu = true
    · rw [if_pos hcpu, eh]; exact ⟨_, rfl, fin rh hh⟩
    · rw [if_neg hcpu, ed]; exact ⟨_, rfl, fin rd hd⟩

private theorem width3 {k nx ny nz : Nat} {Active : Coord3 → Prop} {bm : BlockMap Coord3}
    (hm : MapFor3 (2 ^ k) nx ny nz Active bm) (h : ¬ AllActive3 k nx ny nz Active) :
    allocCells3 (2 ^ k) bm false ≠
      numActiveCells (((2 ^ k : Nat) : Int) * ((2 ^ k : Nat) : Int) * ((2 ^ k : Nat) : Int)) bm := by
  have hB : (0 : Int) < ((2 ^ k : Nat) : Int) := by exact_mod_cast Nat.two_pow_pos k
  unfold AllActive3 at h
  push Not at h
  have := (count_active3 hm).2 h
  unfold allocCells3 numActiveCells
  rw [hm.dims]
  simp only [Bool.false_eq_true, if_false]
  have := mul_lt_mul_of_pos_right this (mul_pos (mul_pos hB hB) hB)
  omega

/-- **C63** (3D), when the last solution is sparse, or some tile has no data: J is written without error and
the file shows the J of every solved cell at that cell (and zero on cells not solved). A sparse J in device
memory is only covered with sparse output. Missing: dense solutions on grids where every tile has
data (`C63_refuted3`), and a sparse J rehydrated from device memory (`C36_refuted3`). -/
theorem C63_file3_partial (k nx ny nz : Nat) (Active : Coord3 → Prop) (bm : BlockMap Coord3)
    (hx : FitsI32Axis k nx) (hy : FitsI32Axis k ny) (hz : FitsI32Axis k nz)
    (hm : MapFor3 (2 ^ k) nx ny nz Active bm) (cfg : SaveCfg) (atm : Coord3)
    (hatm : atm = ⟨nx * (2 ^ k : Nat), ny * (2 ^ k : Nat), nz * (2 ^ k : Nat)⟩)
    (hok : cfg.lastSparse = true ∨ ¬ AllActive3 k nx ny nz Active)
    (hdev : cfg.lastSparse = true → cfg.outSparse = true ∨ cfg.storeOnCpu = true)
    (I : Nat → Coord3 → V) (q : Pages V) (hJ : HoldsJ3 (2 ^ k) nx ny nz Active bm cfg.lastSparse I q)
    (sched : Nat → List (Nat × Int)) (hs : ∀ n, (sched n).Perm (loopIters (2 ^ k * 2 ^ k * 2 ^ k) bm))
    (junk : Nat × Coord3 → V) :
    ∃ f, saveJ3 (2 ^ k) bm cfg atm
        (numActiveCells (((2 ^ k : Nat) : Int) * ((2 ^ k : Nat) : Int) * ((2 ^ k : Nat) : Int)) bm) q sched junk = .ok f ∧
      Shows (InGrid3 (2 ^ k) nx ny nz) (Solved3 k nx ny nz Active cfg.lastSparse) (HasData3 (2 ^ k) nx ny nz Active)
        (Addr3 (2 ^ k) bm) I q.pages f := by
  obtain ⟨hcells, hval⟩ := hJ
  by_cases hl : cfg.lastSparse = true
  · rw [hl] at hcells hval
    simp only [if_true] at hval
    have hcells' : q.cells =
        numActiveCells (((2 ^ k : Nat) : Int) * ((2 ^ k : Nat) : Int) * ((2 ^ k : Nat) : Int)) bm := hcells
    obtain ⟨⟨rh, eh, hh⟩, -⟩ := C36_rehydrate3_partial k nx ny nz Active bm hx hy hz hm q hcells' sched hs junk
    unfold saveJ3
    simp only [hcells', decide_true, if_true]
    by_cases ho : cfg.outSparse = true
    · rw [if_pos ho]
      exact ⟨_, rfl, fun la _ c a hc ha => hval la c a hc ha⟩
    · have hcpu : cfg.storeOnCpu = true := (hdev hl).resolve_left ho
      rw [if_neg ho, if_pos hcpu, eh]
      refine ⟨_, rfl, fun la hla c => ?_⟩
      rw [hl]
      unfold Solved3
      simp only [if_true]
      refine ⟨fun hc => ?_, fun hg hn => (hh la hla).hole c hg hn⟩
      obtain ⟨p, hp, hpc⟩ := (iterSpace3 k nx ny nz Active bm hx hy hz hm).ontoC c hc
      obtain ⟨c', e1, _, ha⟩ := (iterSpace3 k nx ny nz Active bm hx hy hz hm).co p hp
      have hpc' : loopCoord3 (2 ^ k) bm p.1 p.2 = .ok c := hpc
      rw [hpc'] at e1; injection e1 with e1; subst e1
      have h1 := (hh la hla).data c hc _ ha
      rw [hval la c _ hc ha] at h1
      exact h1
  · have hl' : cfg.lastSparse = false := by simpa using hl
    rw [hl'] at hcells hval
    simp only [Bool.false_eq_true, if_false] at hval
    have hna := hok.resolve_left hl
    have hsJ : decide (q.cells =
        numActiveCells (((2 ^ k : Nat) : Int) * ((2 ^ k : Nat) : Int) * ((2 ^ k : Nat) : Int)) bm) = false := by
      rw [decide_eq_false_iff_not, hcells]
      exact width3 hm hna
    unfold saveJ3
    simp only [hsJ, Bool.false_eq_true, if_false]
    unfold reshape3
    rw [hcells, hatm]
    unfold allocCells3
    rw [hm.dims]
    simp only [Bool.false_eq_true, if_false]
    rw [if_pos (by ring)]
    refine ⟨_, rfl, fun la _ c => ?_⟩
    rw [hl']
    unfold Solved3
    simp only [Bool.false_eq_true, if_false]
    exact ⟨fun hc => hval la c hc, fun h1 h2 => absurd h1 h2⟩

/-- **C63 refuted** (3D): whenever the last solution is dense and every tile has data (the default: no sparse
calculation, no temperature threshold), on any grid more than one tile wide and any tile side above 1,
if no two cells have the same J then the file does not show the right J. -/
theorem C63_refuted3 (k nx ny nz : Nat) (hk : 0 < k) (hnx : 2 ≤ nx) (hny : 0 < ny) (hnz : 0 < nz)
    (Active : Coord3 → Prop) (bm : BlockMap Coord3) (hx : FitsI32Axis k nx) (hy : FitsI32Axis k ny)
    (hz : FitsI32Axis k nz) (hm : MapFor3 (2 ^ k) nx ny nz Active bm) (cfg : SaveCfg) (atm : Coord3)
    (hl : cfg.lastSparse = false) (hdev : cfg.outSparse = true ∨ cfg.storeOnCpu = true)
    (hall : AllActive3 k nx ny nz Active)
    (I : Nat → Coord3 → V)
    (hI : ∀ c c', InGrid3 (2 ^ k) nx ny nz c → InGrid3 (2 ^ k) nx ny nz c' → I 0 c = I 0 c' → c = c')
    (q : Pages V) (hJ : HoldsJ3 (2 ^ k) nx ny nz Active bm cfg.lastSparse I q) (hpages : 0 < q.pages)
    (sched : Nat → List (Nat × Int)) (hs : ∀ n, (sched n).Perm (loopIters (2 ^ k * 2 ^ k * 2 ^ k) bm))
    (junk : Nat × Coord3 → V) :
    ∃ f, saveJ3 (2 ^ k) bm cfg atm
        (numActiveCells (((2 ^ k : Nat) : Int) * ((2 ^ k : Nat) : Int) * ((2 ^ k : Nat) : Int)) bm) q sched junk = .ok f ∧
      ¬ Shows (InGrid3 (2 ^ k) nx ny nz) (Solved3 k nx ny nz Active cfg.lastSparse) (HasData3 (2 ^ k) nx ny nz Active)
        (Addr3 (2 ^ k) bm) I q.pages f := by
  rw [hl] at hJ
  obtain ⟨hcells, hval⟩ := hJ
  simp only [Bool.false_eq_true, if_false] at hval
  have hB : (2 : Int) ≤ ((2 ^ k : Nat) : Int) := by
    have : 2 ^ 1 ≤ 2 ^ k := Nat.pow_le_pow_right (by omega) hk
    exact_mod_cast this
  have hna := (count_active3 hm).1 hall
  have hcells' : q.cells =
      numActiveCells (((2 ^ k : Nat) : Int) * ((2 ^ k : Nat) : Int) * ((2 ^ k : Nat) : Int)) bm := by
    rw [hcells]; unfold allocCells3 numActiveCells; rw [hm.dims, hna]; simp
  generalize hBd : ((2 ^ k : Nat) : Int) = B at *
  have hNXpos : 0 < (nx : Int) * B := mul_pos (by omega) (by omega)
  have hNYpos : 0 < (ny : Int) * B := mul_pos (by omega) (by omega)
  have hNY : B ≤ (ny : Int) * B := by nlinarith
  have hNZ : B ≤ (nz : Int) * B := by nlinarith
  have hNX : 2 * B ≤ (nx : Int) * B := by nlinarith
  have ht : GridTile3 (2 ^ k) (nx * (2 ^ k : Nat)) (ny * (2 ^ k : Nat)) (nz * (2 ^ k : Nat)) ⟨0, 0, 0⟩ := by
    unfold GridTile3; rw [hBd]; simp only; omega
  have addr : ∀ y : Int, 0 ≤ y → y < B → ∃ s', (geo3 (2 ^ k)).idx bm (geo3 (2 ^ k)).fresh ⟨0, y, 0⟩ =
      .ok (bm.lookup ⟨0, 0, 0⟩ * (B * B * B) + y * B, s') := by
    intro y h0 h1
    have hfits : B ≤ i32Max := by
      unfold FitsI32Axis at hy; rw [hBd] at hy; omega
    have := (C06_cache3_partial k nx ny nz Active bm hx hy hz hm [] (by simp) _ rfl ⟨0, y, 0⟩
      (by unfold IsI32Coord3; unfold i32Max at hfits; simp only; omega)
      (Or.inl (by unfold InTile3; rw [hBd]; simp only; omega))).addr ⟨0, 0, 0⟩ ht
      (by unfold InTile3; rw [hBd]; simp only; omega) (hall _ ht)
    simpa [hBd] using this
  have hdata : ∀ y : Int, 0 ≤ y → y < B → HasData3 (2 ^ k) nx ny nz Active ⟨0, y, 0⟩ := fun y h0 h1 =>
    ⟨⟨0, 0, 0⟩, ht, hall _ ht, by unfold InTile3; rw [hBd]; simp only; omega⟩
  obtain ⟨hl0, hl1⟩ := hm.numbering.active ⟨0, 0, 0⟩ ht (hall _ ht)
  generalize bm.lookup ⟨0, 0, 0⟩ = t at *
  have hBB : 0 < B * B * B := mul_pos (mul_pos (by omega) (by omega)) (by omega)
  have htot : (t + 1) * (B * B * B) ≤ ((nx * B) * (ny * B)) * (nz * B) := by
    have h1 : t + 1 ≤ (nx : Int) * ny * nz := by rw [← hna]; omega
    have h2 := mul_le_mul_of_nonneg_right h1 hBB.le
    calc (t + 1) * (B * B * B) ≤ (nx : Int) * ny * nz * (B * B * B) := h2
      _ = ((nx * B) * (ny * B)) * (nz * B) := by ring
  have key : ∀ y : Int, 0 ≤ y → y < B → q.val 0 (t * (B * B * B) + y * B) = I 0 ⟨0, y, 0⟩ →
      t * (B * B * B) + y * B = y * (nx * B) := by
    intro y h0 h1 hq
    set a := t * (B * B * B) + y * B with ha
    have ha0 : 0 ≤ a := add_nonneg (mul_nonneg hl0 hBB.le) (mul_nonneg h0 (by omega))
    have ha1 : a < ((nx * B) * (ny * B)) * (nz * B) := by
      have h2 : y * B < B * B := mul_lt_mul_of_pos_right h1 (by omega)
      have h3 : B * B ≤ B * B * B := by nlinarith [mul_pos (show (0:Int) < B by omega) (show (0:Int) < B by omega)]
      have e : (t + 1) * (B * B * B) = t * (B * B * B) + B * B * B := by ring
      omega
    have hr0 : 0 ≤ a / (nx * B) := Int.ediv_nonneg ha0 hNXpos.le
    have hin : InGrid3 (2 ^ k) nx ny nz ⟨a % (nx * B), a / (nx * B) % (ny * B), a / (nx * B) / (ny * B)⟩ := by
      unfold InGrid3; rw [hBd]
      refine ⟨⟨Int.emod_nonneg _ (by omega), Int.emod_lt_of_pos _ hNXpos⟩,
        ⟨Int.emod_nonneg _ (by omega), Int.emod_lt_of_pos _ hNYpos⟩, Int.ediv_nonneg hr0 hNYpos.le, ?_⟩
      apply Int.ediv_lt_of_lt_mul hNYpos
      apply Int.ediv_lt_of_lt_mul hNXpos
      calc a < ((nx * B) * (ny * B)) * (nz * B) := ha1
        _ = _ := by ring
    have hv := hval 0 _ hin
    simp only [hBd] at hv
    rw [mul_comm (a / _ / _), Int.mul_ediv_add_emod, mul_comm (a / _), Int.mul_ediv_add_emod, hq] at hv
    have := hI _ _ (by unfold InGrid3; rw [hBd]; simp only; omega) hin hv
    simp only [Coord3.mk.injEq] at this
    have e := Int.mul_ediv_add_emod a (nx * B)
    have e2 := Int.mul_ediv_add_emod (a / (nx * B)) (ny * B)
    rw [← this.2.1, ← this.2.2] at e2
    rw [← this.1, ← e2] at e
    rw [← e]; ring
  have contra : ¬ (q.val 0 (t * (B * B * B) + 0 * B) = I 0 ⟨0, 0, 0⟩ ∧
      q.val 0 (t * (B * B * B) + 1 * B) = I 0 ⟨0, 1, 0⟩) := by
    rintro ⟨h0, h1⟩
    have e0 := key 0 (le_refl _) (by omega) h0
    have e1 := key 1 (by omega) (by omega) h1
    omega
  obtain ⟨s0, a0⟩ := addr 0 (le_refl _) (by omega)
  obtain ⟨s1, a1⟩ := addr 1 (by omega) (by omega)
  have d0 := hdata 0 (le_refl _) (by omega)
  have d1 := hdata 1 (by omega) (by omega)
  obtain ⟨⟨rh, eh, hh⟩, -⟩ := C36_rehydrate3_partial k nx ny nz Active bm hx hy hz hm q (by rw [hBd]; exact hcells') sched hs junk
  unfold saveJ3
  simp only [hcells', decide_true, if_true]
  by_cases ho : cfg.outSparse = true
  · rw [if_pos ho]
    exact ⟨_, rfl, fun hshow => contra ⟨hshow 0 hpages _ _ d0 ⟨s0, a0⟩, hshow 0 hpages _ _ d1 ⟨s1, a1⟩⟩⟩
  · have hcpu : cfg.storeOnCpu = true := hdev.resolve_left ho
    rw [if_neg ho, if_pos hcpu, eh]
    refine ⟨_, rfl, fun hshow => ?_⟩
    rw [hl] at hshow
    unfold Solved3 at hshow
    simp only [Bool.false_eq_true, if_false] at hshow
    have g0 := (hshow 0 hpages ⟨0, 0, 0⟩).1 (by unfold InGrid3; rw [hBd]; simp only; omega)
    have g1 := (hshow 0 hpages ⟨0, 1, 0⟩).1 (by unfold InGrid3; rw [hBd]; simp only; omega)
    have v0 := (hh 0 hpages).data _ d0 _ ⟨s0, a0⟩
    have v1 := (hh 0 hpages).data _ d1 _ ⟨s1, a1⟩
    exact contra ⟨by rw [← v0, ← g0], by rw [← v1, ← g1]⟩

/-! Non-vacuity. -/

/-- Every J field is held by some array, in either layout, so the hypotheses above can be met for every J. -/
example (k nx nz : Nat) (Active : Coord2 → Prop) (bm : BlockMap Coord2)
    (hx : FitsI32Axis k nx) (hz : FitsI32Axis k nz) (hm : MapFor2 (2 ^ k) nx nz Active bm) (sparse : Bool)
    (I : Nat → Coord2 → V) (pages : Nat) (hnx : 0 < nx) :
    ∃ q : Pages V, q.pages = pages ∧ HoldsJ2 (2 ^ k) nx nz Active bm sparse I q := by
  have hB : (0 : Int) < ((2 ^ k : Nat) : Int) := by exact_mod_cast Nat.two_pow_pos k
  cases sparse with
  | true =>
    classical
    refine ⟨⟨pages, allocCells2 (2 ^ k) bm true, fun la a =>
      if h : ∃ c, HasData2 (2 ^ k) nx nz Active c ∧ Addr2 (2 ^ k) bm c a then I la h.choose else 0⟩, rfl, rfl, ?_⟩
    simp only [if_true]
    intro la c a hc ha
    have hex : ∃ c, HasData2 (2 ^ k) nx nz Active c ∧ Addr2 (2 ^ k) bm c a := ⟨c, hc, ha⟩
    rw [dif_pos hex]
    obtain ⟨p1, p2⟩ := hex.choose_spec
    congr 1
    obtain ⟨t1, g1, ac1, i1⟩ := p1
    obtain ⟨t2, g2, ac2, i2⟩ := hc
    have hc1 : IsI32Coord2 hex.choose := by
      unfold InTile2 at i1; unfold GridTile2 at g1; unfold FitsI32Axis i32Max at hx hz
      unfold IsI32Coord2
      have h1 : (t1.x + 1) * ((2 ^ k : Nat) : Int) ≤ nx * (2 ^ k : Nat) :=
        mul_le_mul_of_nonneg_right (by have := lt_of_mul_lt_mul_right g1.2.1 hB.le; omega) hB.le
      have h2 : (t1.z + 1) * ((2 ^ k : Nat) : Int) ≤ nz * (2 ^ k : Nat) :=
        mul_le_mul_of_nonneg_right (by have := lt_of_mul_lt_mul_right g1.2.2.2 hB.le; omega) hB.le
      have h3 := mul_nonneg g1.1 hB.le
      have h4 := mul_nonneg g1.2.2.1 hB.le
      omega
    have hc2 : IsI32Coord2 c := by
      unfold InTile2 at i2; unfold GridTile2 at g2; unfold FitsI32Axis i32Max at hx hz
      unfold IsI32Coord2
      have h1 : (t2.x + 1) * ((2 ^ k : Nat) : Int) ≤ nx * (2 ^ k : Nat) :=
        mul_le_mul_of_nonneg_right (by have := lt_of_mul_lt_mul_right g2.2.1 hB.le; omega) hB.le
      have h2 : (t2.z + 1) * ((2 ^ k : Nat) : Int) ≤ nz * (2 ^ k : Nat) :=
        mul_le_mul_of_nonneg_right (by have := lt_of_mul_lt_mul_right g2.2.2.2 hB.le; omega) hB.le
      have h3 := mul_nonneg g2.1 hB.le
      have h4 := mul_nonneg g2.2.2.1 hB.le
      omega
    have hnot : ∀ t c : Coord2, GridTile2 (2 ^ k) (nx * (2 ^ k : Nat)) (nz * (2 ^ k : Nat)) t → InTile2 (2 ^ k) t c →
        ¬ InTile2 (2 ^ k) { x := -1, z := -1 } c := by
      intro t c hg hi hi'
      unfold InTile2 at hi hi'; unfold GridTile2 at hg
      have h3 := mul_nonneg hg.1 hB.le
      simp only at hi'
      omega
    obtain ⟨s1, e1⟩ := (C06_cache2_partial k nx nz Active bm hx hz hm [] (by simp) _ rfl _ hc1
      (Or.inl (hnot _ _ g1 i1))).addr t1 g1 i1 ac1
    obtain ⟨s2, e2⟩ := (C06_cache2_partial k nx nz Active bm hx hz hm [] (by simp) _ rfl _ hc2
      (Or.inl (hnot _ _ g2 i2))).addr t2 g2 i2 ac2
    obtain ⟨s1', p2⟩ := p2
    obtain ⟨s2', ha⟩ := ha
    rw [e1] at p2; rw [e2] at ha
    injection p2 with p2; injection ha with ha
    have p2 := congrArg Prod.fst p2
    have ha := congrArg Prod.fst ha
    simp only at p2 ha
    rw [← p2] at ha
    have hinj := fun w => hm.numbering.injective t2 t1 g2 g1 ac2 ac1 w
    generalize hBd : ((2 ^ k : Nat) : Int) = B at *
    unfold InTile2 at i1 i2
    rw [hBd] at i1 i2
    have q1 : (t1.x + 1) * B = t1.x * B + B := by ring
    have q2 : (t1.z + 1) * B = t1.z * B + B := by ring
    have q3 : (t2.x + 1) * B = t2.x * B + B := by ring
    have q4 : (t2.z + 1) * B = t2.z * B + B := by ring
    have split : ∀ (l l' u u' v v' : Int), 0 ≤ u → u < B → 0 ≤ u' → u' < B → 0 ≤ v → v < B → 0 ≤ v' → v' < B →
        l * (B * B) + (v * B + u) = l' * (B * B) + (v' * B + u') → l = l' ∧ v = v' ∧ u = u' := by
      intro l l' u u' v v' a1 a2 a3 a4 a5 a6 a7 a8 he
      have he' : (l * B + v) * B + u = (l' * B + v') * B + u' := by linarith [he, mul_assoc l B B, mul_assoc l' B B, add_mul (l*B) v B, add_mul (l'*B) v' B]
      have r1 : ((l * B + v) * B + u) / B = l * B + v := by
        rw [add_comm, Int.add_mul_ediv_right _ _ (by omega), Int.ediv_eq_zero_of_lt a1 a2, zero_add]
      have r2 : ((l' * B + v') * B + u') / B = l' * B + v' := by
        rw [add_comm, Int.add_mul_ediv_right _ _ (by omega), Int.ediv_eq_zero_of_lt a3 a4, zero_add]
      rw [he', r2] at r1
      have r3 : (l * B + v) / B = l := by
        rw [add_comm, Int.add_mul_ediv_right _ _ (by omega), Int.ediv_eq_zero_of_lt a5 a6, zero_add]
      have r4 : (l' * B + v') / B = l' := by
        rw [add_comm, Int.add_mul_ediv_right _ _ (by omega), Int.ediv_eq_zero_of_lt a7 a8, zero_add]
      rw [← r1, r4] at r3
      subst r3
      have : v = v' := by omega
      subst this
      exact ⟨rfl, rfl, by omega⟩
    obtain ⟨w1, w2, w3⟩ := split _ _ _ _ _ _ (by omega) (by omega) (by omega) (by omega) (by omega) (by omega)
      (by omega) (by omega) ha
    have htt := hinj w1
    subst htt
    have hx' : hex.choose.x = c.x := by omega
    have hz' : hex.choose.z = c.z := by omega
    calc hex.choose = ⟨hex.choose.x, hex.choose.z⟩ := rfl
      _ = ⟨c.x, c.z⟩ := by rw [hx', hz']
      _ = c := rfl
  | false =>
    refine ⟨⟨pages, allocCells2 (2 ^ k) bm false, fun la a =>
      I la ⟨a % (nx * (2 ^ k : Nat)), a / (nx * (2 ^ k : Nat))⟩⟩, rfl, rfl, ?_⟩
    simp only [Bool.false_eq_true, if_false]
    intro la c hc
    unfold InGrid2 at hc
    have hpos : (0 : Int) < nx * ((2 ^ k : Nat) : Int) := mul_pos (by omega) hB
    rw [show c.z * (nx * ((2 ^ k : Nat) : Int)) + c.x = c.x + c.z * (nx * ((2 ^ k : Nat) : Int)) by ring,
      Int.add_mul_emod_self_right, Int.emod_eq_of_lt hc.1.1 hc.1.2, Int.add_mul_ediv_right _ _ (by omega),
      Int.ediv_eq_zero_of_lt hc.1.1 hc.1.2, zero_add]

/-- The two configurations: with the defaults apart from `sparse_calculation`, the last solution is dense. -/
example : (SaveCfg.mk true true true true false).lastSparse = false ∧
    (SaveCfg.mk true false true true false).lastSparse = false ∧
    (SaveCfg.mk true true false true false).lastSparse = true := by decide

/-- The wrong values on a concrete grid of 2 by 1 tiles of side 2, all with data: J written `0..7` in reading
order comes back scrambled. -/
example : ((setupSparse2 (F := Int) 2 4 2 (fun _ _ => 0) 5 false).bind fun bm =>
    (saveJ2 2 bm ⟨true, true, true, true, false⟩ 8 ⟨1, 8, fun _ a => a⟩ (fun _ => loopIters 4 bm) (fun _ => -7)).bind
      fun f => match f with
        | .grid r => .ok [r (0, ⟨0, 0⟩), r (0, ⟨1, 0⟩), r (0, ⟨2, 0⟩), r (0, ⟨3, 0⟩), r (0, ⟨0, 1⟩), r (0, ⟨1, 1⟩)]
        | .ks _ => .throws) = .ok [0, 1, 4, 5, 2, 3] := by decide +kernel

end DexRT
