import Verif.Props.RayRun
import Verif.Props.LteRunEx
/-! Non-vacuity of C87: the tool on the 32 by 32 cells of the example of C86, with a result with changed densities, two views. -/
namespace DexRT.RayRun
open DexRT DexRT.AtmosFile DexRT.Emis DexRT.Ray DexRT.LteRun Classical

noncomputable def exTool : Tool :=
  { B := 16, E := 3, k := ⟨1, 1, 1, 1, 1, 1, 1, 1, 1, 1 / 100⟩, phi := fun _ _ => 1, ad := exData, haveH := true, sahaConst := 1, ionE := 1, cutoff := 0,
    bc := fun _ => { muMin := 0, muMax := 1, I := [1, 2, 3] } }

/-- Keeps the tiles with a cell at or below 2. -/
noncomputable def exSparseTool : Tool := { exTool with cutoff := 2 }

/-- Populations and electron densities of the cells. -/
noncomputable def exRes : Result := { levels := 3, pops := fun c i => (c.x + c.z + i : ℝ) + 1, ne := some fun c => c.x + 2, nhTot := none }

/-- The same everywhere, for the sparse output. -/
noncomputable def exRes' : Result := { levels := 3, pops := fun _ i => (i : ℝ) + 1, ne := none, nhTot := some fun _ => 3 }

noncomputable def exCfg : RayCfg :=
  { mux := some [⟨0, false⟩, ⟨1 / 2, false⟩], muz := some [⟨1, false⟩, ⟨-1 / 2, false⟩], wavelength := some [3 / 2, 12], rotate := true, givenFs := false, promweaver := true }

noncomputable def exOut : OutFile :=
  { format := none
    var := fun n => if n = "pops" then some ⟨[3, 32, 32], fun p => (p.getD 2 0 + p.getD 1 0 + p.getD 0 0 : ℝ) + 1⟩
      else if n = "ne" then some ⟨[32, 32], fun p => (p.getD 1 0 : ℝ) + 2⟩ else none }

/-- A sparse output of `n` cells. -/
noncomputable def exSparseOut (n : Nat) : OutFile :=
  { format := some "sparse"
    var := fun s => if s = "pops" then some ⟨[3, n], fun p => (p.getD 0 0 : ℝ) + 1⟩ else if s = "nh_tot" then some ⟨[n], fun _ => 3⟩ else none }

theorem exToolFits : RayFits exTool 4 2 2 where
  block := rfl
  entry := by decide
  even := by decide
  size := by unfold GoodSize2; decide
  axes := by unfold FitsI32Axis; decide

theorem exSparseFits : RayFits exSparseTool 4 2 2 := { exToolFits with }

theorem exToolReady : RayReady exTool where
  wellFormed := exReady.wellFormed
  sorted := by
    show ([1, 2, 3, 4, 5, 6, 7, 8, 9, 10] : List ℝ).Pairwise (· < ·)
    norm_num
  levels := exLevels
  hydrogen := fun _ => by simp [exTool, exData]
  saha := zero_le_one
  tables := fun _ => ⟨by show 2 ≤ ([1, 2, 3] : List ℝ).length; simp, zero_lt_one, le_rfl⟩

theorem exSparseReady : RayReady exSparseTool := { exToolReady with }

theorem exOutput : OutputIs exTool id exFile 4 2 2 exCond exOut exRes := by
  refine ⟨denseLayout 4 2 2, Or.inl ⟨by simp [exOut], rfl⟩, ⟨_, rfl, rfl, ?_⟩, ⟨_, rfl, rfl, ?_⟩, rfl⟩
  · rintro c p ⟨⟨h1, -, h3, -⟩, rfl⟩ i hi
    have e1 : ((c.x.toNat : ℕ) : ℝ) = (c.x : ℝ) := by rw [← Int.cast_natCast, Int.toNat_of_nonneg h1]
    have e2 : ((c.z.toNat : ℕ) : ℝ) = (c.z : ℝ) := by rw [← Int.cast_natCast, Int.toNat_of_nonneg h3]
    show ((c.x.toNat : ℕ) + (c.z.toNat : ℕ) + (i : ℕ) : ℝ) + 1 = (c.x + c.z + i : ℝ) + 1
    rw [e1, e2]
  · rintro c p ⟨⟨h1, -, h3, -⟩, rfl⟩
    have e1 : ((c.x.toNat : ℕ) : ℝ) = (c.x : ℝ) := by rw [← Int.cast_natCast, Int.toNat_of_nonneg h1]
    show ((c.x.toNat : ℕ) : ℝ) + 2 = (c.x : ℝ) + 2
    rw [e1]

/-- every tile of the example has a cold cell -/
theorem exAll (tile : Coord2) : ActiveTile exSparseTool 4 exCond tile := by
  right
  refine ⟨tile.z * (2 ^ 4 : Nat), tile.x * (2 ^ 4 : Nat), le_rfl, by omega, le_rfl, by omega, ?_⟩
  show (1 : ℝ) ≤ 2
  norm_num

theorem getD_get {α : Type} (l : List α) (d : α) (j : Nat) (h : j < l.length) : l.getD j d = l[j] := by
  simp [List.getD, h]

theorem exSched : GoodSched (2 ^ 4 * 2 ^ 4) inDims2 (⟨fun bm => loopIters (2 ^ 4 * 2 ^ 4) bm, fun t => t.zipIdx,
    fun d => .chunk ((loopTo d.z).flatMap fun z => (loopTo d.x).map fun x => { x := x, z := z }), fun n => .chunk (loopTo n)⟩ : Sched Coord2) where
  kernel := fun _ => List.Perm.refl _
  tileWrites := fun _ => List.Perm.refl _
  dense := by
    intro d c
    simp only [Red.iters, List.mem_flatMap, List.mem_map, mem_loopTo, inDims2, decide_eq_true_eq]
    constructor
    · rintro ⟨z, hz, x, hx, rfl⟩; exact ⟨hx.1, hx.2, hz.1, hz.2⟩
    · rintro ⟨h1, h2, h3, h4⟩; exact ⟨c.z, ⟨h3, h4⟩, c.x, ⟨h1, h2⟩, rfl⟩
  flat := by
    intro n i
    simp [Red.iters, mem_loopTo]

noncomputable def exJunk : Atmos Int ℝ := ⟨0, 0, 0, 0, false, fun _ => 7, fun _ => 7, fun _ => 7, fun _ => 7, fun _ => 7, fun _ => 7, fun _ => 7, fun _ => 7, fun _ => 7⟩

/-- Orders of the required form exist. -/
theorem exStarts (t : Tool) (hf : RayFits t 4 2 2) : ∃ o, StartOrders t id exFile 4 o := by
  obtain ⟨bm, s, hl, -⟩ := load_cells (a := exCond) hf exDescribes _ exSched exJunk
  refine ⟨⟨_, exJunk, List.range bm.activeTiles.length, loopIters (2 ^ 4 * 2 ^ 4) bm, loopIters (2 ^ 4 * 2 ^ 4) bm, loopIters (2 ^ 4 * 2 ^ 4) bm, fun _ _ => 5⟩,
    exSched, fun bm' a' h => ?_⟩
  rw [hl] at h
  obtain ⟨rfl, -⟩ := Prod.mk.inj (Outcome.ok.inj h)
  exact ⟨List.Perm.refl _, List.Perm.refl _, List.Perm.refl _, List.Perm.refl _⟩

theorem exView (t : Tool) (hf : RayFits t 4 2 2) (o0 : StartOrder) (h0 : StartOrders t id exFile 4 o0) (n : Nat) : ∃ o, ViewOrders t id exFile 4 o0 n o := by
  obtain ⟨bm, s, hl, -⟩ := load_cells (a := exCond) hf exDescribes _ h0.load o0.junk
  refine ⟨⟨fun _ => loopIters (2 ^ 4 * 2 ^ 4) bm, fun _ => (List.range n).reverse, fun _ _ _ _ => 9, fun _ _ => (1, 1), (⟨3, 3⟩, 4)⟩, fun bm' a' w h => ?_,
    fun w => List.reverse_perm _⟩
  rw [hl] at h
  obtain ⟨rfl, -⟩ := Prod.mk.inj (Outcome.ok.inj h)
  exact List.Perm.refl _

theorem exAsks : AsksViews exCfg [(⟨0, false⟩, ⟨1, false⟩), (⟨1 / 2, false⟩, ⟨-1 / 2, false⟩)] :=
  ⟨_, _, rfl, rfl, rfl, by simp, rfl⟩

theorem exWaves (out : OutFile) : AsksWavelengths exCfg out [3 / 2, 12] := Or.inl ⟨rfl, by simp⟩

/-- The hypotheses of `C87_full` are met, by a dense output. -/
example : ∃ o0 o r h, runRay2 exTool exCfg id exFile exOut o0 (fun _ => ⟨8, 8⟩) o = .ok r ∧ r.wavelength = [3 / 2, 12] ∧ r.planes.length = 2 ∧
    List.Forall₂ (PlaneIs exTool 4 2 2 exCond exRes h true [3 / 2, 12]) [(⟨0, false⟩, ⟨1, false⟩), (⟨1 / 2, false⟩, ⟨-1 / 2, false⟩)] r.planes := by
  obtain ⟨o0, h0⟩ := exStarts exTool exToolFits
  choose o ho using exView exTool exToolFits o0 h0
  obtain ⟨r, h, e1, e2, -, -, e4⟩ := C87_full rfl exToolFits exToolReady exDescribes exOutput exAsks (exWaves exOut) ⟨rfl, rfl⟩
    (by show ([exAtom].map fun x => x.top + 1).sum ≤ 3; simp [exAtom]) (fun hh => absurd hh (by simp [exTool])) (by simp) o0 h0 (fun _ => ⟨8, 8⟩)
    (fun j => o (raysOf true (2 * 2 ^ 4) (2 * 2 ^ 4) ([(⟨0, false⟩, ⟨1, false⟩), (⟨1 / 2, false⟩, ⟨-1 / 2, false⟩)].getD j (⟨0, false⟩, ⟨1, false⟩))))
    (fun j hj => by
      rw [← getD_get _ (⟨0, false⟩, ⟨1, false⟩) j hj]
      exact ho _)
  exact ⟨o0, _, r, h, e1, e2, by rw [← e4.length_eq]; rfl, e4⟩

/-- There are rays, and something is seen: the image planes have more than 32 rays. -/
example : 32 ≤ raysOf true 32 32 (⟨0, false⟩, ⟨1, false⟩) := by
  have h := numRaysRot_eq 32 32 0 1 false (Or.inr one_ne_zero)
  show 32 ≤ numRaysRot 32 32 0 1 false
  rw [h]
  refine Nat.le_of_lt_succ (Nat.lt_succ_of_le ?_)
  have : (32 : ℝ) ≤ 2 * halfW 32 32 (los 0 1) := by unfold halfW los; norm_num
  exact_mod_cast this.trans (Nat.le_ceil _)

/-- The hypotheses of `C87_run_partial` are met with a threshold and a sparse output. -/
example : ∃ n, OutputIs exSparseTool id exFile 4 2 2 exCond (exSparseOut n) exRes' ∧ (∃ p, Kept2 exSparseTool 4 2 2 exCond p) ∧
    ∃ o0 o r h, runRay2 exSparseTool exCfg id exFile (exSparseOut n) o0 (fun _ => ⟨8, 8⟩) o = .ok r ∧
      List.Forall₂ (PlaneIs exSparseTool 4 2 2 exCond exRes' h true [3 / 2, 12]) [(⟨0, false⟩, ⟨1, false⟩), (⟨1 / 2, false⟩, ⟨-1 / 2, false⟩)] r.planes := by
  obtain ⟨bm, s, hl, hm, -⟩ := load_cells (a := exCond) exSparseFits exDescribes _ exSched exJunk
  have hset := load_map exDescribes _ _ _ _ _ hl
  have H := iterSpace2 4 2 2 _ bm exSparseFits.axes.1 exSparseFits.axes.2 hm
  have hout : OutputIs exSparseTool id exFile 4 2 2 exCond (exSparseOut (numActiveCells (((2 ^ 4 : Nat) : Int) * ((2 ^ 4 : Nat) : Int)) bm).toNat) exRes' := by
    refine ⟨sparseLayout exSparseTool id exFile 4 2 2 exCond _, Or.inr ⟨rfl, _, rfl, ?_⟩, ⟨_, rfl, rfl, ?_⟩, rfl, ⟨_, rfl, rfl, fun _ _ _ => rfl⟩⟩
    · rintro c i hk ⟨sc, junk, bm', a', -, hl', hadr⟩
      have hset' := load_map exDescribes _ _ _ _ _ hl'
      rw [hset] at hset'
      rw [← Outcome.ok.inj hset'] at hadr
      obtain ⟨p, hp, hpc⟩ := H.ontoC c ((kept_iff _ _ _ _ _ _).1 hk)
      obtain ⟨c', c1, -, c3⟩ := H.co p hp
      rw [hpc] at c1
      rw [← Outcome.ok.inj c1] at c3
      have hr := H.rng p hp
      rw [← H.fn _ _ _ hadr c3] at hr
      show i.toNat < (numActiveCells (((2 ^ 4 : Nat) : Int) * ((2 ^ 4 : Nat) : Int)) bm).toNat
      omega
    · rintro c p ⟨-, i, -, rfl⟩ l hl
      rfl
  refine ⟨_, hout, ⟨⟨5, 7⟩, ⟨by norm_num, by norm_num, by norm_num, by norm_num⟩, exAll _⟩, ?_⟩
  obtain ⟨o0, h0⟩ := exStarts exSparseTool exSparseFits
  choose o ho using exView exSparseTool exSparseFits o0 h0
  obtain ⟨r, h, e1, -, -, -, e4⟩ := C87_run_partial exSparseFits exSparseReady exDescribes hout exAsks (exWaves _) ⟨rfl, rfl⟩
    (by show ([exAtom].map fun x => x.top + 1).sum ≤ 3; simp [exAtom]) (fun hh => absurd hh (by simp [exSparseTool, exTool]))
    (fun v hv => ⟨by
        simp only [List.mem_cons, List.not_mem_nil, or_false] at hv
        rcases hv with rfl | rfl <;> simp, fun i r s _ => by
      by_cases hin : (rayEnv exSparseTool 4 2 2 exCond).inBounds (startCell r)
      · left
        have hk : Kept2 exSparseTool 4 2 2 exCond ⟨startCell r 0, startCell r 1⟩ := by
          obtain ⟨a1, a2⟩ := hin 0
          obtain ⟨b1, b2⟩ := hin 1
          exact ⟨⟨a1, a2, b1, b2⟩, exAll _⟩
        have : (rayEnv exSparseTool 4 2 2 exCond).lvl (startCell r) = 0 := if_pos hk
        unfold DdaEnv.sampleLevel
        rw [this]
        exact le_rfl
      · exact Or.inr (Or.inl hin)⟩) o0 h0 (fun _ => ⟨8, 8⟩)
    (fun j => o (raysOf true (2 * 2 ^ 4) (2 * 2 ^ 4) ([(⟨0, false⟩, ⟨1, false⟩), (⟨1 / 2, false⟩, ⟨-1 / 2, false⟩)].getD j (⟨0, false⟩, ⟨1, false⟩))))
    (fun j hj => by
      rw [← getD_get _ (⟨0, false⟩, ⟨1, false⟩) j hj]
      exact ho _)
  exact ⟨o0, _, r, h, e1, e4⟩

end DexRT.RayRun
