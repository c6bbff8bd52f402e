import Verif.Props.RayRun3
import Verif.Props.RayRunEx
import Verif.Props.LteRun3Ex
/-! Non-vacuity of C92: the tool on the 32 by 32 by 32 cells of the example of C91, with a result with changed densities, two views. -/
namespace DexRT.RayRun3
open DexRT DexRT.AtmosFile DexRT.Emis DexRT.Ray DexRT.RayRun DexRT.Lte3 Classical

/-- Tiles of side 8, with a threshold or without. -/
noncomputable def exTool3 (cutoff : ℝ) : Tool := { RayRun.exTool with B := 8, cutoff := cutoff }

/-- Populations and hydrogen densities of the cells. -/
noncomputable def exRes3 : Result := { levels := 3, pops := fun _ i => (i : ℝ) + 1, ne := none, nhTot := some fun _ => 3 }

/-- Looking straight down from above the grid, and obliquely from a side. -/
noncomputable def exViews : List View :=
  [⟨⟨⟨0, false⟩, ⟨0, false⟩, ⟨-1, false⟩⟩, ⟨0, 1, 0⟩, ⟨1, 0, 0⟩, ⟨0, 0, 40⟩⟩, ⟨⟨⟨1, false⟩, ⟨2, false⟩, ⟨2, false⟩⟩, ⟨0, 0, 1⟩, ⟨1, 0, 0⟩, ⟨-3, -4, 0⟩⟩]

noncomputable def exCfg3 : RayCfg3 :=
  { view := some (exViews.map View.dir), up := some (exViews.map View.up), right := some (exViews.map View.right), corner := some (exViews.map View.corner),
    imageSize := some [5 / 2, 3], supersample := 2, wavelength := some [3 / 2, 12], givenFs := false, promweaver := true }

/-- A sparse output of `n` cells. -/
noncomputable def exOut3 (n : Nat) : OutFile :=
  { format := none
    var := fun s => if s = "pops" then some ⟨[3, n], fun p => (p.getD 0 0 : ℝ) + 1⟩ else if s = "nh_tot" then some ⟨[n], fun _ => 3⟩ else none }

theorem exFits3 (cutoff : ℝ) : RayFits (exTool3 cutoff) 3 4 4 4 where
  block := rfl
  entry := by show 0 < 3 ∧ 3 ≤ 8; decide
  size := by unfold GoodSize3; decide
  axes := by unfold FitsI32Axis; decide
  pos := by decide

theorem exReady3 (cutoff : ℝ) : RayReady (exTool3 cutoff) := { RayRun.exToolReady with }

theorem exAsks3 : AsksViews exCfg3 exViews 6 5 where
  some' := by simp [exViews]
  view := rfl
  up := rfl
  right := rfl
  corner := ⟨[], by simp [exCfg3]⟩
  size := ⟨5 / 2, 3, rfl, by simp [exCfg3], by norm_num [exCfg3], by norm_num [exCfg3], by norm_num [exCfg3]⟩
  fits := by decide

theorem exWaves3 (out : OutFile) : AsksWavelengths exCfg3 out [3 / 2, 12] := Or.inl ⟨rfl, by simp⟩

theorem exPlain : ∀ v ∈ exViews, PlainDir v.dir := by
  intro v hv
  simp only [exViews, List.mem_cons, List.not_mem_nil, or_false] at hv
  rcases hv with rfl | rfl
  · exact ⟨fun h => by injection h with _ _ h; norm_num at h, rfl, rfl, rfl⟩
  · exact ⟨fun h => by injection h with h _ _; norm_num at h, rfl, rfl, rfl⟩

/-- every tile of the example has a cold cell -/
theorem exAll3 (tile : Coord3) : ActiveTile (exTool3 2) 3 Lte3.exCond tile := by
  right
  refine ⟨tile.z * (2 ^ 3 : Nat), tile.y * (2 ^ 3 : Nat), tile.x * (2 ^ 3 : Nat), le_rfl, by omega, le_rfl, by omega, le_rfl, by omega, ?_⟩
  show (1 : ℝ) ≤ 2
  norm_num

theorem exSched3 : GoodSched (2 ^ 3 * 2 ^ 3 * 2 ^ 3) inDims3 (⟨fun bm => loopIters (2 ^ 3 * 2 ^ 3 * 2 ^ 3) bm, fun t => t.zipIdx,
    fun d => .chunk ((loopTo d.z).flatMap fun z => (loopTo d.y).flatMap fun y => (loopTo d.x).map fun x => { x := x, y := y, z := z }), fun n => .chunk (loopTo n)⟩ : Sched Coord3) where
  kernel := fun _ => List.Perm.refl _
  tileWrites := fun _ => List.Perm.refl _
  dense := by
    intro d c
    simp only [Red.iters, List.mem_flatMap, List.mem_map, mem_loopTo, inDims3, decide_eq_true_eq]
    constructor
    · rintro ⟨z, hz, y, hy, x, hx, rfl⟩; exact ⟨hx.1, hx.2, hy.1, hy.2, hz.1, hz.2⟩
    · rintro ⟨h1, h2, h3, h4, h5, h6⟩; exact ⟨c.z, ⟨h5, h6⟩, c.y, ⟨h3, h4⟩, c.x, ⟨h1, h2⟩, rfl⟩
  flat := by
    intro n i
    simp [Red.iters, mem_loopTo]

/-- Orders of the required form exist. -/
theorem exStarts3 (cutoff : ℝ) : ∃ o, StartOrders (exTool3 cutoff) id Lte3.exFile 3 o := by
  obtain ⟨bm, s, hl, -⟩ := load_cells (a := Lte3.exCond) (exFits3 cutoff) Lte3.exDescribes _ exSched3 RayRun.exJunk
  refine ⟨⟨_, RayRun.exJunk, List.range bm.activeTiles.length⟩, exSched3, fun bm' a' h => ?_⟩
  rw [hl] at h
  obtain ⟨rfl, -⟩ := Prod.mk.inj (Outcome.ok.inj h)
  exact List.Perm.refl _

theorem exView3 (cutoff : ℝ) (o0 : StartOrder) (h0 : StartOrders (exTool3 cutoff) id Lte3.exFile 3 o0) : ∃ o, ViewOrders (exTool3 cutoff) id Lte3.exFile 3 o0 6 5 o := by
  obtain ⟨bm, s, hl, -⟩ := load_cells (a := Lte3.exCond) (exFits3 cutoff) Lte3.exDescribes _ h0.load o0.junk
  refine ⟨⟨fun _ => loopIters (2 ^ 3 * 2 ^ 3 * 2 ^ 3) bm, fun _ => (List.range 6 ×ˢ List.range 5).reverse, fun _ _ _ _ => 9, fun _ => ⟨8, 8⟩, fun _ _ _ => (1, 1), (⟨3, 3⟩, 4)⟩,
    fun bm' a' w h => ?_, fun w => List.reverse_perm _⟩
  rw [hl] at h
  obtain ⟨rfl, -⟩ := Prod.mk.inj (Outcome.ok.inj h)
  exact List.Perm.refl _

/-- There is an output of the required form. -/
theorem exOutput3 (cutoff : ℝ) : ∃ n, OutputIs (exTool3 cutoff) id Lte3.exFile 3 4 4 4 Lte3.exCond (exOut3 n) n exRes3 := by
  obtain ⟨bm, s, hl, hm, -⟩ := load_cells (a := Lte3.exCond) (exFits3 cutoff) Lte3.exDescribes _ exSched3 RayRun.exJunk
  have hset := load_map Lte3.exDescribes _ _ _ _ _ hl
  have H := iterSpace3 3 4 4 4 _ bm (exFits3 cutoff).axes.1 (exFits3 cutoff).axes.2.1 (exFits3 cutoff).axes.2.2 hm
  refine ⟨(numActiveCells (((2 ^ 3 : Nat) : Int) * ((2 ^ 3 : Nat) : Int) * ((2 ^ 3 : Nat) : Int)) bm).toNat, ?_, ⟨_, rfl, rfl, fun l hl c i _ _ => rfl⟩, rfl,
    ⟨_, rfl, rfl, fun _ _ _ _ => rfl⟩⟩
  rintro c i hk ⟨sc, junk, bm', a', -, hl', hadr⟩
  have hset' := load_map Lte3.exDescribes _ _ _ _ _ hl'
  rw [hset] at hset'
  rw [← Outcome.ok.inj hset'] at hadr
  obtain ⟨p, hp, hpc⟩ := H.ontoC c ((kept_iff _ _ _ _ _ _ _).1 hk)
  obtain ⟨c', c1, -, c3⟩ := H.co p hp
  rw [hpc] at c1
  rw [← Outcome.ok.inj c1] at c3
  have hr := H.rng p hp
  rw [← H.fn _ _ _ hadr c3] at hr
  omega

theorem exLev (cutoff : ℝ) : ((exTool3 cutoff).ad.atoms.map fun x => x.top + 1).sum ≤ exRes3.levels := by
  show ([LteRun.exAtom].map fun x => x.top + 1).sum ≤ 3
  simp [LteRun.exAtom]

theorem exGood (v : View) : GoodStarts (exTool3 2) 3 4 4 4 Lte3.exCond 2 v := by
  intro y x r s _
  by_cases hin : (rayEnv (exTool3 2) 3 4 4 4 Lte3.exCond).inBounds (startCell r)
  · left
    have hk : Kept3 (exTool3 2) 3 4 4 4 Lte3.exCond ⟨startCell r 0, startCell r 1, startCell r 2⟩ := by
      obtain ⟨a1, a2⟩ := hin 0
      obtain ⟨b1, b2⟩ := hin 1
      obtain ⟨c1, c2⟩ := hin 2
      exact ⟨⟨a1, a2, b1, b2, c1, c2⟩, exAll3 _⟩
    have : (rayEnv (exTool3 2) 3 4 4 4 Lte3.exCond).lvl (startCell r) = 0 := if_pos hk
    unfold DdaEnv.sampleLevel
    rw [this]
    exact le_rfl
  · exact Or.inr (Or.inl hin)

/-- The hypotheses of `C92_full` are met. -/
example : ∃ n o0 o r h, runRay3 (exTool3 0) exCfg3 id Lte3.exFile (exOut3 n) o0 o = .ok r ∧ r.wavelength = [3 / 2, 12] ∧ r.planes.length = 2 ∧
    List.Forall₂ (ImageIs (exTool3 0) 3 4 4 4 Lte3.exCond exRes3 h 2 6 5 [3 / 2, 12]) exViews r.planes := by
  obtain ⟨n, hn⟩ := exOutput3 0
  obtain ⟨o0, h0⟩ := exStarts3 0
  obtain ⟨o, ho⟩ := exView3 0 o0 h0
  obtain ⟨r, h, e1, e2, -, e4⟩ := C92_full rfl (exFits3 0) (exReady3 0) Lte3.exDescribes hn exAsks3 (exWaves3 _) ⟨rfl, rfl⟩
    (exLev 0) (fun hh => absurd hh (by simp [exTool3, RayRun.exTool])) exPlain o0 h0 (fun _ => o) (fun _ _ => ho)
  exact ⟨n, o0, _, r, h, e1, e2, by rw [← e4.length_eq]; rfl, e4⟩

/-- The hypotheses of `C92_run_partial` are met with a threshold. -/
example : (∃ p, Kept3 (exTool3 2) 3 4 4 4 Lte3.exCond p) ∧ ∃ n o0 o r h, runRay3 (exTool3 2) exCfg3 id Lte3.exFile (exOut3 n) o0 o = .ok r ∧
    List.Forall₂ (ImageIs (exTool3 2) 3 4 4 4 Lte3.exCond exRes3 h 2 6 5 [3 / 2, 12]) exViews r.planes := by
  refine ⟨⟨⟨5, 9, 7⟩, ⟨by norm_num, by norm_num, by norm_num, by norm_num, by norm_num, by norm_num⟩, exAll3 _⟩, ?_⟩
  obtain ⟨n, hn⟩ := exOutput3 2
  obtain ⟨o0, h0⟩ := exStarts3 2
  obtain ⟨o, ho⟩ := exView3 2 o0 h0
  obtain ⟨r, h, e1, -, -, e4⟩ := C92_run_partial (exFits3 2) (exReady3 2) Lte3.exDescribes hn exAsks3 (exWaves3 _) ⟨rfl, rfl⟩
    (exLev 2) (fun hh => absurd hh (by simp [exTool3, RayRun.exTool])) (fun v hv => ⟨exPlain v hv, exGood v⟩) o0 h0 (fun _ => o) (fun _ _ => ho)
  exact ⟨n, o0, _, r, h, e1, e4⟩

/-- The line of sight of the second view is a unit vector that crosses all axes. -/
example : lineOfSight (exViews.getD 1 (exViews.headD ⟨⟨⟨0, false⟩, ⟨0, false⟩, ⟨0, false⟩⟩, ⟨0, 0, 0⟩, ⟨0, 0, 0⟩, ⟨0, 0, 0⟩⟩)).dir = ⟨1 / 3, 2 / 3, 2 / 3⟩ := by
  have h9 : Real.sqrt ((1 : ℝ) ^ 2 + 2 ^ 2 + 2 ^ 2) = 3 := by
    rw [show (1 : ℝ) ^ 2 + 2 ^ 2 + 2 ^ 2 = 3 ^ 2 by norm_num]
    exact Real.sqrt_sq (by norm_num)
  show Boundary.V3.mk (1 / Real.sqrt ((1 : ℝ) ^ 2 + 2 ^ 2 + 2 ^ 2)) (2 / Real.sqrt ((1 : ℝ) ^ 2 + 2 ^ 2 + 2 ^ 2)) (2 / Real.sqrt ((1 : ℝ) ^ 2 + 2 ^ 2 + 2 ^ 2)) = _
  rw [h9]

/-- A dense output: the tool stops with an error. -/
example : ∃ o0 o, runRay3 (exTool3 0) exCfg3 id Lte3.exFile ⟨none, fun s => if s = "pops" then some ⟨[3, 32, 32, 32], fun _ => 1⟩ else none⟩ o0 o = .throws := by
  obtain ⟨o0, h0⟩ := exStarts3 0
  obtain ⟨o, ho⟩ := exView3 0 o0 h0
  exact ⟨o0, fun _ => o, C92_refuted_dense (exFits3 0) Lte3.exDescribes (fun v hv => by
    simp only [if_true, Option.some.injEq] at hv
    rw [← hv]; rfl) (fun v hv => by simp at hv) (fun v hv => by simp at hv) exAsks3 (exWaves3 _) o0 h0 _⟩

/-- One corner for two views: out of bounds. -/
example : ∃ n o0 o, runRay3 (exTool3 0) { exCfg3 with corner := some [⟨0, 0, 40⟩] } id Lte3.exFile (exOut3 n) o0 o = .ub := by
  obtain ⟨n, hn⟩ := exOutput3 0
  obtain ⟨o0, h0⟩ := exStarts3 0
  obtain ⟨o, ho⟩ := exView3 0 o0 h0
  refine ⟨n, o0, fun _ => o, C92_refuted_corner (vs := exViews) (wl := [3 / 2, 12]) (numX := 5) (numY := 6) (exFits3 0) (exReady3 0) Lte3.exDescribes hn (by simp [exViews]) rfl rfl rfl 1
    (by simp [exViews]) rfl (5 / 2) 3 rfl ?_ ?_ (by decide) (Or.inl ⟨rfl, by simp⟩) ⟨rfl, rfl⟩ (exLev 0) (fun hh => absurd hh (by simp [exTool3, RayRun.exTool]))
    (fun v hv => ⟨exPlain v hv, fun _ _ r _ _ => full_start rfl r⟩) o0 h0 _ (fun _ _ => ho)⟩
  · norm_num [exCfg3]
  · norm_num [exCfg3]

end DexRT.RayRun3
