import Verif.Props.LteRun3
import Verif.Props.LteRunEx
/-! Non-vacuity of C91: runs of the default build on 32 by 32 by 32 cells of moving gas with the atom of the example of C86. -/
namespace DexRT.Lte3
open DexRT DexRT.Fs DexRT.AtmosFile DexRT.Dir DexRT.Given3 DexRT.Emis Classical

/-- a run with the given number of slots -/
noncomputable def exRun (slots : Nat) : Run :=
  { s := Given3.exSettings, k := LteRun.exRun.k, phi := fun _ _ => 1, ad := LteRun.exData, haveH := true, sahaConst := 1, ionE := 1, maxLines := slots, cutoff := 0, bc := fun _ _ _ => 0, extraSafe := true, toInfty := true, lam := true, onCpu := true }

noncomputable def exCond : Cond :=
  { temperature := fun _ => 1, ne := fun _ => 1, nhTot := fun c => if c.x = 3 then 2 else 1, vturb := fun _ => 1, vx := fun c => c.x, vy := fun c => c.y, vz := fun c => c.z, scale := 1, offset := fun _ => 0 }

noncomputable def exFile : NcFile Coord3 ℝ :=
  { dim := fun n => if n = "x" then some 32 else if n = "y" then some 32 else if n = "z" then some 32 else none
    scalar := fun n => if n = "voxel_scale" then some 1 else none
    grid := fun n => if n = "temperature" then some fun _ => 1 else if n = "pressure" then some fun _ => 1 else if n = "ne" then some fun _ => 1
      else if n = "nh_tot" then some exCond.nhTot else if n = "vturb" then some fun _ => 1 else if n = "vx" then some exCond.vx
      else if n = "vy" then some exCond.vy else if n = "vz" then some exCond.vz else none
    flat := fun _ => none, tiles := fun _ => none, attr := fun _ => none }

theorem exDescribes : Describes exFile id (2 ^ 3) 4 4 4 exCond where
  dense := ⟨Or.inl rfl, rfl, rfl, rfl, by
    refine ⟨rfl, ?_⟩
    intro n hn
    simp only [required, List.mem_cons, List.not_mem_nil, or_false] at hn
    rcases hn with rfl | rfl | rfl | rfl | rfl | rfl | rfl | rfl <;> rfl⟩
  temperature := ⟨fun _ => 1, rfl, fun _ => rfl⟩
  ne := ⟨fun _ => 1, rfl, fun _ => rfl⟩
  nhTot := ⟨exCond.nhTot, rfl, fun _ => rfl⟩
  vturb := ⟨fun _ => 1, rfl, fun _ => rfl⟩
  vx := ⟨exCond.vx, rfl, fun _ => rfl⟩
  vy := ⟨exCond.vy, rfl, fun _ => rfl⟩
  vz := ⟨exCond.vz, rfl, fun _ => rfl⟩
  scale := ⟨1, rfl, rfl⟩
  offset := ⟨Or.inl ⟨rfl, rfl⟩, Or.inl ⟨rfl, rfl⟩, Or.inl ⟨rfl, rfl⟩⟩

theorem exSound (slots : Nat) : Sound (exRun slots) where
  wellFormed := LteRun.exReady.wellFormed
  lambda0 := LteRun.exReady.lambda0
  levels := LteRun.exLevels
  cascades := by show 0 < 5; decide
  cutoff := rfl
  hydrogen := LteRun.exReady.hydrogen
  saha := zero_le_one

theorem exReady (slots : Nat) (h : 0 < slots) : Ready (exRun slots) where
  toSound := exSound slots
  slots := fun la _ => le_trans (Finset.card_filter_le _ _) (by
    show (Finset.range 1).card ≤ slots
    simp; omega)

theorem exThermal (slots la : Nat) (hla : la < 10) : Thermal (exRun slots) 3 4 4 4 exCond la where
  consts := (LteRun.exThermal la hla).consts
  wave := (LteRun.exThermal la hla).wave
  cells := fun c hc => (LteRun.exThermal la hla).cells ⟨c.x, c.z⟩ ⟨hc.1, hc.2.1, hc.2.2.2.2.1, hc.2.2.2.2.2⟩
  atoms := (LteRun.exThermal la hla).atoms
  sigma := (LteRun.exThermal la hla).sigma
  phi := fun _ _ => zero_le_one
  lines := fun l hl i1 i2 => by
    obtain ⟨e1, e2, gi, gj, e3, e4, e5, e6, e7⟩ := (LteRun.exThermal la hla).lines l hl i1 i2
    exact ⟨e1, e2, gi, gj, e3, e4, e5, e6, fun c hc => e7 ⟨c.x, c.z⟩ ⟨hc.1, hc.2.1, hc.2.2.2.2.1, hc.2.2.2.2.2⟩⟩

/-- Orders of the required form exist. -/
theorem exStart (r : Run) (k nx ny nz : Nat) : ∃ o, StartOrders r k nx ny nz o := by
  refine ⟨⟨⟨fun bm => loopIters (2 ^ k * 2 ^ k * 2 ^ k) bm, fun t => t.zipIdx,
    fun d => .chunk ((loopTo d.z).flatMap fun z => (loopTo d.y).flatMap fun y => (loopTo d.x).map fun x => { x := x, y := y, z := z }),
    fun n => .chunk (loopTo n)⟩, ⟨0, 0, 0, 0, false, fun _ => 0, fun _ => 0, fun _ => 0, fun _ => 0, fun _ => 0, fun _ => 0, fun _ => 0, fun _ => 0, fun _ => 0⟩, _, _, fun _ => 0, fun _ => 0⟩, ⟨fun _ => List.Perm.refl _, fun _ => List.Perm.refl _, ?_, ?_⟩,
    List.Perm.refl _, List.Perm.refl _⟩
  · intro d c
    simp only [Red.iters, List.mem_flatMap, List.mem_map, mem_loopTo, inDims3, decide_eq_true_eq]
    constructor
    · rintro ⟨z, hz, y, hy, x, hx, rfl⟩; exact ⟨hx.1, hx.2, hy.1, hy.2, hz.1, hz.2⟩
    · rintro ⟨h1, h2, h3, h4, h5, h6⟩; exact ⟨c.z, ⟨h5, h6⟩, c.y, ⟨h3, h4⟩, c.x, ⟨h1, h2⟩, rfl⟩
  · intro n i
    simp [Red.iters, mem_loopTo]

theorem exLaOrders (r : Run) (k nx ny nz : Nat) : ∃ o, LaOrders r k nx ny nz o := by
  obtain ⟨b, hb⟩ := Given3.exOrders r.s k nx ny nz
  exact ⟨⟨b, _, fun _ => _, fun _ _ _ => 0, fun _ => ⟨0, 0⟩, fun _ => (0, 0, 0), fun _ _ => ⟨0, 0, 0, 0⟩⟩, hb, List.Perm.refl _, fun _ => List.Perm.refl _⟩

/-- The hypotheses of `C91_lte3_partial` and `C91_thermal3` are met: there are runs, they end with J, and J is thermal. -/
example : ∃ (o0 : StartOrder) (o : Nat → LaOrder) (J : Arr2 ℝ), runLte3 (exRun 4) id exFile o0 o = .ok J ∧ LteSolves (exRun 4) 3 4 4 4 exCond J ∧
    ∀ la, la < 10 → ∀ x y z, x < 32 → y < 32 → z < 32 → 0 ≤ J.get la ((z * 32 + y) * 32 + x) ∧
      J.get la ((z * 32 + y) * 32 + x) ≤ max (EmisSpec.planck (exRun 4).k (LteRun.exData.wavelength.getD la 0) 1) (EmisSpec.planck (exRun 4).k 1 1) := by
  obtain ⟨o, ho⟩ := exLaOrders (exRun 4) 3 4 4 4
  obtain ⟨o0, ho0⟩ := exStart (exRun 4) 3 4 4 4
  obtain ⟨J, e, h⟩ := C91_lte3_partial (r := exRun 4) id exFile Given3.exFits (exReady 4 (by decide)) exDescribes (fun hh => absurd hh (by simp [exRun])) o0 ho0 (fun _ => o) (fun la _ => ho)
  refine ⟨o0, fun _ => o, J, e, h, fun la hla x y z hx hy hz => ?_⟩
  have hpos : 0 ≤ EmisSpec.planck (exRun 4).k 1 1 := by
    unfold EmisSpec.planck
    have h1 : (1 : ℝ) ≤ Real.exp (1 / (1 * 1)) := by
      have := Real.add_one_lt_exp (show (1 / (1 * 1) : ℝ) ≠ 0 by norm_num)
      linarith
    show (0 : ℝ) ≤ 10 ^ 18 * 1 / 1 ^ 5 / (Real.exp (1 / (1 * 1)) - 1)
    exact div_nonneg (by norm_num) (by linarith)
  exact C91_thermal3 (r := exRun 4) Given3.exFits (exSound 4) zero_le_one la hla (exThermal 4 la hla)
    (max (EmisSpec.planck (exRun 4).k (LteRun.exData.wavelength.getD la 0) 1) (EmisSpec.planck (exRun 4).k 1 1)) (le_max_of_le_right hpos) (fun c _ => le_max_left _ _)
    (fun l hl _ _ c _ => by rw [List.mem_singleton.1 hl]; exact le_max_right _ _) (fun _ _ => ⟨le_rfl, le_max_of_le_right hpos⟩) J h x y z hx hy hz

/-- The hypotheses of `C91_slots3_refuted` are met: with no slot for the line, the run goes wrong. -/
example : ∃ (o0 : StartOrder) (o : Nat → LaOrder), runLte3 (exRun 0) id exFile o0 o = .ub := by
  obtain ⟨o, ho⟩ := exLaOrders (exRun 0) 3 4 4 4
  obtain ⟨o0, ho0⟩ := exStart (exRun 0) 3 4 4 4
  refine ⟨o0, fun _ => o, C91_slots3_refuted (r := exRun 0) id exFile Given3.exFits (exSound 0) exDescribes (fun hh => absurd hh (by simp [exRun])) o0 ho0 (fun _ => o) (fun la _ => ho)
    0 (by show 0 < 10; decide) (Finset.card_pos.2 ⟨0, ?_⟩)⟩
  unfold activeLines
  simp [exRun, LteRun.exData]

end DexRT.Lte3
