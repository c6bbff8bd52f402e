import Verif.Props.LteRun
import Mathlib.Analysis.Complex.ExponentialBounds
/-! Non-vacuity of C86: a run of the default build on 32 by 32 cells of moving gas with an atom with a line and a continuum. -/
namespace DexRT.LteRun
open DexRT DexRT.Fs DexRT.AtmosFile DexRT.Dir DexRT.Given DexRT.Emis Classical

/-- Two bound levels and the ion. -/
noncomputable def exLv : Fin (2 + 1) → Lte.Level := ![⟨0, 1, 0⟩, ⟨1, 1, 0⟩, ⟨2, 1, 1⟩]

noncomputable def exAtom : Emis.Atom := { mass := 1, abundance := 1, top := 2, lv := exLv }

/-- A line at wavelengths 0 to 8 of 10, in two batches, and a continuum at all of them. -/
noncomputable def exData : AData :=
  { wavelength := [1, 2, 3, 4, 5, 6, 7, 8, 9, 10]
    lines := [{ blue := 0, red := 9, atom := 0, i := 0, j := 1, gNatural := 1, aji := 10 ^ 18, bji := 1, bij := 1, lambda0 := 1, broad := [] }]
    conts := [{ blue := 0, red := 10, atom := 0, i := 0, j := 2, sigma := [1, 1, 1, 1, 1, 1, 1, 1, 1, 1] }]
    atoms := [exAtom] }

noncomputable def exRun : Lte :=
  { s := { exSettings with levels := [0, 0, 0, 0, 0, 0] }
    k := ⟨1, 1, 1, 1, 1, 1, 1, 1, 1, 1 / 100⟩
    phi := fun _ _ => 1, ad := exData, haveH := true, sahaConst := 1, ionE := 1, maxLines := 4, cutoff := 0, bc := fun _ _ _ => 0 }

noncomputable def exCond : Cond :=
  { temperature := fun _ => 1, ne := fun _ => 1, nhTot := fun c => if c.x = 3 then 2 else 1, vturb := fun _ => 1, vx := fun c => c.x, vy := fun _ => 0,
    vz := fun c => c.z, scale := 1, offset := fun _ => 0 }

noncomputable def exFile : NcFile Coord2 ℝ :=
  { dim := fun n => if n = "x" then some 32 else if n = "z" then some 32 else none
    scalar := fun n => if n = "voxel_scale" then some 1 else none
    grid := fun n => if n = "temperature" then some fun _ => 1 else if n = "pressure" then some fun _ => 1 else if n = "ne" then some fun _ => 1
      else if n = "nh_tot" then some exCond.nhTot else if n = "vturb" then some fun _ => 1 else if n = "vx" then some exCond.vx
      else if n = "vy" then some fun _ => 0 else if n = "vz" then some exCond.vz else none
    flat := fun _ => none, tiles := fun _ => none, attr := fun _ => none }

theorem exRunFits : Fits exRun.s 4 2 2 :=
  { exFits with
    levels := by decide
    levelRange := by decide
    length := exFits.length
    dirs := exFits.dirs
    size := exFits.size
    valid := exFits.valid }

theorem exDescribes : Describes exFile id (2 ^ 4) 2 2 exCond where
  dense := ⟨Or.inl rfl, rfl, rfl, by
    refine ⟨rfl, ?_⟩
    intro n hn
    simp only [required, List.mem_cons, List.not_mem_nil, or_false] at hn
    rcases hn with rfl | rfl | rfl | rfl | rfl | rfl | rfl | rfl <;> rfl⟩
  temperature := ⟨fun _ => 1, rfl, fun _ => rfl⟩
  ne := ⟨fun _ => 1, rfl, fun _ => rfl⟩
  nhTot := ⟨exCond.nhTot, rfl, fun _ => rfl⟩
  vturb := ⟨fun _ => 1, rfl, fun _ => rfl⟩
  vx := ⟨exCond.vx, rfl, fun _ => rfl⟩
  vy := ⟨fun _ => 0, rfl, fun _ => rfl⟩
  vz := ⟨exCond.vz, rfl, fun _ => rfl⟩
  scale := ⟨1, rfl, rfl⟩
  offset := ⟨Or.inl ⟨rfl, rfl⟩, Or.inl ⟨rfl, rfl⟩, Or.inl ⟨rfl, rfl⟩⟩

theorem exLevels : LevelsExist exData := by
  constructor
  · intro l hl
    rw [List.mem_singleton.1 hl]
    exact ⟨exAtom, rfl, by decide, by decide⟩
  · intro l hl
    rw [List.mem_singleton.1 hl]
    exact ⟨exAtom, rfl, by decide, by decide⟩

theorem exReady : Ready exRun where
  wellFormed := by
    refine ⟨fun l hl => ?_, fun c hc => ?_, fun c hc => ?_⟩
    · rw [List.mem_singleton.1 hl]; decide
    · rw [List.mem_singleton.1 hc]; rfl
    · rw [List.mem_singleton.1 hc]; exact le_rfl
  lambda0 := fun l hl => by rw [List.mem_singleton.1 hl]; exact one_ne_zero
  levels := exLevels
  noMips := by decide
  cascades := by decide
  cutoff := rfl
  slots := fun la _ _ => le_trans (Finset.card_filter_le _ _) (by
    show (Finset.range 1).card ≤ 4
    decide)
  continua := fun la _ h => Or.inl ⟨_, List.mem_singleton.2 rfl, Nat.zero_le _, h⟩
  hydrogen := fun _ => by simp [exRun, exData]
  saha := zero_le_one

theorem exThermal (la : Nat) (hla : la < 10) : Thermal exRun 4 2 2 exCond la where
  consts := by simp [exRun]
  wave := by
    show 0 < [1, 2, 3, 4, 5, 6, 7, 8, 9, (10 : ℝ)].getD la 0
    interval_cases la <;> norm_num
  cells := fun c _ => by
    refine ⟨one_pos, one_pos, ?_⟩
    show (0 : ℝ) < if c.x = 3 then 2 else 1
    split <;> norm_num
  atoms := fun x hx => by
    rw [List.mem_singleton.1 hx]
    refine ⟨one_pos, fun i => ?_⟩
    have : ∀ i : Fin 3, (0 : ℝ) < ((![⟨0, 1, 0⟩, ⟨1, 1, 0⟩, ⟨2, 1, 1⟩] : Fin 3 → Lte.Level) i).g := by
      intro i
      fin_cases i <;> simp
    exact this i
  sigma := fun c hc s hs => by
    rw [List.mem_singleton.1 hc] at hs
    simp at hs
    rw [hs]; exact zero_le_one
  phi := fun _ _ => zero_le_one
  lines := fun l hl _ _ => by
    rw [List.mem_singleton.1 hl]
    refine ⟨one_pos, zero_le_one, 1, 1, one_pos, one_pos, rfl, ?_, fun c _ => ?_⟩
    · show (10 : ℝ) ^ 18 = 10 ^ 18 * 1 / 1 ^ 5 * 1
      norm_num
    · have hN : (1 : ℝ) ≤ 1 * exCond.nhTot c := by
        show (1 : ℝ) ≤ 1 * if c.x = 3 then 2 else 1
        split <;> norm_num
      show Lte.ltePops (n := 2) 1 1 (1 / 100) exLv 1 1 (1 * exCond.nhTot c) 1 =
        Lte.ltePops (n := 2) 1 1 (1 / 100) exLv 1 1 (1 * exCond.nhTot c) 0 * (1 / 1) * Real.exp (-1 / (1 * 1))
      generalize 1 * exCond.nhTot c = N at hN
      have hs : Lte.sahaTerm 1 1 1 = 1 / 2 := by unfold Lte.sahaTerm; norm_num
      have r1 : Lte.relPop exLv (1 * 1) (1 / 2) 1 = Real.exp (-1) := by
        unfold Lte.relPop Lte.divLoop
        simp [exLv]
      have r2 : Lte.relPop exLv (1 * 1) (1 / 2) 2 = 2 * Real.exp (-2) := by
        unfold Lte.relPop Lte.divLoop
        simp [exLv]
        ring
      have p0 : Lte.pop0 exLv (1 * 1) (1 / 2) N = N / (1 + (Real.exp (-1) + 2 * Real.exp (-2))) := by
        unfold Lte.pop0
        have : ∑ i : Fin 2, Lte.relPop exLv (1 * 1) (1 / 2) i.succ = Lte.relPop exLv (1 * 1) (1 / 2) 1 + Lte.relPop exLv (1 * 1) (1 / 2) 2 :=
          Fin.sum_univ_two (fun i : Fin 2 => Lte.relPop exLv (1 * 1) (1 / 2) i.succ)
        rw [this, r1, r2]
      have e1 : Real.exp (-1) ≤ 1 := Real.exp_le_one_iff.2 (by norm_num)
      have e2 : Real.exp (-2) ≤ 1 := Real.exp_le_one_iff.2 (by norm_num)
      have e3 : (1 : ℝ) / 3 ≤ Real.exp (-1) := by
        rw [Real.exp_neg, ← one_div]
        exact one_div_le_one_div_of_le (Real.exp_pos 1) (by have := Real.exp_one_lt_d9; linarith)
      have e4 := Real.exp_pos (-2)
      have q0 : (1 : ℝ) / 4 ≤ N / (1 + (Real.exp (-1) + 2 * Real.exp (-2))) := by
        rw [div_le_div_iff₀ (by norm_num) (by linarith)]
        linarith
      unfold Lte.ltePops
      simp only [hs]
      rw [if_neg (by decide), if_pos trivial]
      have r1' := r1; have p0' := p0
      simp only [mul_one] at r1' p0' ⊢
      rw [r1', p0', max_eq_left (by nlinarith)]
      rw [show (-1 / 1 : ℝ) = -1 by norm_num]
      ring

/-- Orders of the required form exist. -/
theorem exStart (r : Lte) (k nx nz : Nat) : ∃ o, StartOrders r k nx nz o := by
  refine ⟨⟨⟨fun bm => loopIters (2 ^ k * 2 ^ k) bm, fun t => t.zipIdx, fun d => .chunk ((loopTo d.z).flatMap fun z => (loopTo d.x).map fun x => { x := x, z := z }),
    fun n => .chunk (loopTo n)⟩, ⟨0, 0, 0, 0, false, fun _ => 0, fun _ => 0, fun _ => 0, fun _ => 0, fun _ => 0, fun _ => 0, fun _ => 0, fun _ => 0, fun _ => 0⟩, _, _, fun _ => 0, fun _ => 0⟩, ⟨fun _ => List.Perm.refl _, fun _ => List.Perm.refl _, ?_, ?_⟩,
    List.Perm.refl _, List.Perm.refl _⟩
  · intro d c
    simp only [Red.iters, List.mem_flatMap, List.mem_map, mem_loopTo, inDims2, decide_eq_true_eq]
    constructor
    · rintro ⟨z, hz, x, hx, rfl⟩; exact ⟨hx.1, hx.2, hz.1, hz.2⟩
    · rintro ⟨h1, h2, h3, h4⟩; exact ⟨c.z, ⟨h3, h4⟩, c.x, ⟨h1, h2⟩, rfl⟩
  · intro n i
    simp [Red.iters, mem_loopTo]

theorem exLteOrders (r : Lte) (k nx nz wv : Nat) : ∃ o, LteOrders r k nx nz wv o := by
  obtain ⟨b, hb⟩ := exOrders r.s k nx nz wv
  exact ⟨⟨b, _, fun _ => _, fun _ _ _ => 0, fun _ _ => ⟨0, 0⟩, fun _ => (0, 0, 0), fun _ _ => ⟨0, 0, 0, 0⟩⟩, hb, List.Perm.refl _, fun _ => List.Perm.refl _⟩

/-- The hypotheses of `C86_lte2_partial` and `C86_thermal2` are met: there are runs, they end with J, and J is thermal. -/
example : ∃ (o0 : StartOrder) (o : Nat → LteOrder) (J : Arr2 ℝ), runLte2 exRun id exFile o0 o (fun _ _ => 0) = .ok J ∧ LteSolves exRun 4 2 2 exCond J ∧
    ∀ la, la < 10 → ∀ x z, x < 32 → z < 32 → 0 ≤ J.get la (z * 32 + x) ∧
      J.get la (z * 32 + x) ≤ max (EmisSpec.planck exRun.k (exData.wavelength.getD la 0) 1) (EmisSpec.planck exRun.k 1 1) := by
  choose o ho using fun la => exLteOrders exRun 4 2 2 (min 8 (10 - la))
  obtain ⟨o0, ho0⟩ := exStart exRun 4 2 2
  obtain ⟨J, e, h⟩ := C86_lte2_partial id exFile exRunFits exReady exDescribes (fun hh => absurd hh (by simp [exRun])) o0 ho0 o (fun la _ _ => ho la) (fun _ _ => 0)
  refine ⟨o0, o, J, e, h, fun la hla x z hx hz => ?_⟩
  have hpos : 0 ≤ EmisSpec.planck exRun.k 1 1 := by
    unfold EmisSpec.planck
    have h1 : (1 : ℝ) ≤ Real.exp (1 / (1 * 1)) := by
      have := Real.add_one_lt_exp (show (1 / (1 * 1) : ℝ) ≠ 0 by norm_num)
      linarith
    show (0 : ℝ) ≤ 10 ^ 18 * 1 / 1 ^ 5 / (Real.exp (1 / (1 * 1)) - 1)
    exact div_nonneg (by norm_num) (by linarith)
  obtain ⟨t1, t2⟩ := C86_thermal2 exRunFits exReady zero_le_one (fun x hx => by
    have hx' : x ∈ [(1 : ℝ) / 4, 1 / 4, 1 / 4, 1 / 4] := hx
    simp at hx'
    rw [hx']; norm_num) la hla (exThermal la hla)
    (max (EmisSpec.planck exRun.k (exData.wavelength.getD la 0) 1) (EmisSpec.planck exRun.k 1 1)) (le_max_of_le_right hpos) (fun c _ => le_max_left _ _)
    (fun l hl _ _ c _ => by rw [List.mem_singleton.1 hl]; exact le_max_right _ _) (fun _ _ => ⟨le_rfl, le_max_of_le_right hpos⟩) J h x z hx hz
  refine ⟨t1, le_trans t2 (le_of_eq ?_)⟩
  have : ∑ th ∈ Finset.range exRun.s.incl, exRun.s.wmuy.getD th 0 = 1 := by
    show ∑ th ∈ Finset.range 4, ([1 / 4, 1 / 4, 1 / 4, 1 / 4] : List ℝ).getD th 0 = 1
    simp [Finset.sum_range_succ]
    norm_num
  rw [this, mul_one]

end DexRT.LteRun
