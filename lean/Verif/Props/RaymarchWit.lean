import Verif.Props.Raymarch
/-!
C78: concrete rays; where the full claim fails.
-/
namespace DexRT
open Classical Set

variable {dim : DdaDim}

/-- A segment that lies in the grid is not changed by the clipper. -/
theorem ddaStart_inside (a : RaymarchArgs dim) (hg : GoodSeg a) (h0 : a.seg.t0 = 0) (h1 : 0 ≤ a.seg.t1)
    (hin : ∀ t, 0 ≤ t → t ≤ a.seg.t1 → Inner a t) :
    ddaStart a.env a.seg = (ddaInit a.env ⟨a.seg.o, a.seg.d, a.seg.t1⟩).map fun s => (⟨a.seg.o, a.seg.d, a.seg.t1⟩, s) := by
  have hseg := C38_segment_partial (dim_pos dim).1 a.seg { min := fun _ => 0, max := a.env.max } (1 / 10000) hg.zero
  have hbox : ∀ t, innerBox { min := fun _ => 0, max := a.env.max } (1 / 10000) (a.seg.pt t) ↔ Inner a t := by
    intro t
    unfold innerBox Inner
    simp only [Int.cast_zero, zero_add]
  unfold ddaStart
  cases hc : a.seg.clip { min := fun _ => 0, max := a.env.max } (1 / 10000) with
  | none =>
    rw [hc] at hseg
    exfalso
    rcases hseg with ⟨i, hi⟩ | hno
    · obtain ⟨p, q⟩ := hin 0 le_rfl h1 i
      have hm : (a.env.max i : ℝ) < 1 := by simp only [Int.cast_zero] at hi; linarith
      have hm' : a.env.max i < 1 := by exact_mod_cast hm
      have hm'' : (a.env.max i : ℝ) ≤ 0 := by exact_mod_cast (by omega : a.env.max i ≤ 0)
      linarith
    · exact hno 0 h0.le h1 ((hbox 0).2 (hin 0 le_rfl h1))
  | some p =>
    obtain ⟨c, b⟩ := p
    rw [hc] at hseg
    obtain ⟨hceq, h01, hiff, -⟩ := hseg
    have a0 := (hiff 0).2 ⟨⟨h0.le, h1⟩, (hbox 0).2 (hin 0 le_rfl h1)⟩
    have a1 := (hiff a.seg.t1).2 ⟨⟨by rw [h0]; exact h1, le_rfl⟩, (hbox _).2 (hin _ h1 le_rfl)⟩
    have b0 := ((hiff c.t0).1 ⟨le_rfl, h01⟩).1
    have b1 := ((hiff c.t1).1 ⟨h01, le_rfl⟩).1
    have e0 : c.t0 = 0 := le_antisymm a0.1 (by rw [← h0]; exact b0.1)
    have e1 : c.t1 = a.seg.t1 := le_antisymm b1.2 a1.2
    have hr : (⟨(c.updateOrigin c.t0).o, (c.updateOrigin c.t0).d, (c.updateOrigin c.t0).t1⟩ : DdaRay dim) = ⟨a.seg.o, a.seg.d, a.seg.t1⟩ := by
      have ho : c.o = a.seg.o := by rw [hceq]
      have hd : c.d = a.seg.d := by rw [hceq]
      have hp : c.pt 0 = a.seg.o := by funext i; simp [RaySeg.pt, ho]
      simp only [RaySeg.updateOrigin, e0, e1, hp, hd, sub_zero]
    simp only
    rw [hr]

/-- The segment of `rayX`. -/
noncomputable def segX : RaySeg 2 := { o := ![15.5, 8.5], d := ![1, 0], negZero := ![false, false], t0 := 0, t1 := 10 }

/-- A march along x, 10 cells from (15.5, 8.5), in the grid `e` with a uniform medium. -/
noncomputable def argsX (e : DdaEnv .two) : RaymarchArgs .two where
  seg := segX
  env := e
  eta := fun _ _ => 2
  chi := fun _ _ => 1
  extraSafe := true
  scale := 1
  incl := 0
  sampleBc := true
  toInfty := false
  up := 0
  la := 0
  bc := 7

theorem argsX_good (e : DdaEnv .two) : GoodSeg (argsX e) where
  unit := by intro i; fin_cases i <;> simp [argsX, segX]
  zero := by intro i _; left; fin_cases i <;> simp [argsX, segX]

theorem argsX_start (e : DdaEnv .two) (hmax : e.max = ![64, 64]) (hl : e.sampleLevel ![15, 8] = 0) :
    ddaStart e segX = some (rayX, rayXStart) := by
  have hr : (⟨segX.o, segX.d, segX.t1⟩ : DdaRay .two) = rayX := rfl
  have h := ddaStart_inside (argsX e) (argsX_good e) rfl (by show (0 : ℝ) ≤ 10; norm_num) (by
    intro t h0 h1
    have h1 : t ≤ 10 := h1
    intro i
    have em : (argsX e).env.max = ![64, 64] := hmax
    rw [em]
    fin_cases i <;> simp [argsX, segX, RaySeg.pt] <;> constructor <;> linarith)
  have h' : ddaStart e segX = (ddaInit e rayX).map fun s => (rayX, s) := h
  rw [h', rayX_init_of e hl (by intro i; rw [hmax]; fin_cases i <;> simp)]
  rfl

theorem flat_level : ∀ c, flatGrid.inBounds c → flatGrid.sampleLevel c = 0 := by
  intro c hc
  have h0 := hc 0
  have h1 := hc 1
  simp only [flatGrid, Matrix.cons_val_zero, Matrix.cons_val_one] at h0 h1
  simp only [DdaEnv.sampleLevel, flatGrid]
  rw [if_neg (by omega)]; rfl

theorem flatX_start : ddaStart (argsX flatGrid).env (argsX flatGrid).seg = some (rayX, rayXStart) :=
  argsX_start flatGrid rfl (by simp [DdaEnv.sampleLevel, flatGrid])

/-- Non-vacuity of `C78_starts`, `C78_ends`, `C78_uniform` and `C78_exact`: the march along x in the flat grid meets the
hypotheses and ends; the medium has a solution. -/
example : GoodSeg (argsX flatGrid) ∧ 1 ≤ (argsX flatGrid).env.block ∧
    (∀ c, (argsX flatGrid).env.inBounds c → (argsX flatGrid).env.sampleLevel c = 0) ∧
    ddaStart (argsX flatGrid).env (argsX flatGrid).seg = some (rayX, rayXStart) ∧ rayX.t1 ≤ 1e24 ∧
    (∀ x, 0 ≤ x → x ≤ 2e-6 → ∀ i, rayX.d i ≠ 0 → ¬ OnFace rayX 1 x i) ∧
    (∀ x, 0 ≤ x → x ≤ rayX.t1 → ∀ i j, rayX.d i ≠ 0 → rayX.d j ≠ 0 → OnFace rayX (2 ^ (0 : ℤ).toNat) x i → OnFace rayX (2 ^ (0 : ℤ).toNat) x j → i = j) ∧
    (∃ N res, ∀ fuel, N ≤ fuel → raymarch (argsX flatGrid) fuel = some res) ∧
    (∃ I : ℝ → ℝ, I 0 = startI (argsX flatGrid) true ∧ ∀ x, SolvesAt ((argsX flatGrid).scale * (argsX flatGrid).invSin) 2 (1 + 1e-15) I x) := by
  refine ⟨argsX_good _, by decide, flat_level, flatX_start, by show (10 : ℝ) ≤ 1e24; norm_num, ?_, ?_, ?_, ?_⟩
  · intro x h0 h1 i hi
    have : i = 0 := by
      revert hi; fin_cases i <;> simp [rayX]
    subst this
    rintro ⟨k, hk⟩
    simp only [DdaRay.pt, rayX, Matrix.cons_val_zero, mul_one] at hk
    norm_num at hk
    have a1 : (15 : ℝ) < k := by linarith
    have a2 : (k : ℝ) < 16 := by norm_num at h1; linarith
    have b1 : 15 < k := by exact_mod_cast a1
    have b2 : k < 16 := by exact_mod_cast a2
    omega
  · intro x _ _ i j hi hj _ _
    revert hi hj
    fin_cases i <;> fin_cases j <;> simp [rayX]
  · refine C78_ends _ (by decide) ?_
    intro r s hs
    rw [flatX_start] at hs
    obtain ⟨rfl, rfl⟩ := Prod.mk.inj (Option.some.inj hs)
    refine ⟨Or.inl ?_, by show (10 : ℝ) ≤ 1e24; norm_num⟩
    rw [rayX_startCell]; simp [DdaEnv.sampleLevel, flatGrid, argsX]
  · set k := (argsX flatGrid).scale * (argsX flatGrid).invSin
    refine ⟨fun x => startI (argsX flatGrid) true * Real.exp (-(k * (1 + 1e-15) * x)) + 2 / (1 + 1e-15) * (1 - Real.exp (-(k * (1 + 1e-15) * x))), by simp, ?_⟩
    intro x
    have hlin : HasDerivAt (fun x => k * (1 + 1e-15) * x) (k * (1 + 1e-15)) x := by
      simpa using (hasDerivAt_id x).const_mul (k * (1 + 1e-15))
    have hexp := (hlin.fun_neg).exp
    have h1 := (hexp.const_mul (startI (argsX flatGrid) true)).fun_add ((hexp.const_sub 1).const_mul (2 / (1 + 1e-15)))
    refine h1.congr_deriv ?_
    field_simp
    ring

/-- Non-vacuity in three dimensions: a slanted ray in a cube of 64 cells. -/
example : ∃ a : RaymarchArgs .three, GoodSeg a ∧ (ddaStart a.env a.seg).isSome ∧ a.seg.d 0 ≠ 0 ∧ a.seg.d 1 ≠ 0 ∧ a.seg.d 2 ≠ 0 := by
  let a : RaymarchArgs .three :=
    { seg := { o := ![10, 20, 30], d := ![2 / 3, 1 / 3, -2 / 3], negZero := fun _ => false, t0 := -100, t1 := 12 },
      env := { lvl := fun _ => 0, maxMip := 0, block := 8, max := ![64, 64, 64] },
      eta := fun _ _ => 1, chi := fun _ _ => 1, extraSafe := true, scale := 1, incl := 0, sampleBc := false, toInfty := true,
      up := -2 / 3, la := 0, bc := 0 }
  have hg : GoodSeg a := ⟨by intro i; fin_cases i <;> simp [a] <;> norm_num [abs_le], by intro i _; left; rfl⟩
  refine ⟨a, hg, ?_, ?_, ?_, ?_⟩
  · have h := C78_starts a (by decide) hg
    cases hs : ddaStart a.env a.seg with
    | some _ => rfl
    | none =>
      rw [hs] at h
      have := h 0 1 (by simp [a]) (by norm_num) (by simp [a])
        (by intro i; fin_cases i <;> simp [a, RaySeg.pt] <;> norm_num)
        (by intro i; fin_cases i <;> simp [a, RaySeg.pt] <;> norm_num)
      norm_num at this
  · simp [a]
  · simp [a]
  · simp [a]

/-! ### Light from the boundary inside the grid -/

/-- A grid of 40000 x 40000 cells with a single level. -/
def bigGrid : DdaEnv .two := { lvl := fun c => if c 0 < 0 ∨ 40000 ≤ c 0 ∨ c 1 < 0 ∨ 40000 ≤ c 1 then -1 else 0, maxMip := 0, block := 16, max := ![40000, 40000] }

/-- The longest segment of the last cascade (`LAST_CASCADE_MAX_DIST` = 2e4) that ends near the top of that grid. -/
noncomputable def bigArgs : RaymarchArgs .two where
  seg := { o := ![20000.5, 19000.5], d := ![0, 1], negZero := ![false, false], t0 := 0, t1 := 20000 }
  env := bigGrid
  eta := fun _ _ => 0
  chi := fun _ _ => 0
  extraSafe := true
  scale := 1
  incl := 0
  sampleBc := true
  toInfty := true
  up := 1
  la := 0
  bc := 7

/-- REFUTED in full: a segment of the last cascade that starts inside the grid, 19000 cells above its lower surface,
starts from the intensity of the boundary all the same, as if the cells between it and the surface were not there. -/
theorem C78_inside_refuted : GoodSeg bigArgs ∧ (∀ t, 0 ≤ t → t ≤ bigArgs.seg.t1 → Inner bigArgs t) ∧
    (∀ m c, bigArgs.eta m c = 0) ∧
    ∃ N res, (∀ fuel, N ≤ fuel → raymarch bigArgs fuel = some res) ∧ 6 < res.I := by
  have hg : GoodSeg bigArgs := ⟨by intro i; fin_cases i <;> simp [bigArgs], by intro i _; left; fin_cases i <;> simp [bigArgs]⟩
  have hin : ∀ t, 0 ≤ t → t ≤ bigArgs.seg.t1 → Inner bigArgs t := by
    intro t h0 h1
    have h1 : t ≤ 20000 := h1
    intro i
    fin_cases i <;> simp [bigArgs, bigGrid, RaySeg.pt] <;> constructor <;> linarith
  have hl : ∀ c, bigArgs.env.inBounds c → bigArgs.env.sampleLevel c = 0 := by
    intro c hc
    have h0 := hc 0
    have h1 := hc 1
    simp only [bigArgs, bigGrid, Matrix.cons_val_zero, Matrix.cons_val_one] at h0 h1
    simp only [DdaEnv.sampleLevel, bigArgs, bigGrid]
    rw [if_neg (by omega)]; rfl
  refine ⟨hg, hin, fun _ _ => rfl, ?_⟩
  have hstart := ddaStart_inside bigArgs hg rfl (by show (0 : ℝ) ≤ 20000; norm_num) hin
  have hsome : ∃ r s, ddaStart bigArgs.env bigArgs.seg = some (r, s) := by
    cases hs : ddaStart bigArgs.env bigArgs.seg with
    | some p => exact ⟨p.1, p.2, rfl⟩
    | none =>
      exfalso
      have h := C78_starts bigArgs (by decide) hg
      rw [hs] at h
      have := h 0 1 le_rfl (by norm_num) (by show (1 : ℝ) ≤ 20000; norm_num) (hin 0 le_rfl (by show (0 : ℝ) ≤ 20000; norm_num))
        (hin 1 (by norm_num) (by show (1 : ℝ) ≤ 20000; norm_num))
      norm_num at this
  obtain ⟨r, s, hs⟩ := hsome
  have hr : r.t1 = 20000 := by
    rw [hs] at hstart
    obtain ⟨s', -, h2⟩ := Option.map_eq_some_iff.1 hstart.symm
    obtain ⟨rfl, -⟩ := Prod.mk.inj h2
    rfl
  have hgood : GoodStart bigArgs.env r := by
    by_cases hx : bigArgs.env.inBounds (startCell r)
    · left; rw [hl _ hx]
    · exact Or.inr (Or.inl hx)
  obtain ⟨N, res, hN⟩ := C78_ends bigArgs (by decide) (by
    intro r' s' h'
    rw [hs] at h'
    obtain ⟨rfl, rfl⟩ := Prod.mk.inj (Option.some.inj h')
    exact ⟨hgood, by rw [hr]; norm_num⟩)
  refine ⟨N, res, hN, ?_⟩
  obtain ⟨L, h1, h2, h3, h4⟩ := C78_uniform bigArgs (by decide) hg 0 le_rfl hl 0 0 le_rfl (fun _ _ => rfl) (fun _ _ => rfl)
    r s hs (by rw [hr]; norm_num) N res (hN N le_rfl)
  have hI0 : startI bigArgs true = 7 := by
    have := (C78_boundary bigArgs hg).2 (by rw [hs]; rfl)
    rw [this, if_pos]
    · rfl
    · exact ⟨rfl, Or.inl rfl, by show (0 : ℝ) < 1; norm_num, by decide⟩
  have hk : bigArgs.scale * bigArgs.invSin = 1 := by simp [RaymarchArgs.invSin, bigArgs]
  rw [hk] at h3
  rw [hr] at h2
  rw [hI0] at h4
  simp only [zero_div, zero_mul, add_zero] at h4
  have htau : res.tau ≤ 1 / 1000 := by rw [h3]; norm_num; linarith
  have := Real.add_one_le_exp (-res.tau)
  rw [h4]
  linarith

/-! ### The operator of a ray that ends in an empty region -/

/-- Data for x < 16 only. -/
def leftOnly : DdaEnv .two := { lvl := fun c => if c 0 < 0 ∨ 64 ≤ c 0 ∨ c 1 < 0 ∨ 64 ≤ c 1 then -1 else if c 0 < 16 then 0 else -1, maxMip := 0, block := 16, max := ![64, 64] }

/-- The state in the empty block. -/
noncomputable def leftNext : Dda .two := ⟨0, -1, 0.511, 9.489, 16, ![16, 0], ![16.5, 1e24]⟩

theorem left_advance : advance leftOnly rayX rayXStart = some leftNext := by
  have ht1 : rayX.t1 = 10 := rfl
  have hs0 : rayX.stepDir (0 : Fin 2) = 1 := by simp [rayX, DdaRay.stepDir]
  have hd0 : rayX.deltaOf (0 : Fin 2) = 1 := by simp [rayX, DdaRay.deltaOf]
  have hn : nextIntersection rayX rayXStart = ⟨0, 0, 0.5, 1, 1, ![16, 8], ![1.5, 1e24]⟩ := by
    unfold rayXStart
    rw [next2_0, hs0, hd0, compute2, ht1]
    norm_num
  have hl : leftOnly.sampleLevel ![16, 8] = -1 := by simp [DdaEnv.sampleLevel, leftOnly]
  unfold advance
  simp only [hn, ht1, hl]
  rw [if_pos (by norm_num), if_neg (by norm_num)]
  congr 1
  have hnu : nudge leftOnly (-1) ⟨0, 0, 0.5, 1, 1, ![16, 8], ![1.5, 1e24]⟩ = (⟨0, 0, 0.5 + 0.01, 1, 1, ![16, 8], ![1.5, 1e24]⟩ : Dda .two) := by
    unfold nudge
    rw [if_pos ⟨rfl, by decide⟩]
  rw [hnu]
  have hc0 : (fun i => ⌊rayX.pt ((0.5 : ℝ) + 0.01 + 1e-3) i⌋) = ![16, 8] := by
    funext i
    fin_cases i
    · show ⌊rayX.pt ((0.5 : ℝ) + 0.01 + 1e-3) 0⌋ = 16
      rw [Int.floor_eq_iff]; simp [DdaRay.pt, rayX]; norm_num
    · show ⌊rayX.pt ((0.5 : ℝ) + 0.01 + 1e-3) 1⌋ = 8
      rw [Int.floor_eq_iff]; simp [DdaRay.pt, rayX]; norm_num
  have hup : updateMip leftOnly rayX false ⟨0, 0, 0.5 + 0.01, 1, 1, ![16, 8], ![1.5, 1e24]⟩ =
      computeAxisDt rayX ⟨0, leftOnly.sampleLevel (fun i => ⌊rayX.pt ((0.5 : ℝ) + 0.01 + 1e-3) i⌋), (0.5 : ℝ) + 0.01 + 1e-3, 1,
        leftOnly.stepSize (leftOnly.sampleLevel (fun i => ⌊rayX.pt ((0.5 : ℝ) + 0.01 + 1e-3) i⌋)),
        fun i => maskCoord ((fun i => ⌊rayX.pt ((0.5 : ℝ) + 0.01 + 1e-3) i⌋) i) (leftOnly.stepSize (leftOnly.sampleLevel (fun i => ⌊rayX.pt ((0.5 : ℝ) + 0.01 + 1e-3) i⌋))),
        hitsFrom rayX ((0.5 : ℝ) + 0.01 + 1e-3) (fun i => maskCoord ((fun i => ⌊rayX.pt ((0.5 : ℝ) + 0.01 + 1e-3) i⌋) i) (leftOnly.stepSize (leftOnly.sampleLevel (fun i => ⌊rayX.pt ((0.5 : ℝ) + 0.01 + 1e-3) i⌋))))
          (leftOnly.stepSize (leftOnly.sampleLevel (fun i => ⌊rayX.pt ((0.5 : ℝ) + 0.01 + 1e-3) i⌋))) ![1.5, 1e24]⟩ := rfl
  rw [hup, hc0, hl]
  have hsz : leftOnly.stepSize (-1) = 16 := by simp [DdaEnv.stepSize, leftOnly]
  have hmask : (fun i => maskCoord ((![16, 8] : Fin 2 → ℤ) i) 16) = ![16, 0] := by
    funext i; fin_cases i <;> simp [maskCoord]
  rw [hsz]
  have hm2 : (fun i => maskCoord (![16, 8] i) 16) = (![16, 0] : Fin 2 → ℤ) := hmask
  rw [hm2]
  have hh : hitsFrom rayX ((0.5 : ℝ) + 0.01 + 1e-3) ![16, 0] 16 ![1.5, 1e24] = ![16.5, 1e24] := by
    funext i
    rw [hitsFrom_eq]
    fin_cases i <;> simp [rayX, exitTime] <;> norm_num
  rw [hh, compute2, ht1]
  unfold leftNext
  norm_num

theorem left_end : advance leftOnly rayX leftNext = none := by
  have ht1 : rayX.t1 = 10 := rfl
  rw [advance_eq, if_neg]
  rw [ht1]
  show ¬ (16.5 : ℝ) < 10
  norm_num

/-- REFUTED in full: the operator of a ray that ends in an empty region (the last 9.4 of its 10 cells) is not 0 but that
of the last cell with data, half a cell of it here. -/
theorem C78_alo_empty_refuted :
    raymarch (argsX leftOnly) 1 = some (marchInterval true 1 1 0 [⟨true, 2, 1, 0.5⟩]) ∧
    (∀ x, 0.6 ≤ x → x ≤ 10 → leftOnly.sampleLevel (fun i => ⌊rayX.pt x i⌋) = -1) ∧
    ∃ res, raymarch (argsX leftOnly) 1 = some res ∧ 0 < res.psiStar := by
  have hs : ddaStart (argsX leftOnly).env (argsX leftOnly).seg = some (rayX, rayXStart) :=
    argsX_start leftOnly rfl (by simp [DdaEnv.sampleLevel, leftOnly])
  have hend : visitsEnd leftOnly rayX 1 rayXStart = some [rayXStart, leftNext] := by
    unfold visitsEnd
    rw [left_advance]
    simp only
    unfold visitsEnd
    rw [left_end]
    rfl
  have hI0 : startI (argsX leftOnly) true = 0 := by
    have := (C78_boundary (argsX leftOnly) (argsX_good _)).2 (by rw [hs]; rfl)
    rw [this, if_neg]
    rintro ⟨-, -, h, -⟩
    exact absurd h (by show ¬ (0 : ℝ) < 0; norm_num)
  have hk : (argsX leftOnly).invSin = 1 := by simp [RaymarchArgs.invSin, argsX]
  have hmain : raymarch (argsX leftOnly) 1 = some (marchInterval true 1 1 0 [⟨true, 2, 1, 0.5⟩]) := by
    unfold raymarch
    rw [hs]
    simp only
    have he : (argsX leftOnly).env = leftOnly := rfl
    rw [he, hend, hI0, hk]
    have hst : (loopStates [rayXStart, leftNext]).map (argsX leftOnly).stepOf = [⟨true, 2, 1, 0.5⟩] := by
      have h1 : loopStates [rayXStart, leftNext] = [rayXStart] := by
        simp [loopStates, leftNext]
      rw [h1]
      simp only [List.map_cons, List.map_nil, RaymarchArgs.stepOf, List.cons.injEq, and_true]
      simp [rayXStart, argsX]
    simp only [Option.map_some]
    rw [hst]
    rfl
  refine ⟨hmain, ?_, _, hmain, ?_⟩
  · intro x h0 h1
    have f0 : ⌊rayX.pt x 0⌋ ≥ 16 ∧ ⌊rayX.pt x 0⌋ < 64 := by
      constructor
      · rw [ge_iff_le, Int.le_floor]; simp [DdaRay.pt, rayX]; linarith
      · rw [Int.floor_lt]; simp [DdaRay.pt, rayX]; linarith
    simp only [DdaEnv.sampleLevel, leftOnly]
    by_cases hc : (⌊rayX.pt x 0⌋ < 0 ∨ 64 ≤ ⌊rayX.pt x 0⌋ ∨ ⌊rayX.pt x 1⌋ < 0 ∨ 64 ≤ ⌊rayX.pt x 1⌋)
    · rw [if_pos hc]; rfl
    · rw [if_neg hc, if_neg (by omega)]; rfl
  · have h := march_transmission true 1 1 [] (by simp)
    simp only [marchInterval, march, List.foldl_cons, List.foldl_nil, marchStep, if_true]
    have hc : chiUsed true 1 = 1 + 1e-15 := by
      unfold chiUsed
      have : ¬ |(1 : ℝ) + 1e-15| < 1e-15 := by rw [abs_of_nonneg (by norm_num)]; norm_num
      simp [this]
    rw [hc]
    refine lt_max_of_lt_left (div_pos ?_ (by norm_num))
    have : Real.exp (-((1 + 1e-15) * 0.5 * 1 * 1)) < 1 := Real.exp_lt_one_iff.2 (by norm_num)
    linarith

end DexRT
