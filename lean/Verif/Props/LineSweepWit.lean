import Verif.Props.LineSweep
/-! C85: where line sweeping does not do what it should, and the step condition. -/
namespace DexRT.LineSweep
open DexRT
open DexRT.VelInterp (truncInt)
open DexRT.Dir (rayDir2 rayAngle)

/-- A set by itself: its samples fill the storage. -/
theorem stored_alone {b : Box} {d : Fin 2 → ℝ} {step : ℝ} (G : Geometry b d step) (ls : LineSet) (h : IsSet b d step ls) (st : List (ℝ × ℝ))
    (hl : (st.length : ℤ) = (ls.lines.map Line.num).sum) : Stored ls (storageStart [ls.lines.map Line.num]).1 st ∧
      ∀ i (h : i < (storageStart [ls.lines.map Line.num]).1.length), (storageStart [ls.lines.map Line.num]).1[i] = before (ls.lines.map Line.num) i := by
  obtain ⟨n, a, ha, hk, e⟩ := set_form G ls h
  have hne : ls.lines ≠ [] := by rw [e]; simp; omega
  have hnum : ∀ x ∈ ls.lines.map Line.num, (1 : ℤ) ≤ x := by
    intro x hx
    obtain ⟨l, h1, rfl⟩ := List.mem_map.1 hx
    rw [e] at h1
    obtain ⟨i, h2, rfl⟩ := List.mem_map.1 h1
    have := List.mem_range.1 h2
    exact (famLine_ok G ((i : ℤ) - a) ((hk _).2 (by omega))).num_pos
  have hmne : ls.lines.map Line.num ≠ [] := by simpa using hne
  obtain ⟨s1, s2, s3, s4⟩ := C85_storage [ls.lines.map Line.num] (by intro s hs; rw [List.mem_singleton.1 hs]; exact hmne) (by simp)
  have hflat : [ls.lines.map Line.num].flatten = ls.lines.map Line.num := by simp
  rw [hflat] at s1 s3
  have pos : ∀ i, 0 ≤ before (ls.lines.map Line.num) i := by
    intro i
    unfold before
    apply List.sum_nonneg
    intro x hx
    have := hnum x (List.mem_of_mem_take hx); omega
  refine ⟨⟨by rw [s1, List.length_map], ?_, ?_⟩, s3⟩
  · intro x hx
    obtain ⟨i, hi, rfl⟩ := List.getElem_of_mem hx
    rw [s3 i hi]; exact pos i
  · intro i h1 h2
    rw [s3 i h2]
    have e1 := before_succ (ls.lines.map Line.num) i
    rw [List.getD, List.getElem?_eq_getElem (by rw [List.length_map]; exact h1), Option.getD_some, List.getElem_map] at e1
    have e2 : before (ls.lines.map Line.num) (i + 1) + before ((ls.lines.map Line.num).drop (i + 1)) ((ls.lines.map Line.num).drop (i + 1)).length =
        (ls.lines.map Line.num).sum := by
      unfold before
      rw [List.take_length, List.sum_take_add_sum_drop]
    have e3 : 0 ≤ before ((ls.lines.map Line.num).drop (i + 1)) ((ls.lines.map Line.num).drop (i + 1)).length := by
      unfold before
      apply List.sum_nonneg
      intro x hx
      have := hnum x (List.mem_of_mem_drop (List.mem_of_mem_take hx)); omega
    have e4 : before (ls.lines.map Line.num) i = (List.take i (ls.lines.map Line.num)).sum := rfl
    omega

/-! ### A direction of cascade 2 (64 directions) in a grid of 64 by 64 -/

/-- The grid. -/
def grid : Box := ⟨fun _ => 0, fun _ => 64⟩

/-- Direction 47 of the 64 directions of cascade 2, inverted as in source/LineSweepSetup.cpp:58-60. -/
noncomputable def dir47 : Fin 2 → ℝ := fun i => - rayDir2 64 47 i

theorem dir47_eq : dir47 = ![Real.sin (Real.pi / 64), Real.cos (Real.pi / 64)] := by
  have e : rayAngle 64 47 = Real.pi / 64 + Real.pi / 2 + Real.pi - Real.pi / 32 := by unfold rayAngle; push_cast; ring
  unfold dir47 rayDir2
  funext i
  have e2 : rayAngle 64 47 = (Real.pi / 2 - Real.pi / 64) + Real.pi := by rw [e]; ring
  fin_cases i
  · simp only [Fin.zero_eta, Matrix.cons_val_zero]
    rw [e2, Real.cos_add_pi, Real.cos_pi_div_two_sub, neg_neg]
  · simp only [Fin.mk_one, Matrix.cons_val_one, Matrix.cons_val_zero]
    rw [e2, Real.sin_add_pi, Real.sin_pi_div_two_sub, neg_neg]

theorem dir_bounds : 0.0489 < Real.sin (Real.pi / 64) ∧ Real.sin (Real.pi / 64) < 0.0493 ∧ 0.998 < Real.cos (Real.pi / 64) ∧ Real.cos (Real.pi / 64) ≤ 1 := by
  have p1 := Real.pi_gt_d2
  have p2 := Real.pi_lt_d2
  have x0 : 0 < Real.pi / 64 := by positivity
  have x1 : Real.pi / 64 < 0.0493 := by linarith
  have x2 : 0.049 < Real.pi / 64 := by linarith
  have s1 := Real.sin_lt x0
  have s2 := Real.sin_gt_sub_cube x0
  have c1 := Real.one_sub_sq_div_two_le_cos (x := Real.pi / 64)
  have q : (Real.pi / 64) ^ 2 < 0.0025 := by nlinarith
  have q3 : (Real.pi / 64) ^ 3 < 0.000125 := by
    have : (Real.pi / 64) ^ 3 = (Real.pi / 64) ^ 2 * (Real.pi / 64) := by ring
    rw [this]; nlinarith [sq_nonneg (Real.pi / 64)]
  refine ⟨by linarith, by linarith, by linarith, Real.cos_le_one _⟩

theorem dir_geo : Geometry grid dir47 4 := by
  rw [dir47_eq]
  obtain ⟨b1, b2, b3, b4⟩ := dir_bounds
  refine ⟨by simp, ?_, by intro i; simp [grid]; norm_num, by intro i; simp [grid]; norm_num, by norm_num⟩
  intro i; fin_cases i
  · simp only [Fin.zero_eta, Matrix.cons_val_zero]; intro h; linarith
  · simp only [Fin.mk_one, Matrix.cons_val_one, Matrix.cons_val_zero]; intro h; linarith

theorem dir_axis : primaryAxis dir47 = 0 := by
  rw [dir47_eq]
  obtain ⟨b1, b2, b3, b4⟩ := dir_bounds
  unfold primaryAxis
  rw [if_pos]
  right
  simp only [Matrix.cons_val_one, Matrix.cons_val_zero]
  rw [abs_div, abs_of_pos (by linarith), abs_of_pos (by linarith), le_div_iff₀ (by linarith)]
  linarith

theorem dir_origin : lineOrigin dir47 grid = ![1 / 2, 0] := by
  obtain ⟨b1, b2, b3, b4⟩ := dir_bounds
  funext i
  have hp := origin_p dir_geo
  have hs := origin_s dir_geo
  rw [dir_axis] at hp hs
  fin_cases i
  · rw [if_pos (by rw [dir47_eq]; simp only [Matrix.cons_val_zero]; linarith)] at hp
    simpa [grid] using hp
  · have : other 0 = 1 := by decide
    rw [this, if_pos (by rw [dir47_eq]; simp only [Matrix.cons_val_one, Matrix.cons_val_zero]; linarith)] at hs
    simpa [grid] using hs

/-- The first line of the set starts at (1/2, 0), the second one is there too. -/
theorem dir_lines (ls : LineSet) (h : IsSet grid dir47 4 ls) : 2 ≤ ls.lines.length ∧ ∃ l0, ls.lines[0]? = some l0 ∧ l0.o = ![1 / 2, 0] := by
  obtain ⟨b1, b2, b3, b4⟩ := dir_bounds
  obtain ⟨n, a, ha, hk, rfl⟩ := set_form dir_geo ls h
  have hsh : ∀ k : ℤ, shifted (lineOrigin dir47 grid) (primaryAxis dir47) 4 k = ![1 / 2 + (k : ℝ) * 4, 0] := by
    intro k
    rw [dir_origin, dir_axis]
    funext i
    fin_cases i <;> simp [shifted]
  have hpos0 : 0 < dir47 0 := by rw [dir47_eq]; simp only [Matrix.cons_val_zero]; linarith
  have hpos1 : 0 < dir47 1 := by rw [dir47_eq]; simp only [Matrix.cons_val_one, Matrix.cons_val_zero]; linarith
  have d0 : dir47 0 = Real.sin (Real.pi / 64) := by rw [dir47_eq]; rfl
  have d1 : dir47 1 = Real.cos (Real.pi / 64) := by rw [dir47_eq]; rfl
  have hent : ∀ o i, ent grid o dir47 i = (0 - o i) / dir47 i := by
    intro o i
    fin_cases i
    · simp only [Fin.zero_eta]; unfold ent; rw [if_pos hpos0]; simp [grid]
    · simp only [Fin.mk_one]; unfold ent; rw [if_pos hpos1]; simp [grid]
  have hext : ∀ o i, ext grid o dir47 i = (64 - o i) / dir47 i := by
    intro o i
    fin_cases i
    · simp only [Fin.zero_eta]; unfold ext; rw [if_pos hpos0]; simp [grid]
    · simp only [Fin.mk_one]; unfold ext; rw [if_pos hpos1]; simp [grid]
  have c1 : (4 : ℝ) / 2 ≤ chord grid dir47 4 1 := by
    have up : (60 : ℝ) ≤ T1 grid (shifted (lineOrigin dir47 grid) (primaryAxis dir47) 4 1) dir47 := by
      unfold T1
      refine le_min (le_min (by norm_num) ?_) ?_
      · rw [hext, hsh, d0, le_div_iff₀ (by linarith)]
        simp only [Matrix.cons_val_zero]; push_cast; linarith
      · rw [hext, hsh, d1, le_div_iff₀ (by linarith)]
        simp only [Matrix.cons_val_one, Matrix.cons_val_zero]; linarith
    have dn : T0 grid (shifted (lineOrigin dir47 grid) (primaryAxis dir47) 4 1) dir47 ≤ 0 := by
      unfold T0
      refine max_le (max_le (le_refl _) ?_) ?_
      · rw [hent, hsh, d0]
        apply div_nonpos_of_nonpos_of_nonneg _ (by linarith)
        simp only [Matrix.cons_val_zero]; push_cast; linarith
      · rw [hent, hsh, d1]
        apply div_nonpos_of_nonpos_of_nonneg _ (by linarith)
        simp only [Matrix.cons_val_one, Matrix.cons_val_zero]; linarith
    unfold chord
    linarith
  have cm : ¬ ((4 : ℝ) / 2 ≤ chord grid dir47 4 (-1)) := by
    unfold chord
    have h1 := T1_le_ext grid (shifted (lineOrigin dir47 grid) (primaryAxis dir47) 4 (-1)) dir47 1
    have h0 := ent_le_T0 grid (shifted (lineOrigin dir47 grid) (primaryAxis dir47) 4 (-1)) dir47 0
    rw [hext, hsh, d1] at h1
    rw [hent, hsh, d0] at h0
    simp only [Matrix.cons_val_one, Matrix.cons_val_zero] at h0 h1
    rw [hsh]
    have e1 : (64 - 0 : ℝ) / Real.cos (Real.pi / 64) ≤ 65 := by rw [div_le_iff₀ (by linarith)]; linarith
    have e2 : (66 : ℝ) ≤ (0 - (1 / 2 + ((-1 : ℤ) : ℝ) * 4)) / Real.sin (Real.pi / 64) := by
      rw [le_div_iff₀ (by linarith)]; push_cast; linarith
    linarith
  have a0 : a = 0 := by
    by_contra hc
    exact cm ((hk (-1)).2 (by omega))
  have n2 : 2 ≤ n := by
    have := (hk 1).1 c1
    omega
  refine ⟨by simpa using n2, famLine grid dir47 4 0, ?_, ?_⟩
  · simp only
    rw [List.getElem?_map, List.getElem?_range (by omega)]; simp [a0]
  · rw [(famLine_ok dir_geo 0 ((hk 0).2 (by omega))).o_eq, hsh]; simp

/-- Probe (0, 15) of cascade 2, at (2, 62). -/
noncomputable def probeLow : Fin 2 → ℝ := ![2, 62]

theorem C85_negative_probe : probeLow 0 = (probePos 0 2 : ℚ) ∧ probeLow 1 = (probePos 15 2 : ℚ) ∧ InBox grid probeLow := by
  refine ⟨by simp [probeLow, probePos]; norm_num, by simp [probeLow, probePos]; norm_num, ?_⟩
  intro i; fin_cases i <;> simp [probeLow, grid] <;> norm_num

/-- Refuted: radiance and optical depth interpolated between non-negative samples are not negative. For a probe before the
first line the weights are 1.39 and -0.39: the position is truncated towards zero where the one along the line is rounded
down. -/
theorem C85_negative_refuted : ∃ (ls : LineSet) (start : List ℤ) (st : List (ℝ × ℝ)) (r : ℝ × ℝ), IsSet grid dir47 4 ls ∧ Stored ls start st ∧
    (∀ x ∈ st, 0 ≤ x.1 ∧ 0 ≤ x.2 ∧ x.2 ≤ 1) ∧ interpAt ls start st 6 probeLow = .ok r ∧ r.1 < 0 ∧ tauOf r.2 < 0 := by
  obtain ⟨b1, b2, b3, b4⟩ := dir_bounds
  obtain ⟨ls, h⟩ := exists_set dir_geo
  obtain ⟨hlen, l0, hl0, ho0⟩ := dir_lines ls h
  have hin : InBox grid probeLow := C85_negative_probe.2.2
  obtain ⟨l0', hl0', ho, hsm, hall⟩ := grid_small dir_geo ls h probeLow hin 6 (by norm_num) (by norm_num)
  rw [hl0] at hl0'
  injection hl0' with hl0'
  subst hl0'
  have hnum : ∀ i (hi : i < ls.lines.length), 1 ≤ ls.lines[i].num := fun i hi => (hall i hi).1
  obtain ⟨N, hN⟩ : ∃ N : ℕ, (N : ℤ) = (ls.lines[0]'(by omega)).num :=
    ⟨(ls.lines[0]'(by omega)).num.toNat, Int.toNat_of_nonneg (by have := hnum 0 (by omega); omega)⟩
  obtain ⟨S, hS⟩ : ∃ S : ℤ, S = (ls.lines.map Line.num).sum := ⟨_, rfl⟩
  obtain ⟨stored0, hst⟩ := stored_alone dir_geo ls h (List.replicate N (0, 1) ++ List.replicate (S - N).toNat (1, 0)) (by
    have e : S = before (ls.lines.map Line.num) 1 + ((ls.lines.map Line.num).drop 1).sum := by
      rw [hS]; unfold before; rw [List.sum_take_add_sum_drop]
    have e1 : before (ls.lines.map Line.num) 1 = N := by
      have := before_succ (ls.lines.map Line.num) 0
      rw [List.getD, List.getElem?_eq_getElem (by rw [List.length_map]; omega), Option.getD_some, List.getElem_map] at this
      rw [hN]; simpa [before] using this
    have e2 : 0 ≤ ((ls.lines.map Line.num).drop 1).sum := by
      apply List.sum_nonneg
      intro x hx
      obtain ⟨l, hl, rfl⟩ := List.mem_map.1 (List.mem_of_mem_drop hx)
      obtain ⟨i, hi, rfl⟩ := List.getElem_of_mem hl
      have := hnum i hi; omega
    rw [List.length_append, List.length_replicate, List.length_replicate, ← hS]
    push_cast
    omega)
  obtain ⟨st, hstd⟩ : ∃ st : List (ℝ × ℝ), st = List.replicate N (0, 1) ++ List.replicate (S - N).toNat (1, 0) := ⟨_, rfl⟩
  rw [← hstd] at stored0
  -- where the probe is
  have hax : ls.axis = 0 ∧ ls.d = dir47 ∧ ls.step = 4 ∧ ls.origin = ![1 / 2, 0] := by
    obtain ⟨n, a, ha, hk, rfl⟩ := set_form dir_geo ls h
    exact ⟨dir_axis, rfl, rfl, dir_origin⟩
  obtain ⟨a1, a2, a3, a4⟩ := hax
  have hg : (gridPos ls l0.o probeLow).1 = (3 / 2 - 62 * (Real.sin (Real.pi / 64) / Real.cos (Real.pi / 64))) / 4 := by
    unfold gridPos
    simp only [a1, a2, a3, a4, ho0, dir47_eq, probeLow]
    norm_num
    ring
  have ht1 : Real.sin (Real.pi / 64) / Real.cos (Real.pi / 64) < 0.0494 := by rw [div_lt_iff₀ (by linarith)]; linarith
  have ht2 : 0.0489 < Real.sin (Real.pi / 64) / Real.cos (Real.pi / 64) := by rw [lt_div_iff₀ (by linarith)]; nlinarith
  have g1 : (gridPos ls l0.o probeLow).1 < -0.3 := by rw [hg]; linarith
  have g2 : -1 < (gridPos ls l0.o probeLow).1 := by rw [hg]; linarith
  have htr := trunc_small_neg _ (by linarith) g2
  obtain ⟨li, i1, i2, c1, c2, x1, y1, x2, y2, w, v1, v2, e1, e2, e3, hw, hv1, hv2, m1, m2, hr⟩ :=
    interp_ok ls (storageStart [ls.lines.map Line.num]).1 st 6 probeLow l0 hl0 stored0.len
      (fun i hi => ⟨(hall i hi).1, stored0.low _ (List.getElem_mem _), stored0.high i hi (by rw [stored0.len]; exact hi)⟩) ⟨0, htr⟩ (fun i hi => (hall i hi).2)
  have hli : li = 0 := by rw [htr] at e1; injection e1 with e1; exact e1.symm
  have hi1 : i1 = 0 := by omega
  have hi2 : i2 = 1 := by omega
  subst hi1 hi2
  -- what is stored
  have low : ∀ (k : ℤ) (x : ℝ × ℝ), 0 ≤ k → k < N → st[k.toNat]? = some x → x = (0, 1) := by
    intro k x h0 h1 hx
    rw [hstd, List.getElem?_append_left (by rw [List.length_replicate]; omega), List.getElem?_replicate, if_pos (by omega)] at hx
    injection hx with hx; exact hx.symm
  have high : ∀ (k : ℤ) (x : ℝ × ℝ), (N : ℤ) ≤ k → st[k.toNat]? = some x → x = (1, 0) := by
    intro k x h0 hx
    rw [hstd, List.getElem?_append_right (by rw [List.length_replicate]; omega)] at hx
    have := List.mem_of_getElem? hx
    exact (List.mem_replicate.1 this).2
  have st0 : (storageStart [ls.lines.map Line.num]).1[0]'(by rw [stored0.len]; omega) = 0 := by rw [hst]; simp [before]
  have st1 : (storageStart [ls.lines.map Line.num]).1[1]'(by rw [stored0.len]; omega) = N := by
    rw [hst]
    have := before_succ (ls.lines.map Line.num) 0
    rw [List.getD, List.getElem?_eq_getElem (by rw [List.length_map]; omega), Option.getD_some, List.getElem_map] at this
    rw [hN]; simpa [before] using this
  obtain ⟨_, mx1, my1⟩ := m1
  obtain ⟨_, mx2, my2⟩ := m2
  rw [st0] at mx1 my1
  rw [st1] at mx2 my2
  have n0 := hnum 0 (by omega)
  have n1 := hnum 1 (by omega)
  have X1 := low _ x1 (by omega) (by omega) mx1
  have Y1 := low _ y1 (by omega) (by omega) my1
  have X2 := high _ x2 (by omega) mx2
  have Y2 := high _ y2 (by omega) my2
  have w1 : 1.3 < w := by rw [hw, hli]; push_cast; linarith
  refine ⟨ls, _, st, _, h, stored0, ?_, hr, ?_, ?_⟩
  · intro x hx
    rw [hstd] at hx
    rcases List.mem_append.1 hx with hx | hx
    · rw [(List.mem_replicate.1 hx).2]; norm_num
    · rw [(List.mem_replicate.1 hx).2]; norm_num
  · simp only [X1, Y1, X2, Y2]; linarith
  · simp only [X1, Y1, X2, Y2]
    unfold tauOf
    apply lt_of_le_of_lt (min_le_left _ _)
    have : 0 < Real.log (max (w * (v1 * 1 + (1 - v1) * 1) + (1 - w) * (v2 * 0 + (1 - v2) * 0)) 1e-15) := by
      apply Real.log_pos
      apply lt_of_lt_of_le _ (le_max_left _ _)
      linarith
    linarith

/-- Probe (8, 0) of cascade 2, at (34, 2). -/
noncomputable def probeEdge : Fin 2 → ℝ := ![34, 2]

/-- Refuted: a probe only gets what lies in its interval. Behind the probe at (34, 2) nothing of the grid is 6 voxels or more
away, so its interval, which begins at 6, is outside the grid; it still gets the first sample of the lines (half of the
radiance absorbed, when every sample says so). -/
theorem C85_edge_refuted : probeEdge 0 = (probePos 8 2 : ℚ) ∧ probeEdge 1 = (probePos 0 2 : ℚ) ∧
    (∀ s : ℝ, 6 ≤ s → ¬ InBox grid (along probeEdge dir47 (-s))) ∧
    ∃ (ls : LineSet) (start : List ℤ) (st : List (ℝ × ℝ)), IsSet grid dir47 4 ls ∧ Stored ls start st ∧ (∀ x ∈ st, x = (1, 1 / 2)) ∧
      interpAt ls start st 6 probeEdge = .ok (1, 1 / 2) := by
  obtain ⟨b1, b2, b3, b4⟩ := dir_bounds
  refine ⟨by simp [probeEdge, probePos]; norm_num, by simp [probeEdge, probePos]; norm_num, ?_, ?_⟩
  · intro s hs hin
    have := (hin 1).1
    rw [dir47_eq] at this
    simp [along, probeEdge, grid] at this
    nlinarith
  · obtain ⟨ls, h⟩ := exists_set dir_geo
    have hin : InBox grid probeEdge := by intro i; fin_cases i <;> simp [probeEdge, grid] <;> norm_num
    have hS : 0 ≤ (ls.lines.map Line.num).sum := by
      obtain ⟨l0, hl0, ho, hsm, hall⟩ := grid_small dir_geo ls h probeEdge hin 6 (by norm_num) (by norm_num)
      apply List.sum_nonneg
      intro x hx
      obtain ⟨l, hl, rfl⟩ := List.mem_map.1 hx
      obtain ⟨i, hi, rfl⟩ := List.getElem_of_mem hl
      have := (hall i hi).1; omega
    obtain ⟨stored0, _⟩ := stored_alone dir_geo ls h (List.replicate (ls.lines.map Line.num).sum.toNat (1, 1 / 2)) (by
      rw [List.length_replicate]; omega)
    obtain ⟨r, hr, hc, _⟩ := C85_interp_partial dir_geo ls h _ _ stored0 probeEdge hin 6 (by norm_num) (by norm_num)
    have hall : ∀ x ∈ List.replicate (ls.lines.map Line.num).sum.toNat ((1 : ℝ), (1 / 2 : ℝ)), x = (1, 1 / 2) := fun x hx => (List.mem_replicate.1 hx).2
    refine ⟨ls, _, _, h, stored0, hall, ?_⟩
    rw [hr, hc _ hall]

/-- The step condition holds in every cascade from 2 on but the last one, when the length of the intervals of cascade 0 is a
whole number of voxels (branching factor 2, no switch). -/
theorem C85_steps (c : RcCfg) (l : LenCfg) (hc : c.cbf = 2) (hs : c.switch = 0) (k : ℕ) (hl : l.len0 = k) (num n : ℕ) (hn : 2 ≤ n) (hlast : n ≠ num) :
    lineStep c l num n = .ok (2 ^ n) := by
  obtain ⟨m, rfl⟩ : ∃ m, n = m + 2 := ⟨n - 2, by omega⟩
  have hv : c.vary = false := by simp [RcCfg.vary, hs]
  unfold lineStep intervalLength numFlatRaysExponent
  simp only [hv, hc, hl]
  have e : ((k : ℚ) * 2 ^ (2 * (m + 2)) - (k : ℚ) * 2 ^ (2 * (m + 1))) / 2 ^ (m + 2) = ((3 * k * 2 ^ m : ℕ) : ℚ) := by
    push_cast
    rw [div_eq_iff (by positivity)]
    rw [show 2 * (m + 2) = (m + 2) + (m + 2) by ring, show 2 * (m + 1) = m + (m + 2) by ring, pow_add, pow_add _ m (m + 2), pow_add _ m 2]
    ring
  have hne : ¬ (l.toInfty = true ∧ m + 2 = num) := fun hc => hlast hc.2
  simp only [if_neg hne, show m + 2 ≠ 0 by omega, show m + 2 > 0 by omega, if_true, if_false, show m + 2 - 1 = m + 1 by omega, Bool.false_eq_true]
  rw [e, if_neg]
  simp only [ne_eq, not_not]
  rw [Int.floor_natCast]
  norm_cast

/-- Refuted: line sweeping runs with the default constants. Its first cascade, 2, spans 6 to 24 voxels (or 6 to 20000), four
and a half (4998 and a half) steps of 4: setting up throws, whatever the number of cascades. -/
theorem C85_throws (c : RcCfg) (l : LenCfg) (hc : c.cbf = 2) (hs : c.switch = 0) (h0 : l.len0 = 3 / 2) (hd : l.maxDist = 20000) (num : ℕ) :
    lineStep c l num 2 = .throws := by
  have hv : c.vary = false := by simp [RcCfg.vary, hs]
  unfold lineStep intervalLength numFlatRaysExponent
  simp only [hv, hc, h0, hd]
  by_cases h : l.toInfty = true ∧ 2 = num
  · simp only [if_pos h]
    rw [if_pos]
    norm_num
  · simp only [if_neg h]
    rw [if_pos]
    norm_num

end DexRT.LineSweep
