import Verif.Props.World3
import Verif.Props.WorldRay
/-!
Non-vacuity of C79: default configurations, a medium in which the marches end, and sources as required.
-/
namespace DexRT.Fs
open DexRT DexRT.Dir Classical

/-- A grid with data in every cell, opacity 1 and source function `S`, lit by a boundary that emits `S`. -/
noncomputable def exWorld (dim : DdaDim) (S : ℝ) : World dim :=
  { lvl := fun _ => 1, block := 16, max := fun _ => 16, mip := fun n => n, extraSafe := true, toInfty := true, scale := 1000,
    offset := fun _ => 0, eta := fun _ _ _ _ => S * (1 + 1e-15), chi := fun _ _ _ _ => 1, bc := fun _ _ _ => S }

/-- The 2D default: 16 by 16 cells, three cascades above cascade 0. -/
noncomputable def exReal2 (march : Bool → Nat → ProbeIdx2 → Seg ℝ) : Env2 ℝ :=
  { cfg := ⟨2, 2, 0, 4, .dirByDir⟩, c0 := ⟨16, 16, 1, 8, 4⟩, num := 3, pp := true,
    probes := fun n => { sparse := false, np := { x := probesOn 16 n, z := probesOn 16 n }, active := [] },
    march := march }

/-- The 3D default: 16 by 16 by 16 cells, three cascades above cascade 0. -/
noncomputable def exReal3 (march : Bool → Nat → ProbeIdx3 → Seg ℝ) : Env3 ℝ :=
  { cfg := ⟨.healpix 1, 12, 1, true⟩, c0 := ⟨16, 16, 16, 1, 1⟩, num := 3, pp := true,
    probes := fun n => { sparse := false, np := { x := probesOn 16 n, y := probesOn 16 n, z := probesOn 16 n }, active := [] },
    march := march }

theorem exWorld_dense (dim : DdaDim) (S : ℝ) (n : ℕ) (c : Fin dim.n → ℤ) : 0 ≤ ((exWorld dim S).env n).sampleLevel c := by
  show (0 : ℤ) ≤ min 1 (n : ℤ)
  omega

/-- Every hypothesis of `C79_equilibrium2` (and so of `C79_bounds2_partial`) holds for the default configuration. -/
example (S : ℝ) (hS : 0 ≤ S) : ∃ march, Marches2 (exWorld .two S) (exReal2 march) ⟨⟨3 / 2, true, 20000⟩, fun _ => 1 / 2, 0⟩ 8 ∧
    Probes2Ok (exReal2 march) ∧ (exReal2 march).cfg.Valid ∧ (exReal2 march).cfg.mode ≠ .preaverage ∧
    (exWorld .two S).SourceIn S S ∧ Listed2 (exReal2 march) 0 5 9 := by
  have hd := (C79_dense2 (exReal2 fun _ _ _ => ⟨0, 0, 0⟩) (exWorld .two S) ⟨⟨3 / 2, true, 20000⟩, fun _ => 1 / 2, 0⟩ 8
    (by show (1 : ℤ) ≤ 16; norm_num) (fun n c _ => exWorld_dense .two S n c) (fun n hn => ?_) (fun n hn => ?_)).1
  · obtain ⟨march, hm⟩ := hd
    obtain ⟨h1, h2⟩ := C74_probes_dense2 (exReal2 march) (by simp [exReal2]) (by simp [exReal2, i32Max]) (fun n _ => rfl)
    exact ⟨march, hm, h1, ⟨by simp [exReal2], by simp [exReal2]⟩, by simp [exReal2],
      fun _ _ _ _ => ⟨zero_le_one, le_rfl, le_rfl⟩,
      h2 0 (Nat.zero_le _) 5 9 (by simp [exReal2, probesOn]) (by simp [exReal2, probesOn])⟩
  · have : n < 4 := by have : n ≤ 3 := hn; omega
    interval_cases n <;> decide
  · have : n < 4 := by have : n ≤ 3 := hn; omega
    have key : (intervalLength ⟨2, 2, 0, 4, .dirByDir⟩ ⟨3 / 2, true, 20000⟩ 3 n).2 ≤ 20000 ∧
        0 ≤ (intervalLength ⟨2, 2, 0, 4, .dirByDir⟩ ⟨3 / 2, true, 20000⟩ 3 n).1 := by
      interval_cases n <;> decide +kernel
    have k1 : ((intervalLength ⟨2, 2, 0, 4, .dirByDir⟩ ⟨3 / 2, true, 20000⟩ 3 n).2 : ℝ) ≤ 20000 := by exact_mod_cast key.1
    have k2 : (0 : ℝ) ≤ (intervalLength ⟨2, 2, 0, 4, .dirByDir⟩ ⟨3 / 2, true, 20000⟩ 3 n).1 := by exact_mod_cast key.2
    show ((intervalLength ⟨2, 2, 0, 4, .dirByDir⟩ ⟨3 / 2, true, 20000⟩ 3 n).2 : ℝ) -
      (intervalLength ⟨2, 2, 0, 4, .dirByDir⟩ ⟨3 / 2, true, 20000⟩ 3 n).1 ≤ 1e24
    have : (20000 : ℝ) ≤ 1e24 := by norm_num
    linarith

/-- Every hypothesis of `C79_equilibrium3` holds for the default configuration. -/
example (S : ℝ) (hS : 0 ≤ S) : ∃ march, Marches3 (exWorld .three S) (exReal3 march) ⟨3 / 2, 2, true, 20000, 20000⟩ 5 ∧
    Probes3Ok (exReal3 march) ∧ NoOverflow3 (exReal3 march) ∧ BuffersFit3 (exReal3 march) (bufferSizes false
      (fun n => cascadeEntries3 (cascadeSize3 (exReal3 march).cfg.branch (exReal3 march).c0 n)) 3) ∧
    npix3 (exReal3 march) 0 = 12 * 4 ^ 0 ∧ (exWorld .three S).SourceIn S S := by
  have hd := (C79_dense3 (exReal3 fun _ _ _ => ⟨0, 0, 0⟩) (exWorld .three S) ⟨3 / 2, 2, true, 20000, 20000⟩ 5
    (by show (1 : ℤ) ≤ 16; norm_num) (fun n c _ => exWorld_dense .three S n c) 1 0 rfl (by decide) (by simp [exReal3]) (fun n hn => ?_)).1
  · obtain ⟨march, hm⟩ := hd
    refine ⟨march, hm, ?_, ?_, ?_, rfl, fun _ _ _ _ => ⟨zero_le_one, le_rfl, le_rfl⟩⟩
    · refine (C74_probes_dense3 (exReal3 march) ?_ ?_ (fun n _ => rfl)).1
      · refine ⟨?_, ?_, ?_⟩ <;> simp only [exReal3] <;> omega
      · simp only [exReal3]; omega
    · intro n hn
      have : n < 3 := hn
      interval_cases n <;> simp [exReal3, cascadeComputeSize3, cascadeSize3, azFactor, polarFactor]
    · exact C74_buffers3_partial (exReal3 march) rfl rfl (by simp [exReal3]) (by simp [exReal3]) (by simp [exReal3])
  · have : n < 4 := by have : n ≤ 3 := hn; omega
    have key : (intervalLength3 ⟨3 / 2, 2, true, 20000, 20000⟩ 3 n).2 ≤ 20000 ∧
        0 ≤ (intervalLength3 ⟨3 / 2, 2, true, 20000, 20000⟩ 3 n).1 := by
      interval_cases n <;> decide +kernel
    have k1 : ((intervalLength3 ⟨3 / 2, 2, true, 20000, 20000⟩ 3 n).2 : ℝ) ≤ 20000 := by exact_mod_cast key.1
    have k2 : (0 : ℝ) ≤ (intervalLength3 ⟨3 / 2, 2, true, 20000, 20000⟩ 3 n).1 := by exact_mod_cast key.2
    show ((intervalLength3 ⟨3 / 2, 2, true, 20000, 20000⟩ 3 n).2 : ℝ) - (intervalLength3 ⟨3 / 2, 2, true, 20000, 20000⟩ 3 n).1 ≤ 1e24
    have : (20000 : ℝ) ≤ 1e24 := by norm_num
    linarith

/-- `C79_ray2`, `C79_ray3`: the level is the same everywhere in each cascade, the medium uniform. -/
example (dim : DdaDim) (S : ℝ) (n : ℕ) : (∀ c, ((exWorld dim S).env n).inBounds c → ((exWorld dim S).env n).sampleLevel c = min 1 (n : ℤ)) ∧
    (0 : ℤ) ≤ min 1 (n : ℤ) ∧ (exWorld dim S).toInfty = true ∧
    ∀ la mu m c, (exWorld dim S).chi la mu m c = 1 ∧ (exWorld dim S).eta la mu m c = S * (1 + 1e-15) :=
  ⟨fun _ _ => rfl, by omega, rfl, fun _ _ _ _ => ⟨rfl, rfl⟩⟩

/-- Two worlds that differ in what they emit: the hypotheses of superposition and monotonicity. -/
example : (exWorld .two 1).SameOpacity (exWorld .two 2) ∧
    (∀ la mu m c, (exWorld .two 1).eta la mu m c ≤ (exWorld .two 2).eta la mu m c) ∧
    ∀ la x mu, (exWorld .two 1).bc la x mu ≤ (exWorld .two 2).bc la x mu := by
  refine ⟨rfl, fun _ _ _ _ => ?_, fun _ _ _ => ?_⟩
  · show (1 : ℝ) * (1 + 1e-15) ≤ 2 * (1 + 1e-15); norm_num
  · show (1 : ℝ) ≤ 2; norm_num

end DexRT.Fs
