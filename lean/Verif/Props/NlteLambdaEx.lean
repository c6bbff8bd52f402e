import Verif.Props.NlteLambda
import Verif.Props.NlteRunEx
/-! Non-vacuity of C90 and of the determinism of C89: three Lambda iterations on 32 by 32 cells of moving gas. -/
namespace DexRT.Nlte
open DexRT DexRT.Fs DexRT.AtmosFile DexRT.Dir DexRT.Given DexRT.Emis DexRT.LteRun DexRT.RadGamma Classical

/-- The run of the example of C89 with three Lambda iterations. -/
noncomputable def exLambda : Setup := { exSetup with maxIter := 3, initial := 3 }

theorem exLambdaReady : NlteReady exLambda := ⟨exNlteReady.ready, exNlteReady.consistent, exNlteReady.physical, exNlteReady.red, exNlteReady.colls⟩

theorem exPhysical : PhysicalRun exLambda 4 2 2 exCond where
  consts := by simp [exLambda, exSetup, exRun]
  collConsts := by simp [exLambda, exSetup]
  scale := zero_le_one
  cells := (exThermal 0 (by decide)).cells
  atoms := (exThermal 0 (by decide)).atoms
  wave := fun l hl => by
    have hl' : l ∈ [1, 2, 3, 4, 5, 6, 7, 8, 9, (10 : ℝ)] := hl
    simp only [List.mem_cons, List.not_mem_nil, or_false] at hl'
    rcases hl' with rfl | rfl | rfl | rfl | rfl | rfl | rfl | rfl | rfl | rfl <;> norm_num
  bins := fun b hb => by
    have hb' : b ∈ [1, 1, 1, 1, 1, 1, 1, 1, 1, (1 : ℝ)] := hb
    simp at hb'
    rw [hb']; exact zero_le_one
  lines := fun l hl => by rw [List.mem_singleton.1 hl]; norm_num
  sigma := (exThermal 0 (by decide)).sigma
  phi := fun _ _ => zero_le_one
  weights := fun x hx => by
    have hx' : x ∈ [1 / 4, 1 / 4, 1 / 4, (1 / 4 : ℝ)] := hx
    simp at hx'
    rw [hx']; norm_num
  outside := fun _ _ _ => le_rfl
  tables := by
    rintro (_ | ia) x hx c hc r hr
    · have hc' : c ∈ exColls := hc
      simp only [exColls, List.mem_cons, List.not_mem_nil, or_false] at hc'
      rcases hc' with rfl | rfl | rfl <;> simp at hr
      · rcases hr with rfl | rfl <;> norm_num
      · rw [hr]; norm_num
      · rw [hr]; norm_num
    · simp [exLambda, exSetup, exRun, exData] at hx
  connected := by
    rintro (_ | ia) x hx i j hi hj
    · obtain rfl : exAtom = x := Option.some.inj hx
      have j01 : Joined exColls 0 1 := ⟨⟨.CE, 0, 1, [1, 2], [1, 3]⟩, by simp [exColls], trivial, by simp, Or.inl ⟨rfl, rfl⟩⟩
      have j10 : Joined exColls 1 0 := ⟨⟨.CE, 0, 1, [1, 2], [1, 3]⟩, by simp [exColls], trivial, by simp, Or.inr ⟨rfl, rfl⟩⟩
      have j02 : Joined exColls 0 2 := ⟨⟨.CI, 0, 2, [1], [1]⟩, by simp [exColls], trivial, by simp, Or.inl ⟨rfl, rfl⟩⟩
      have j20 : Joined exColls 2 0 := ⟨⟨.CI, 0, 2, [1], [1]⟩, by simp [exColls], trivial, by simp, Or.inr ⟨rfl, rfl⟩⟩
      have to0 : ∀ i, i < 3 → Relation.ReflTransGen (Joined exColls) i 0 := by
        intro i hi
        rcases (by omega : i = 0 ∨ i = 1 ∨ i = 2) with rfl | rfl | rfl
        · exact .refl
        · exact .single j10
        · exact .single j20
      have of0 : ∀ i, i < 3 → Relation.ReflTransGen (Joined exColls) 0 i := by
        intro i hi
        rcases (by omega : i = 0 ∨ i = 1 ∨ i = 2) with rfl | rfl | rfl
        · exact .refl
        · exact .single j01
        · exact .single j02
      exact (to0 i hi).trans (of0 j hj)
    · simp [exLambda, exSetup, exRun, exData] at hx

theorem exSolvable : ∀ n ps Js ds, Trace exLambda 4 2 2 exCond n ps Js ds → n < exLambda.maxIter → Solvable exLambda 4 2 2 exCond (decide (n < exLambda.initial)) (ps n) := by
  intro n ps Js ds ht hn
  have hn' : n < exLambda.initial := hn
  rw [decide_eq_true hn']
  exact C90_solvable exRunFits exLambdaReady exPhysical _ fun c hc ia x hx l hl => (trace_positive exRunFits exLambdaReady exPhysical ht n le_rfl hn'.le c hc ia x hx l hl).le

/-- C90 and C89 apply to it: it makes three iterations, whatever the orders, leaves positive populations and J is not negative; and every
other order of kernels, with batches of four wavelengths, gives the same J. -/
example : ∃ o0 o0' o o', StartOrders exRun 4 2 2 o0 ∧ StartOrders (exLambda.rearranged 4 true 4).r 4 2 2 o0' ∧ (∀ i, IterOrders exLambda 4 2 2 (o i)) ∧
    (∀ i, IterOrders (exLambda.rearranged 4 true 4) 4 2 2 (o' i)) ∧
    ∃ it it', runNlte2 exLambda id LteRun.exFile o0 o = .ok (3, it) ∧ runNlte2 (exLambda.rearranged 4 true 4) id LteRun.exFile o0' o' = .ok (3, it') ∧
      0 ≤ it.J.get 3 5 ∧ it.J.get 3 5 = it'.J.get 3 5 := by
  obtain ⟨o0, ho0⟩ := exStart exRun 4 2 2
  obtain ⟨o0', ho0'⟩ := exStart (exLambda.rearranged 4 true 4).r 4 2 2
  obtain ⟨o, ho1⟩ := exIterOrders exLambda 4 2 2
  obtain ⟨o', ho1'⟩ := exIterOrders (exLambda.rearranged 4 true 4) 4 2 2
  have ho : ∀ _ : Nat, IterOrders exLambda 4 2 2 o := fun _ => ho1
  have ho' : ∀ _ : Nat, IterOrders (exLambda.rearranged 4 true 4) 4 2 2 o' := fun _ => ho1'
  have hf' : Fits (exLambda.rearranged 4 true 4).r.s 4 2 2 :=
    { exRunFits with batch := by decide, levels := exRunFits.levels, levelRange := exRunFits.levelRange, length := exRunFits.length, dirs := exRunFits.dirs, size := exRunFits.size, valid := exRunFits.valid }
  have hr' : Ready (exLambda.rearranged 4 true 4).r :=
    { exReady with
      wellFormed := exReady.wellFormed
      noMips := exReady.noMips
      slots := fun la _ _ => le_trans (Finset.card_filter_le _ _) (by
        show (Finset.range 1).card ≤ 4
        decide)
      continua := fun la _ h => Or.inl ⟨_, List.mem_singleton.2 rfl, Nat.zero_le _, h⟩ }
  have hq' : NlteReady (exLambda.rearranged 4 true 4) := ⟨hr', exNlteReady.consistent, exNlteReady.physical, exNlteReady.red, exNlteReady.colls⟩
  refine ⟨o0, o0', fun _ => o, fun _ => o', ho0, ho0', ho, ho', ?_⟩
  have hH : exLambda.r.haveH = false → Warm 4 2 2 exCond := fun hh => absurd hh (by simp [exLambda, exSetup, exRun])
  have hp' : PhysicalRun (exLambda.rearranged 4 true 4) 4 2 2 exCond :=
    ⟨exPhysical.consts, exPhysical.collConsts, exPhysical.scale, exPhysical.cells, exPhysical.atoms, exPhysical.wave, exPhysical.bins, exPhysical.lines, exPhysical.sigma, exPhysical.phi,
      exPhysical.weights, exPhysical.outside, exPhysical.tables, exPhysical.connected⟩
  obtain ⟨it, pf, e, -, -, hJ⟩ := C90_lambda id LteRun.exFile exRunFits exLambdaReady exPhysical exDescribes hH o0 ho0 (fun _ => o) ho le_rfl (by decide)
  obtain ⟨it', pf', e', -⟩ := C90_lambda id LteRun.exFile hf' hq' hp' exDescribes hH o0' ho0' (fun _ => o') ho' le_rfl (by decide)
  have hd := C89_deterministic_partial id LteRun.exFile 4 true 4 exRunFits exLambdaReady hf' hq' exDescribes hH o0 o0' ho0 ho0' (fun _ => o) (fun _ => o') ho ho' exSolvable _ _ it it' e e'
  refine ⟨it, it', e, e', ?_, ?_⟩
  · have := hJ 3 5 0 (by decide) (by decide) (by decide)
    simpa using this
  · have := (hd.2.2 (by decide)).2 3 5 0 (by decide) (by decide) (by decide)
    simpa using this

end DexRT.Nlte
