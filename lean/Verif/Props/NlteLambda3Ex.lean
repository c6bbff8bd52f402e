import Verif.Props.NlteLambda3
import Verif.Props.NlteRun3Ex
import Verif.Props.NlteLambdaEx
/-! Non-vacuity of C94 and of the determinism of C93: three Lambda iterations on 32 by 32 by 32 cells of moving gas. -/
namespace DexRT.Nlte3
open DexRT DexRT.Fs DexRT.AtmosFile DexRT.Dir DexRT.Given3 DexRT.Emis DexRT.Lte3 DexRT.RadGamma Classical

/-- The run of the example of C93 with three Lambda iterations. -/
noncomputable def exLambda : Setup := { exSetup with maxIter := 3, initial := 3 }

theorem exLambdaReady : NlteReady exLambda := ⟨exNlteReady.ready, exNlteReady.consistent, exNlteReady.physical, exNlteReady.red, exNlteReady.colls⟩

theorem exPhysical : PhysicalRun exLambda 3 4 4 4 exCond where
  consts := Nlte.exPhysical.consts
  collConsts := Nlte.exPhysical.collConsts
  scale := zero_le_one
  cells := fun c _ => ⟨one_pos, one_pos, by show (0 : ℝ) < if c.x = 3 then 2 else 1; split <;> norm_num⟩
  atoms := Nlte.exPhysical.atoms
  wave := Nlte.exPhysical.wave
  bins := Nlte.exPhysical.bins
  lines := Nlte.exPhysical.lines
  sigma := Nlte.exPhysical.sigma
  phi := Nlte.exPhysical.phi
  outside := fun _ _ _ => le_rfl
  tables := Nlte.exPhysical.tables
  connected := Nlte.exPhysical.connected

theorem exSolvable : ∀ n ps Js ds, Trace exLambda 3 4 4 4 exCond n ps Js ds → n < exLambda.maxIter → Solvable exLambda 3 4 4 4 exCond (decide (n < exLambda.initial)) (ps n) := by
  intro n ps Js ds ht hn
  have hn' : n < exLambda.initial := hn
  rw [decide_eq_true hn']
  exact C94_solvable Given3.exFits exLambdaReady exPhysical _ fun c hc ia x hx l hl => (trace_positive Given3.exFits exLambdaReady exPhysical ht n le_rfl hn'.le c hc ia x hx l hl).le

/-- C94 and C93 apply to it: it makes three iterations, whatever the orders, leaves positive populations and J is not negative; and every
other order of kernels, with J kept on the device and other line slots, gives the same J. -/
example : ∃ o0 o0' o o', StartOrders (exRun 4) 3 4 4 4 o0 ∧ StartOrders (exLambda.rearranged false 2).r 3 4 4 4 o0' ∧ (∀ i, IterOrders exLambda 3 4 4 4 (o i)) ∧
    (∀ i, IterOrders (exLambda.rearranged false 2) 3 4 4 4 (o' i)) ∧
    ∃ it it', runNlte3 exLambda id Lte3.exFile o0 o = .ok (3, it) ∧ runNlte3 (exLambda.rearranged false 2) id Lte3.exFile o0' o' = .ok (3, it') ∧
      0 ≤ it.J.get 3 5 ∧ it.J.get 3 5 = it'.J.get 3 5 := by
  obtain ⟨o0, ho0⟩ := exStart (exRun 4) 3 4 4 4
  obtain ⟨o0', ho0'⟩ := exStart (exLambda.rearranged false 2).r 3 4 4 4
  obtain ⟨o, ho1⟩ := exIterOrders exLambda 3 4 4 4
  obtain ⟨o', ho1'⟩ := exIterOrders (exLambda.rearranged false 2) 3 4 4 4
  have ho : ∀ _ : Nat, IterOrders exLambda 3 4 4 4 o := fun _ => ho1
  have ho' : ∀ _ : Nat, IterOrders (exLambda.rearranged false 2) 3 4 4 4 o' := fun _ => ho1'
  have hq' : NlteReady (exLambda.rearranged false 2) := ⟨
    { (exReady 2 (by decide)) with
      wellFormed := (exReady 2 (by decide)).wellFormed
      lambda0 := (exReady 2 (by decide)).lambda0
      levels := (exReady 2 (by decide)).levels
      cascades := (exReady 2 (by decide)).cascades
      cutoff := rfl
      hydrogen := (exReady 2 (by decide)).hydrogen
      saha := zero_le_one
      slots := (exReady 2 (by decide)).slots }, exNlteReady.consistent, exNlteReady.physical, exNlteReady.red, exNlteReady.colls⟩
  refine ⟨o0, o0', fun _ => o, fun _ => o', ho0, ho0', ho, ho', ?_⟩
  have hH : exLambda.r.haveH = false → Warm 3 4 4 4 exCond := fun hh => absurd hh (by simp [exLambda, exSetup, exRun])
  have hp' : PhysicalRun (exLambda.rearranged false 2) 3 4 4 4 exCond :=
    ⟨exPhysical.consts, exPhysical.collConsts, exPhysical.scale, exPhysical.cells, exPhysical.atoms, exPhysical.wave, exPhysical.bins, exPhysical.lines, exPhysical.sigma, exPhysical.phi,
      exPhysical.outside, exPhysical.tables, exPhysical.connected⟩
  obtain ⟨it, pf, e, -, -, hJ⟩ := C94_lambda id Lte3.exFile Given3.exFits exLambdaReady exPhysical exDescribes hH o0 ho0 (fun _ => o) ho le_rfl (by decide)
  obtain ⟨it', pf', e', -⟩ := C94_lambda (q := exLambda.rearranged false 2) id Lte3.exFile Given3.exFits hq' hp' exDescribes hH o0' ho0' (fun _ => o') ho' le_rfl (by decide)
  have hd := C93_deterministic_partial id Lte3.exFile false 2 Given3.exFits exLambdaReady Given3.exFits hq' exDescribes hH o0 o0' ho0 ho0' (fun _ => o) (fun _ => o') ho ho' exSolvable _ _ it it' e e'
  refine ⟨it, it', e, e', ?_, ?_⟩
  · have := hJ 3 5 0 0 (by decide) (by decide) (by decide) (by decide)
    simpa using this
  · have := (hd.2.2 (by decide)).2 3 5 0 0 (by decide) (by decide) (by decide) (by decide)
    simpa using this

end DexRT.Nlte3
