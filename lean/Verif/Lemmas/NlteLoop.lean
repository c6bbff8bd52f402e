import Verif.Lemmas.NlteIter
/-! Lemmas for C89: the loop. -/
namespace DexRT.Nlte
open DexRT DexRT.Fs DexRT.AtmosFile DexRT.Dir DexRT.Given DexRT.Emis DexRT.LteRun DexRT.RadGamma Classical

variable {q : Setup} {k nx nz : Nat} {a : Cond}

theorem loop_ok (hf : Fits q.r.s k nx nz) (hq : NlteReady q) (hw : q.r.haveH = false → Warm k nx nz a)
    (o : Nat → IterOrder) (ho : ∀ i, IterOrders q k nx nz (o i)) : ∀ (fuel i : Nat) (last : Iterated) (ps : Nat → Coord2 → Emis.Pops) (Js : Nat → Arr2 ℝ) (ds : Nat → ℝ),
    i + fuel = q.maxIter → Trace q k nx nz a i ps Js ds → Holds q.r k nx nz a (ps i) last.st → (0 < i → last.J = Js (i - 1) ∧ last.change = ds (i - 1)) →
    (loop2 q o fuel i last = .throws ∧ ∃ n ps Js ds, Trace q k nx nz a n ps Js ds ∧ n < q.maxIter ∧ ¬ Solvable q k nx nz a (decide (n < q.initial)) (ps n)) ∨
    ∃ n it ps Js ds, loop2 q o fuel i last = .ok (n, it) ∧ Trace q k nx nz a n ps Js ds ∧ Holds q.r k nx nz a (ps n) it.st ∧
      (0 < n → it.J = Js (n - 1) ∧ it.change = ds (n - 1)) ∧ (n = q.maxIter ∨ (q.initial < n ∧ ds (n - 1) ≤ q.tol)) := by
  intro fuel
  induction fuel with
  | zero =>
    intro i last ps Js ds hi hT hH hl
    exact Or.inr ⟨i, last, ps, Js, ds, rfl, hT, hH, hl, Or.inl (by omega)⟩
  | succ fuel ih =>
    intro i last ps Js ds hi hT hH hl
    rw [loop2]
    by_cases hc : last.change > q.tol ∨ i < q.initial + 1
    · rw [if_pos hc]
      rcases iter_ok hf hq hH hw (decide (i < q.initial)) (o i) (ho i) with ⟨e1, e2⟩ | ⟨it, pf', e1, e2, e3, e4⟩
      · exact Or.inl ⟨by rw [e1]; rfl, i, ps, Js, ds, hT, by omega, e2⟩
      · rw [e1, Outcome.ok_bind]
        refine ih (i + 1) it (Function.update ps (i + 1) pf') (Function.update Js i it.J) (Function.update ds i it.change) (by omega) ?_ ?_ ?_
        · refine ⟨by rw [Function.update_of_ne (by omega)]; exact hT.start, fun j hj => ?_, fun j hj h0 => ?_, by omega⟩
          · by_cases hji : j = i
            · subst hji
              rw [Function.update_of_ne (by omega), Function.update_self, Function.update_self, Function.update_self]
              exact ⟨e3, e4⟩
            · rw [Function.update_of_ne (by omega), Function.update_of_ne (by omega), Function.update_of_ne (by omega), Function.update_of_ne (by omega)]
              exact hT.step j (by omega)
          · rw [Function.update_of_ne (by omega)]
            by_cases hji : j + 1 = i
            · have := hl (by omega)
              rw [← hji] at this
              simp only [Nat.add_sub_cancel] at this
              rw [← this.2]
              rcases hc with hc | hc
              · exact hc
              · omega
            · exact hT.goesOn j (by omega) h0
        · rw [Function.update_self]; exact e2
        · intro _
          rw [Nat.add_sub_cancel, Function.update_self, Function.update_self]
          exact ⟨rfl, rfl⟩
    · rw [if_neg hc]
      simp only [not_or, not_lt] at hc
      refine Or.inr ⟨i, last, ps, Js, ds, rfl, hT, hH, hl, Or.inr ⟨by omega, ?_⟩⟩
      rw [← (hl (by omega)).2]
      exact hc.1

end DexRT.Nlte
