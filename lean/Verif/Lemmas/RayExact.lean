import Verif.Lemmas.RayLoop
/-! Lemmas for C87: the stack of cells that a ray crosses solves the transfer equation. -/
namespace DexRT.RayRun
open DexRT DexRT.AtmosFile DexRT.Emis DexRT.Ray DexRT.LteRun Set

/-- one cell, against the direction of the light -/
theorem slab_back (K eta chi : ℝ) (I : ℝ → ℝ) (x y : ℝ) (hxy : x ≤ y) (hchi : 0 < chi) (hc : ContinuousOn I (Icc x y))
    (hd : ∀ s ∈ Ioo x y, SolvesAt (-K) eta chi I s) :
    I x = I y * Real.exp (-(chi * (y - x) * K)) + eta / chi * (1 - Real.exp (-(chi * (y - x) * K))) := by
  have h := transfer_slab (-K) eta chi I x y hxy hchi.ne' hc hd
  have he : Real.exp (-(-K * chi * (y - x))) * Real.exp (-(chi * (y - x) * K)) = 1 := by
    rw [← Real.exp_add, ← Real.exp_zero]; congr 1; ring
  rw [h]
  have h1 : (I x * Real.exp (-(-K * chi * (y - x))) + eta / chi * (1 - Real.exp (-(-K * chi * (y - x))))) * Real.exp (-(chi * (y - x) * K)) =
      I x * (Real.exp (-(-K * chi * (y - x))) * Real.exp (-(chi * (y - x) * K))) +
        eta / chi * (Real.exp (-(chi * (y - x) * K)) - Real.exp (-(-K * chi * (y - x))) * Real.exp (-(chi * (y - x) * K))) := by ring
  rw [h1, he]; ring

theorem tau_slab (K chi : ℝ) (τ : ℝ → ℝ) (x y : ℝ) (hxy : x ≤ y) (hc : ContinuousOn τ (Icc x y))
    (hd : ∀ s ∈ Ioo x y, HasDerivAt τ (K * chi) s) : τ y - τ x = chi * (y - x) * K := by
  have h := const_slab (fun s => τ s - K * chi * s) x y hxy (hc.sub (by fun_prop)) (fun s hs => by
    have h1 := (hd s hs).sub ((hasDerivAt_id s).const_mul (K * chi))
    rw [mul_one, sub_self] at h1
    exact h1)
  linarith

/-- the whole stack -/
theorem stack_solves (K : ℝ) (gas : Coord2 → EO) (hchi : ∀ c, 0 ≤ (gas c).chi) (I τ : ℝ → ℝ) (T : ℝ) : ∀ (s : Dda .two) (l : List (Dda .two)),
    (s :: l).IsChain (fun x y => y.t = x.t + x.dt) → (∀ v ∈ s :: l, 0 ≤ v.dt ∧ v.t + v.dt ≤ max v.t T) → s.t ≤ T →
    (∃ v ∈ s :: l, T ≤ v.t + v.dt) → ContinuousOn I (Icc s.t T) → ContinuousOn τ (Icc s.t T) →
    (∀ v ∈ s :: l, ∀ x ∈ Ioo v.t (v.t + v.dt),
      SolvesAt (-K) (gas ⟨v.coord 0, v.coord 1⟩).eta ((gas ⟨v.coord 0, v.coord 1⟩).chi + 1e-20) I x ∧
      HasDerivAt τ (K * ((gas ⟨v.coord 0, v.coord 1⟩).chi + 1e-20)) x) →
    emergent ((s :: l).map (slabOf K gas)) (I T) = I s.t ∧ thickness ((s :: l).map (slabOf K gas)) = τ T - τ s.t
  | s, l, hch, hb, hsT, hex, hIc, hτc, hd => by
    obtain ⟨b1, b2⟩ := hb s List.mem_cons_self
    rw [max_eq_right hsT] at b2
    have hcp : 0 < (gas ⟨s.coord 0, s.coord 1⟩).chi + 1e-20 := by
      have := hchi ⟨s.coord 0, s.coord 1⟩
      norm_num at this ⊢; linarith
    have e1 := slab_back K (gas ⟨s.coord 0, s.coord 1⟩).eta _ I s.t (s.t + s.dt) (by linarith) hcp (hIc.mono (Icc_subset_Icc le_rfl b2))
      (fun x hx => (hd s List.mem_cons_self x hx).1)
    have e2 := tau_slab K ((gas ⟨s.coord 0, s.coord 1⟩).chi + 1e-20) τ s.t (s.t + s.dt) (by linarith) (hτc.mono (Icc_subset_Icc le_rfl b2))
      (fun x hx => (hd s List.mem_cons_self x hx).2)
    rw [add_sub_cancel_left] at e1 e2
    suffices hh : emergent (l.map (slabOf K gas)) (I T) = I (s.t + s.dt) ∧ thickness (l.map (slabOf K gas)) = τ T - τ (s.t + s.dt) by
      constructor
      · rw [e1, ← hh.1]
        rfl
      · rw [List.map_cons, thickness_cons, hh.2]
        show ((gas ⟨s.coord 0, s.coord 1⟩).chi + 1e-20) * s.dt * K + _ = _
        linarith
    cases l with
    | nil =>
      obtain ⟨v, hv, hT⟩ := hex
      rw [List.mem_singleton] at hv
      subst hv
      have : v.t + v.dt = T := le_antisymm b2 hT
      rw [this]
      exact ⟨rfl, by simp [thickness]⟩
    | cons y l =>
      have hy : y.t = s.t + s.dt := by
        have := List.isChain_cons_cons.1 hch
        exact this.1
      have h := stack_solves K gas hchi I τ T y l (List.isChain_cons_cons.1 hch).2 (fun v hv => hb v (List.mem_cons_of_mem _ hv)) (by linarith)
        (by
          obtain ⟨v, hv, hT⟩ := hex
          rcases List.mem_cons.1 hv with rfl | hv
          · exact ⟨y, List.mem_cons_self, by have := (hb y (List.mem_cons_of_mem _ List.mem_cons_self)).1; linarith⟩
          · exact ⟨v, hv, hT⟩)
        (hIc.mono (Icc_subset_Icc (by linarith) le_rfl)) (hτc.mono (Icc_subset_Icc (by linarith) le_rfl))
        (fun v hv => hd v (List.mem_cons_of_mem _ hv))
      rw [← hy]
      exact h

end DexRT.RayRun
