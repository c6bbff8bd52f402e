import Verif.Lemmas.Ray
import Verif.Lemmas.Sparse
/-! Lemmas on the accumulation along a ray in the ray tracers. -/
namespace DexRT
namespace Ray

/-- The slab a sampled cell stands for: opacity offset by `1e-20`. -/
noncomputable def Cell.slab (scale : ℝ) (c : Cell) : Slab := ⟨c.eta / (c.chi + 1e-20), (c.chi + 1e-20) * c.dt * scale⟩

/-- The sampled cells of a ray. -/
def sampled (cells : List Cell) : List Cell := cells.filter (·.sample)

/-- The slabs of a ray. -/
noncomputable def slabs (scale : ℝ) (cells : List Cell) : List Slab := (sampled cells).map (Cell.slab scale)

theorem thickness_cons (s : Slab) (l : List Slab) : thickness (s :: l) = s.tau + thickness l := by simp [thickness]
theorem thickness_nil : thickness [] = 0 := rfl

theorem trace_fold (scale bI : ℝ) (cells : List Cell) : ∀ v : Acc,
    let w := cells.foldl (traceStep scale) v
    w.I + Real.exp (-w.tau) * bI = v.I + Real.exp (-v.tau) * emergent (slabs scale cells) bI ∧
    w.tau = v.tau + thickness (slabs scale cells) := by
  induction cells with
  | nil => intro v; simp [slabs, sampled, emergent, thickness]
  | cons c cs ih =>
    intro v
    simp only [List.foldl_cons]
    have := ih (traceStep scale v c)
    simp only at this
    rw [this.1, this.2]
    by_cases hc : c.sample = true
    · have hs : slabs scale (c :: cs) = c.slab scale :: slabs scale cs := by
        simp [slabs, sampled, List.filter_cons, hc]
      rw [hs, thickness_cons]
      simp only [traceStep, if_pos hc, emergent, Cell.slab]
      constructor
      · rw [neg_add, Real.exp_add]; ring
      · ring
    · have hs : slabs scale (c :: cs) = slabs scale cs := by
        simp [slabs, sampled, List.filter_cons, hc]
      rw [hs]
      simp [traceStep, hc]

theorem emergent_between (l : List Slab) (I0 lo hi : ℝ) (h1 : lo ≤ I0) (h2 : I0 ≤ hi)
    (hl : ∀ s ∈ l, 0 ≤ s.tau ∧ lo ≤ s.S ∧ s.S ≤ hi) : lo ≤ emergent l I0 ∧ emergent l I0 ≤ hi := by
  induction l with
  | nil => exact ⟨h1, h2⟩
  | cons s l ih =>
    obtain ⟨i1, i2⟩ := ih (fun s hs => hl s (by simp [hs]))
    obtain ⟨ht, s1, s2⟩ := hl s (by simp)
    have e0 := Real.exp_pos (-s.tau)
    have e1 : Real.exp (-s.tau) ≤ 1 := by rw [Real.exp_le_one_iff]; linarith
    simp only [emergent]
    constructor <;> nlinarith

theorem emergent_sum (l : List Slab) (I0 : ℝ) :
    emergent l I0 = (∑ k ∈ Finset.range l.length,
      Real.exp (-thickness (l.take k)) * ((l.getD k ⟨0, 0⟩).S * (1 - Real.exp (-(l.getD k ⟨0, 0⟩).tau)))) +
      Real.exp (-thickness l) * I0 := by
  induction l with
  | nil => simp [emergent, thickness]
  | cons s l ih =>
    rw [emergent, ih, List.length_cons, Finset.sum_range_succ']
    simp only [List.getD_cons_succ, List.getD_cons_zero, List.take_succ_cons, List.take_zero, thickness_cons, thickness_nil,
      neg_add, Real.exp_add, neg_zero, Real.exp_zero, one_mul]
    rw [add_mul, Finset.sum_mul]
    have : ∀ k ∈ Finset.range l.length,
        Real.exp (-thickness (l.take k)) * ((l.getD k ⟨0, 0⟩).S * (1 - Real.exp (-(l.getD k ⟨0, 0⟩).tau))) * Real.exp (-s.tau) =
        Real.exp (-s.tau) * Real.exp (-thickness (l.take k)) * ((l.getD k ⟨0, 0⟩).S * (1 - Real.exp (-(l.getD k ⟨0, 0⟩).tau))) := by
      intros; ring
    rw [Finset.sum_congr rfl this]
    ring

theorem numSteps_fold (cells : List Cell) : ∀ n, cells.foldl (fun n c => if c.sample then n + 1 else n) n = n + (sampled cells).length := by
  induction cells with
  | nil => intro n; simp [sampled]
  | cons c cs ih =>
    intro n
    rw [List.foldl_cons, ih]
    by_cases hc : c.sample = true
    · simp [sampled, List.filter_cons, hc]; omega
    · simp [sampled, List.filter_cons, hc]

theorem numSteps_eq (cells : List Cell) : numSteps (some cells) = (sampled cells).length := by
  simp [numSteps, numSteps_fold]

theorem foldl_max_ge (l : List ℕ) : ∀ a, a ≤ l.foldl max a ∧ ∀ x ∈ l, x ≤ l.foldl max a := by
  induction l with
  | nil => intro a; simp
  | cons b l ih =>
    intro a
    obtain ⟨h1, h2⟩ := ih (max a b)
    rw [List.foldl_cons]
    refine ⟨(le_max_left a b).trans h1, fun x hx => ?_⟩
    rcases List.mem_cons.mp hx with rfl | hx
    · exact (le_max_right a x).trans h1
    · exact h2 x hx

theorem le_maxSteps (rays : List (Option (List Cell))) (r : Option (List Cell)) (h : r ∈ rays) : numSteps r ≤ maxSteps rays :=
  (foldl_max_ge (rays.map numSteps) 0).2 _ (List.mem_map.mpr ⟨r, h, rfl⟩)

/-- The record of step `j` of a list of sampled cells, behind optical depth `tau0`. -/
noncomputable def recFrom (scale tau0 : ℝ) (cs : List Cell) (j : ℕ) : Option DepthRec :=
  (cs[j]?).map fun c =>
    { pos := c.t, source := c.eta / (c.chi + 1e-20), tau := tau0 + thickness ((cs.map (Cell.slab scale)).take (j + 1)),
      contFn := c.eta * Real.exp (-(tau0 + thickness ((cs.map (Cell.slab scale)).take j))),
      chiTau := (c.chi + 1e-20) / (tau0 + thickness ((cs.map (Cell.slab scale)).take (j + 1))), eta := c.eta, chi := c.chi + 1e-20 }

theorem depthCells_spec (scale : ℝ) (steps rays r : ℕ) (hr : r < rays) (cells : List Cell) : ∀ (v : Acc) (idx : ℕ) (arr : Depth),
    idx + (sampled cells).length ≤ steps →
    ∃ arr', depthCells scale steps rays r cells v idx arr = .ok arr' ∧
      ∀ s r', arr' s r' = if r' = r ∧ idx ≤ s ∧ s < idx + (sampled cells).length then recFrom scale v.tau (sampled cells) (s - idx)
        else arr s r' := by
  induction cells with
  | nil =>
    intro v idx arr _
    refine ⟨arr, rfl, fun s r' => ?_⟩
    rw [if_neg]
    simp [sampled]
  | cons c cs ih =>
    intro v idx arr hle
    by_cases hc : c.sample = true
    · have hs : sampled (c :: cs) = c :: sampled cs := by simp [sampled, List.filter_cons, hc]
      rw [hs, List.length_cons] at hle
      unfold depthCells
      rw [if_pos hc]
      simp only [Depth.write]
      rw [if_pos ⟨by omega, hr⟩, Outcome.ok_bind]
      obtain ⟨arr', e, h⟩ := ih (traceStep scale v c) (idx + 1) (fun s' r' => if s' = idx ∧ r' = r then
        some { pos := c.t, source := c.eta / (c.chi + 1e-20), tau := (traceStep scale v c).tau, contFn := c.eta * Real.exp (-v.tau),
               chiTau := (c.chi + 1e-20) / (traceStep scale v c).tau, eta := c.eta, chi := c.chi + 1e-20 } else arr s' r') (by omega)
      refine ⟨arr', e, fun s r' => ?_⟩
      rw [h, hs, List.length_cons]
      have ht : (traceStep scale v c).tau = v.tau + (c.slab scale).tau := by
        simp [traceStep, hc, Cell.slab]
      by_cases hrr : r' = r
      · by_cases h0 : s = idx
        · subst h0
          rw [if_neg (by omega), if_pos ⟨rfl, hrr⟩, if_pos ⟨hrr, le_refl _, by omega⟩, Nat.sub_self]
          simp [recFrom, ht, thickness]
        · by_cases h1 : idx + 1 ≤ s ∧ s < idx + 1 + (sampled cs).length
          · rw [if_pos ⟨hrr, h1⟩, if_pos ⟨hrr, by omega, by omega⟩]
            obtain ⟨j, rfl⟩ : ∃ j, s = idx + 1 + j := ⟨s - (idx + 1), by omega⟩
            rw [show idx + 1 + j - (idx + 1) = j by omega, show idx + 1 + j - idx = j + 1 by omega]
            simp only [recFrom, List.getElem?_cons_succ, List.map_cons, List.take_succ_cons, thickness_cons, ht, ← add_assoc]
          · rw [if_neg (by tauto), if_neg (by tauto), if_neg (by omega)]
      · rw [if_neg (by tauto), if_neg (by tauto), if_neg (by tauto)]
    · have hs : sampled (c :: cs) = sampled cs := by simp [sampled, List.filter_cons, hc]
      rw [hs] at hle ⊢
      unfold depthCells
      rw [if_neg hc]
      exact ih v idx arr hle

/-- What the depth arrays should hold for one ray. -/
noncomputable def column (scale : ℝ) : Option (List Cell) → ℕ → Option DepthRec
  | none, _ => none
  | some cells, s => recFrom scale 0 (sampled cells) s

theorem recFrom_none (scale tau0 : ℝ) (cs : List Cell) (j : ℕ) (h : cs.length ≤ j) : recFrom scale tau0 cs j = none := by
  simp [recFrom, List.getElem?_eq_none h]

theorem depthKernel_spec (scale : ℝ) (steps : ℕ) (all : List (Option (List Cell))) (hsteps : ∀ r ∈ all, numSteps r ≤ steps) :
    ∀ (sched : List ℕ) (arr : Depth), sched.Nodup → (∀ r ∈ sched, r < all.length) → (∀ r ∈ sched, ∀ s, arr s r = none) →
    ∃ arr', depthKernel scale steps all sched arr = .ok arr' ∧
      ∀ s r, arr' s r = if r ∈ sched then column scale (all.getD r none) s else arr s r := by
  intro sched
  induction sched with
  | nil => intro arr _ _ _; exact ⟨arr, rfl, fun s r => by simp⟩
  | cons r0 rs ih =>
    intro arr hnd hlt hnone
    have hr0 : r0 < all.length := hlt r0 (by simp)
    have hstep : ∃ arr1, depthRay scale steps all arr r0 = .ok arr1 ∧
        ∀ s r, arr1 s r = if r = r0 then column scale (all.getD r0 none) s else arr s r := by
      unfold depthRay
      rw [List.getD_eq_getElem?_getD, List.getElem?_eq_getElem hr0]
      cases hcell : all[r0] with
      | none =>
        refine ⟨arr, rfl, fun s r => ?_⟩
        by_cases h : r = r0
        · rw [if_pos h, h, hnone r0 (by simp)]; rfl
        · rw [if_neg h]
      | some cells =>
        have hle : 0 + (sampled cells).length ≤ steps := by
          have := hsteps all[r0] (List.getElem_mem hr0)
          rw [hcell, numSteps_eq] at this
          omega
        obtain ⟨a, e, h⟩ := depthCells_spec scale steps all.length r0 hr0 cells { I := 0, tau := 0 } 0 arr hle
        refine ⟨a, e, fun s r => ?_⟩
        rw [h]
        by_cases hr : r = r0
        · rw [if_pos hr]
          by_cases hs : s < (sampled cells).length
          · rw [if_pos ⟨hr, by omega, by omega⟩]; rfl
          · rw [if_neg (by omega), hr, hnone r0 (by simp)]
            simp [column, recFrom_none _ _ _ _ (not_lt.mp hs)]
        · rw [if_neg (by tauto), if_neg hr]
    obtain ⟨arr1, e1, h1⟩ := hstep
    have hnd' := List.nodup_cons.mp hnd
    obtain ⟨arr', e, h⟩ := ih arr1 hnd'.2 (fun r hr => hlt r (by simp [hr])) (fun r hr s => by
      rw [h1, if_neg (by rintro rfl; exact hnd'.1 hr)]
      exact hnone r (by simp [hr]) s)
    refine ⟨arr', ?_, fun s r => ?_⟩
    · unfold depthKernel at e ⊢
      rw [List.foldlM_cons, e1, Outcome.ok_bind]
      exact e
    · rw [h, h1]
      by_cases hrs : r ∈ rs
      · rw [if_pos hrs, if_pos (by simp [hrs])]
      · rw [if_neg hrs]
        by_cases hr : r = r0
        · rw [if_pos hr, if_pos (by simp [hr]), hr]
        · rw [if_neg hr, if_neg (by simp [hr, hrs])]

end Ray
end DexRT
