import Verif.Model.Startup
import Verif.Lemmas.SparseIter
/-!
Lemmas on the start of a run.
-/
namespace DexRT
namespace Startup

theorem mem_popsIters {C : Type} (cells levels : ℕ) (bm : BlockMap C) (q : ℕ × ℕ × ℤ) :
    q ∈ popsIters cells levels bm ↔ q.1 < levels ∧ q.2 ∈ loopIters cells bm := by
  unfold popsIters
  simp only [List.mem_flatMap, List.mem_range, List.mem_map]
  constructor
  · rintro ⟨l, hl, p, hp, rfl⟩
    exact ⟨hl, hp⟩
  · rintro ⟨h1, h2⟩
    exact ⟨q.1, h1, q.2, h2, rfl⟩

/-- `gather_spec` for several levels in one kernel. -/
theorem gather_levels {C V : Type} {L : List (Nat × Int)} {coord : Nat × Int → Outcome C}
    {idx : Nat × Int → Int} {N : Int} {Data : C → Prop} {Addr : C → Int → Prop} (levels : ℕ)
    (H : IterSpace L coord idx N Data Addr) (inb : C → Bool) (hin : ∀ c, Data c → inb c = true)
    (src : ℕ → C → V) (sched : List (ℕ × ℕ × ℤ)) (hs : ∀ q, q ∈ sched ↔ q.1 < levels ∧ q.2 ∈ L) (junk : ℕ × ℤ → V) :
    ∃ s, writeLoop (fun q => do
        let c ← coord q.2
        if ¬ q.1 < levels then .ub
        else if !inb c then .ub
        else if ¬ (0 ≤ idx q.2 ∧ idx q.2 < N) then .ub
        else .ok ((q.1, idx q.2), src q.1 c)) sched junk = .ok s ∧
      ∀ l < levels, ∀ c, Data c → ∀ a, Addr c a → s (l, a) = src l c := by
  have hf : ∀ q ∈ sched, ∀ c, coord q.2 = .ok c → (do
        let c ← coord q.2
        if ¬ q.1 < levels then .ub
        else if !inb c then .ub
        else if ¬ (0 ≤ idx q.2 ∧ idx q.2 < N) then .ub
        else .ok ((q.1, idx q.2), src q.1 c) : Outcome ((ℕ × ℤ) × V)) = .ok ((q.1, idx q.2), src q.1 c) := by
    intro q hq c hc
    obtain ⟨hq1, hq2⟩ := (hs q).1 hq
    obtain ⟨c', e, hd, _⟩ := H.co q.2 hq2
    rw [hc] at e; injection e with e; subst e
    rw [hc, Outcome.ok_bind, if_neg (not_not.2 hq1), hin c hd, if_neg (by decide), if_neg (not_not.2 (H.rng q.2 hq2))]
  obtain ⟨s, e, _, h2⟩ := writeLoop_spec _ sched junk (fun q hq => by
    obtain ⟨c, hc, _⟩ := H.co q.2 ((hs q).1 hq).2
    exact ⟨_, _, hf q hq c hc⟩)
  refine ⟨s, e, ?_⟩
  intro l hl c hd a ha
  obtain ⟨p, hp, hc⟩ := H.ontoC c hd
  obtain ⟨c', e', _, hadr⟩ := H.co p hp
  rw [hc] at e'; injection e' with e'; subst e'
  obtain rfl := H.fn c a _ ha hadr
  have hq : (l, p) ∈ sched := (hs (l, p)).2 ⟨hl, hp⟩
  refine h2 _ _ ⟨(l, p), hq, _, hf (l, p) hq c hc⟩ ?_
  intro i hi v' hv
  have hi' := (hs i).1 hi
  obtain ⟨ci, hci, _⟩ := H.co i.2 hi'.2
  rw [hf i hi ci hci] at hv
  injection hv with hv; injection hv with h1 h2
  injection h1 with h3 h4
  obtain hip := H.injI i.2 hi'.2 p hp h4
  rw [hip, hc] at hci; injection hci with hci; subst hci
  rw [← h2, h3]

/-- The levels one after the other. -/
theorem foldlM_levels {V : Type} (body : ℕ → (ℤ → V) → Outcome (ℤ → V)) (P : ℕ → (ℤ → V) → Prop)
    (hb : ∀ l m, ∃ s, body l m = .ok s ∧ P l s) (levels : ℕ) (old : ℕ × ℤ → V) :
    ∃ s, (List.range levels).foldlM (fun (m : ℕ × ℤ → V) l => do
        let s ← body l (fun ks => m (l, ks))
        .ok fun k => if k.1 = l then s k.2 else m k) old = Outcome.ok s ∧
      ∀ l < levels, P l (fun ks => s (l, ks)) := by
  induction levels with
  | zero => exact ⟨old, rfl, fun l hl => absurd hl (Nat.not_lt_zero _)⟩
  | succ n ih =>
    obtain ⟨s, h1, h2⟩ := ih
    obtain ⟨t, h3, h4⟩ := hb n fun ks => s (n, ks)
    refine ⟨fun k => if k.1 = n then t k.2 else s k, ?_, ?_⟩
    · rw [List.range_succ, List.foldlM_append, h1, Outcome.ok_bind]
      simp only [List.foldlM_cons, List.foldlM_nil, h3, Outcome.ok_bind]
      rfl
    · intro l hl
      by_cases e : l = n
      · subst e
        simpa using h4
      · simp only [e, if_false]
        exact h2 l (by omega)

end Startup
end DexRT
