import Verif.Spec.Crtaf
import Verif.Lemmas.Sparse
import Mathlib.Data.List.Induction
import Mathlib.Data.List.Nodup
import Mathlib.Tactic.Linarith
import Mathlib.Tactic.Ring
import Mathlib.Tactic.FieldSimp
/-! Lemmas on reading model atoms. -/
namespace DexRT
namespace Crtaf
variable {K : Type} [Field K] [LinearOrder K]

theorem mapping_snoc (l : List (Level K)) (a : Level K) (k : String) :
    mapping (l ++ [a]) k = if k = a.key then some l.length else mapping l k := by
  unfold mapping
  rw [List.zipIdx_append, List.foldl_append]
  simp

theorem mapping_some (levels : List (Level K)) (k : String) (i : ℕ) (h : mapping levels k = some i) :
    (levels[i]?).map (·.key) = some k := by
  induction levels using List.reverseRecOn generalizing i with
  | nil => simp [mapping] at h
  | append_singleton l a ih =>
    rw [mapping_snoc] at h
    by_cases hk : k = a.key
    · rw [if_pos hk] at h
      obtain rfl : l.length = i := by simpa using h
      simp [hk]
    · rw [if_neg hk] at h
      have := ih i h
      have hi : i < l.length := by
        by_contra hc
        rw [List.getElem?_eq_none (not_lt.mp hc)] at this
        simp at this
      rw [List.getElem?_append_left hi]
      exact this

theorem mapping_none (levels : List (Level K)) (k : String) : mapping levels k = none ↔ k ∉ levels.map (·.key) := by
  induction levels using List.reverseRecOn with
  | nil => simp [mapping]
  | append_singleton l a ih =>
    rw [mapping_snoc]
    by_cases hk : k = a.key
    · rw [if_pos hk]; simp [hk]
    · rw [if_neg hk, ih]
      simp [hk]

theorem at_ok (levels : List (Level K)) (k : String) (i : ℕ) (h : at_ levels k = .ok i) : (levels[i]?).map (·.key) = some k := by
  unfold at_ at h
  cases hm : mapping levels k with
  | none => rw [hm] at h; cases h
  | some x =>
    rw [hm] at h
    cases h
    exact mapping_some levels k i hm

theorem at_cases (levels : List (Level K)) (k : String) :
    (k ∈ levels.map (·.key) ∧ ∃ i, at_ levels k = .ok i) ∨ (k ∉ levels.map (·.key) ∧ at_ levels k = .throws) := by
  unfold at_
  cases hm : mapping levels k with
  | none => exact Or.inr ⟨(mapping_none levels k).mp hm, rfl⟩
  | some x =>
    refine Or.inl ⟨?_, x, rfl⟩
    by_contra hc
    rw [← mapping_none, hm] at hc
    cases hc

theorem mapM_forall2 {α β : Type} (f : α → Outcome β) (l : List α) : ∀ r, l.mapM f = .ok r → List.Forall₂ (fun a b => f a = .ok b) l r := by
  induction l with
  | nil => intro r h; simp at h; subst h; exact .nil
  | cons a l ih =>
    intro r h
    rw [List.mapM_cons] at h
    cases ha : f a with
    | throws => rw [ha] at h; simp at h
    | ub => rw [ha] at h; simp at h
    | ok b =>
      rw [ha, Outcome.ok_bind] at h
      cases hl : l.mapM f with
      | throws => rw [hl] at h; simp at h
      | ub => rw [hl] at h; simp at h
      | ok bs =>
        rw [hl, Outcome.ok_bind] at h
        simp at h
        subst h
        exact .cons ha (ih bs hl)

/-- A loop whose body never is UB either succeeds, and then on every element, or throws, and then on one. -/
theorem mapM_cases {α β : Type} (f : α → Outcome β) (l : List α) (h : ∀ a ∈ l, (∃ b, f a = .ok b) ∨ f a = .throws) :
    ((∀ a ∈ l, ∃ b, f a = .ok b) ∧ ∃ r, l.mapM f = .ok r) ∨ ((∃ a ∈ l, f a = .throws) ∧ l.mapM f = .throws) := by
  induction l with
  | nil => exact Or.inl ⟨by simp, [], by simp⟩
  | cons a l ih =>
    rw [List.mapM_cons]
    rcases h a (by simp) with ⟨b, hb⟩ | ht
    · rcases ih (fun x hx => h x (by simp [hx])) with ⟨h1, r, hr⟩ | ⟨⟨x, hx, hxt⟩, hr⟩
      · refine Or.inl ⟨?_, b :: r, by rw [hb, Outcome.ok_bind, hr]; rfl⟩
        intro x hx
        rcases List.mem_cons.mp hx with rfl | hx
        · exact ⟨b, hb⟩
        · exact h1 x hx
      · exact Or.inr ⟨⟨x, by simp [hx], hxt⟩, by rw [hb, Outcome.ok_bind, hr]; rfl⟩
    · exact Or.inr ⟨⟨a, by simp, ht⟩, by rw [ht]; rfl⟩

/-- Values of the natural broadening entries. -/
def naturals : List (BroadNode K) → List K
  | [] => []
  | .natural v :: l => v :: naturals l
  | _ :: l => naturals l

/-- The scaled broadening entries. -/
def scaleds : List (BroadNode K) → List (Scaled K)
  | [] => []
  | .scaled a b c d :: l => ⟨a, b, c, d⟩ :: scaleds l
  | _ :: l => scaleds l

/-- An entry of unknown type. -/
def hasOther : List (BroadNode K) → Prop
  | [] => False
  | .other :: _ => True
  | _ :: l => hasOther l

theorem broad_some (l : List (BroadNode K)) : ∀ (v : K) (s : List (Scaled K)),
    (l.foldlM broadStep (some v, s) = .throws ∧ (hasOther l ∨ 1 ≤ (naturals l).length)) ∨
    (l.foldlM broadStep (some v, s) = .ok (some v, s ++ scaleds l) ∧ ¬ hasOther l ∧ naturals l = []) := by
  induction l with
  | nil => intro v s; right; simp [scaleds, hasOther, naturals]
  | cons b l ih =>
    intro v s
    rw [List.foldlM_cons]
    cases b with
    | natural w => left; simp [broadStep, naturals]
    | other => left; simp [broadStep, hasOther]
    | scaled a b c d =>
      rcases ih v (s ++ [⟨a, b, c, d⟩]) with ⟨h1, h2⟩ | ⟨h1, h2, h3⟩
      · left; simpa [broadStep, hasOther, naturals] using ⟨h1, h2⟩
      · rw [List.append_assoc, List.singleton_append] at h1
        right; simpa [broadStep, hasOther, naturals, scaleds] using ⟨h1, h2, h3⟩

theorem broad_none (l : List (BroadNode K)) : ∀ (s : List (Scaled K)),
    (l.foldlM broadStep (none, s) = .throws ∧ (hasOther l ∨ 2 ≤ (naturals l).length)) ∨
    (l.foldlM broadStep (none, s) = .ok ((naturals l).head?, s ++ scaleds l) ∧ ¬ hasOther l ∧ (naturals l).length ≤ 1) := by
  induction l with
  | nil => intro s; right; simp [scaleds, hasOther, naturals]
  | cons b l ih =>
    intro s
    rw [List.foldlM_cons]
    cases b with
    | natural w =>
      rcases broad_some l w s with ⟨h1, h2⟩ | ⟨h1, h2, h3⟩
      · left; simpa [broadStep, hasOther, naturals] using ⟨h1, h2⟩
      · right; simpa [broadStep, hasOther, naturals, scaleds, h3] using ⟨h1, h2⟩
    | other => left; simp [broadStep, hasOther]
    | scaled a b c d =>
      rcases ih (s ++ [⟨a, b, c, d⟩]) with ⟨h1, h2⟩ | ⟨h1, h2, h3⟩
      · left; simpa [broadStep, hasOther, naturals] using ⟨h1, h2⟩
      · rw [List.append_assoc, List.singleton_append] at h1
        right; simpa [broadStep, hasOther, naturals, scaleds] using ⟨h1, h2, h3⟩

end Crtaf

open Crtaf
variable {K : Type} [Field K] [LinearOrder K]

theorem naturals_eq (l : List (BroadNode K)) : naturals l = l.filterMap naturalOf := by
  induction l with
  | nil => rfl
  | cons b l ih => cases b <;> simp [naturals, ih, List.filterMap_cons, naturalOf]

theorem scaleds_eq (l : List (BroadNode K)) : scaleds l = l.filterMap scaledOf := by
  induction l with
  | nil => rfl
  | cons b l ih => cases b <;> simp [scaleds, ih, List.filterMap_cons, scaledOf]

theorem hasOther_iff (l : List (BroadNode K)) : hasOther l ↔ BroadNode.other ∈ l := by
  induction l with
  | nil => simp [hasOther]
  | cons b l ih => cases b <;> simp [hasOther, ih]

theorem collType_cases (s : String) : (s ∉ collNames.map (·.1) ∧ collType s = .throws) ∨ ∃ t, (s, t) ∈ collNames ∧ collType s = .ok t := by
  unfold collType
  by_cases h1 : s = "Omega"
  · right; subst h1; exact ⟨.omega, by decide, by simp⟩
  by_cases h2 : s = "CI"
  · right; subst h2; exact ⟨.ci, by decide, by simp⟩
  by_cases h3 : s = "CE"
  · right; subst h3; exact ⟨.ce, by decide, by simp⟩
  by_cases h4 : s = "CP"
  · right; subst h4; exact ⟨.cp, by decide, by simp⟩
  by_cases h5 : s = "CH"
  · right; subst h5; exact ⟨.ch, by decide, by simp⟩
  by_cases h6 : s = "ChargeExcH"
  · right; subst h6; exact ⟨.chargeExcH, by decide, by simp⟩
  by_cases h7 : s = "ChargeExcP"
  · right; subst h7; exact ⟨.chargeExcP, by decide, by simp⟩
  · left; simp [collNames, h1, h2, h3, h4, h5, h6, h7]

theorem gridOf_grid (lambda0 : K) (n : GridNode K) :
    ((n = .other ∨ ∃ half m, n = .linear half m ∧ m < 0) ∧ grid lambda0 n = .throws) ∨
    (¬ (n = .other ∨ ∃ half m, n = .linear half m ∧ m < 0) ∧ ∃ w, grid lambda0 n = .ok w ∧ GridOf lambda0 n w) := by
  cases n with
  | other => left; exact ⟨Or.inl rfl, rfl⟩
  | tabulated l => right; exact ⟨by simp, _, rfl, rfl⟩
  | linear half m =>
    by_cases h : m < 0
    · left; exact ⟨Or.inr ⟨half, m, rfl, h⟩, by simp [grid, linearGrid, h]⟩
    · right
      refine ⟨?_, _, by rw [grid, linearGrid, if_neg h], ?_⟩
      · simp only [reduceCtorEq, false_or, not_exists, not_and]
        rintro h' m' ⟨⟩
        exact h
      · refine ⟨by simp, fun hm i hi => ?_⟩
        rw [List.getElem?_map, List.getElem?_range hi, Option.map_some, if_neg (by omega)]
        push_cast
        rw [two_mul]

theorem parseLine_cases (f : File K) (levels : List (Level K)) (hp : levels.Perm f.levels) (l : LineNode K) :
    (LineBad f l ∧ parseLine levels l = .throws) ∨ (¬ LineBad f l ∧ ∃ r, parseLine levels l = .ok r ∧ LineOf levels l r) := by
  have hkeys : ∀ k, k ∈ levels.map (·.key) ↔ k ∈ f.levels.map (·.key) := fun k => (hp.map _).mem_iff
  have h0 := broad_none l.broad []
  rw [hasOther_iff, naturals_eq, scaleds_eq] at h0
  unfold parseLine LineBad
  by_cases ht : l.type = "Voigt" ∨ l.type = "PRD-Voigt"
  · obtain ⟨prd, hprd, hpe⟩ : ∃ prd, (if l.type = "Voigt" then .ok false else if l.type = "PRD-Voigt" then .ok true else .throws : Outcome Bool) =
        .ok prd ∧ (prd = true ↔ l.type = "PRD-Voigt") := by
      rcases ht with h | h
      · exact ⟨false, by simp [h], by simp [h]⟩
      · exact ⟨true, by simp [h], by simp [h]⟩
    rw [hprd]
    simp only [Outcome.ok_bind]
    rcases at_cases levels l.upper with ⟨hu, j, hj⟩ | ⟨hu, hj⟩
    · rcases at_cases levels l.lower with ⟨hl, i, hi⟩ | ⟨hl, hi⟩
      · simp only [hj, hi, Outcome.ok_bind]
        rcases h0 with ⟨hb, hbad⟩ | ⟨hb, hno, hnat⟩
        · left
          refine ⟨?_, by rw [hb]; rfl⟩
          rcases hbad with h | h
          · exact Or.inr (Or.inr (Or.inr (Or.inl h)))
          · exact Or.inr (Or.inr (Or.inr (Or.inr (Or.inl h))))
        · rw [hb]
          simp only [Outcome.ok_bind]
          rcases gridOf_grid l.lambda0 l.grid with ⟨hg, hgt⟩ | ⟨hg, w, hw, hwo⟩
          · left
            refine ⟨Or.inr (Or.inr (Or.inr (Or.inr (Or.inr hg)))), by rw [hgt]; rfl⟩
          · right
            rw [hw]
            refine ⟨?_, _, rfl, at_ok _ _ _ hj, at_ok _ _ _ hi, hpe, rfl, rfl, rfl, rfl, rfl, rfl, rfl, rfl, by simp, hwo⟩
            rintro (h | h | h | h | h | h)
            · rcases ht with h' | h'
              · exact h.1 h'
              · exact h.2 h'
            · exact h ((hkeys _).mp hu)
            · exact h ((hkeys _).mp hl)
            · exact hno h
            · omega
            · exact hg h
      · left
        refine ⟨Or.inr (Or.inr (Or.inl (by rw [← hkeys]; exact hl))), by rw [hj, Outcome.ok_bind, hi]; rfl⟩
    · left
      exact ⟨Or.inr (Or.inl (by rw [← hkeys]; exact hu)), by rw [hj]; rfl⟩
  · left
    push Not at ht
    refine ⟨Or.inl ht, by rw [if_neg ht.1, if_neg ht.2]; rfl⟩

theorem parseCont_cases (f : File K) (levels : List (Level K)) (hp : levels.Perm f.levels) (c : ContNode K) :
    (ContBad f c ∧ parseCont levels c = .throws) ∨ (¬ ContBad f c ∧ ∃ r, parseCont levels c = .ok r ∧ ContOf levels c r) := by
  have hkeys : ∀ k, k ∈ levels.map (·.key) ↔ k ∈ f.levels.map (·.key) := fun k => (hp.map _).mem_iff
  unfold parseCont ContBad
  rcases at_cases levels c.upper with ⟨hu, j, hj⟩ | ⟨hu, hj⟩
  · rcases at_cases levels c.lower with ⟨hl, i, hi⟩ | ⟨hl, hi⟩
    · simp only [hj, hi, Outcome.ok_bind]
      by_cases ht : c.type = "Tabulated"
      · right
        rw [if_neg (not_not_intro ht)]
        refine ⟨?_, _, rfl, at_ok _ _ _ hj, at_ok _ _ _ hi, ?_, by simp⟩
        · rintro (h | h | h)
          · exact h ((hkeys _).mp hu)
          · exact h ((hkeys _).mp hl)
          · exact h ht
        · simp only
          rw [List.zip_map']
          simp
      · left
        exact ⟨Or.inr (Or.inr ht), by rw [if_pos ht]⟩
    · left
      exact ⟨Or.inr (Or.inl (by rw [← hkeys]; exact hl)), by rw [hj, Outcome.ok_bind, hi]; rfl⟩
  · left
    exact ⟨Or.inl (by rw [← hkeys]; exact hu), by rw [hj]; rfl⟩

theorem parseColl_cases (f : File K) (levels : List (Level K)) (hp : levels.Perm f.levels) (c : CollNode K) :
    (CollBad f c ∧ parseColl levels c = .throws) ∨
    (¬ CollBad f c ∧ ∃ r, parseColl levels c = .ok r ∧ List.Forall₂ (fun d k => CollOf levels (c, d) k) c.data r) := by
  have hkeys : ∀ k, k ∈ levels.map (·.key) ↔ k ∈ f.levels.map (·.key) := fun k => (hp.map _).mem_iff
  unfold parseColl CollBad
  rcases at_cases levels c.upper with ⟨hu, j, hj⟩ | ⟨hu, hj⟩
  · rcases at_cases levels c.lower with ⟨hl, i, hi⟩ | ⟨hl, hi⟩
    · simp only [hj, hi, Outcome.ok_bind]
      have hbody : ∀ d : CollData K, (d.type ∉ collNames.map (·.1) ∧
          ((do let t ← collType d.type; Outcome.ok (⟨j, i, t, d.temperature, d.data⟩ : Coll K)) : Outcome (Coll K)) = .throws) ∨
          ∃ t, (d.type, t) ∈ collNames ∧
          ((do let t ← collType d.type; Outcome.ok (⟨j, i, t, d.temperature, d.data⟩ : Coll K)) : Outcome (Coll K)) =
            .ok ⟨j, i, t, d.temperature, d.data⟩ := by
        intro d
        rcases collType_cases d.type with ⟨h1, h2⟩ | ⟨t, h1, h2⟩
        · exact Or.inl ⟨h1, by rw [h2]; rfl⟩
        · exact Or.inr ⟨t, h1, by rw [h2]; rfl⟩
      rcases mapM_cases (fun d : CollData K => (do let t ← collType d.type; Outcome.ok (⟨j, i, t, d.temperature, d.data⟩ : Coll K) : Outcome (Coll K)))
        c.data (fun d _ => by
          rcases hbody d with h | ⟨t, _, h⟩
          · exact Or.inr h.2
          · exact Or.inl ⟨_, h⟩) with ⟨hall, r, hr⟩ | ⟨⟨d, hd, hdt⟩, hr⟩
      · right
        refine ⟨?_, r, hr, ?_⟩
        · rintro (h | h | ⟨d, hd, h⟩)
          · exact h ((hkeys _).mp hu)
          · exact h ((hkeys _).mp hl)
          · obtain ⟨b, hb⟩ := hall d hd
            rcases hbody d with h' | ⟨t, ht, _⟩
            · rw [h'.2] at hb; cases hb
            · exact h (List.mem_map.mpr ⟨_, ht, rfl⟩)
        · refine (mapM_forall2 _ _ _ hr).imp fun d k hk => ?_
          rcases hbody d with h' | ⟨t, ht, h'⟩
          · rw [h'.2] at hk; cases hk
          · rw [h'] at hk
            cases hk
            exact ⟨at_ok _ _ _ hj, at_ok _ _ _ hi, ht, rfl, rfl⟩
      · left
        refine ⟨Or.inr (Or.inr ⟨d, hd, ?_⟩), hr⟩
        rcases hbody d with h' | ⟨t, ht, h'⟩
        · exact h'.1
        · rw [h'] at hdt; cases hdt
    · left
      exact ⟨Or.inr (Or.inl (by rw [← hkeys]; exact hl)), by rw [hj, Outcome.ok_bind, hi]; rfl⟩
  · left
    exact ⟨Or.inl (by rw [← hkeys]; exact hu), by rw [hj]; rfl⟩

theorem forall2_flatten {α β γ : Type} (R : α × γ → β → Prop) (g : α → List γ) (l : List α) (r : List (List β))
    (h : List.Forall₂ (fun a bs => List.Forall₂ (fun d b => R (a, d) b) (g a) bs) l r) :
    List.Forall₂ R (l.flatMap fun a => (g a).map fun d => (a, d)) r.flatten := by
  induction h with
  | nil => exact .nil
  | cons h1 _ ih =>
    rw [List.flatMap_cons, List.flatten_cons]
    refine List.rel_append ?_ ih
    exact List.forall₂_map_left_iff.mpr h1

end DexRT
