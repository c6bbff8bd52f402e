import Verif.Model.Gamma
import Mathlib.Tactic.Ring
import Mathlib.Tactic.FieldSimp
import Mathlib.Tactic.Linarith
import Mathlib.Tactic.LinearCombination
import Mathlib.Data.List.Basic
import Mathlib.Algebra.BigOperators.Group.List.Lemmas
/-! Lemmas for the accumulation of the rate matrix. -/
namespace DexRT
namespace Rates
variable {K : Type} [Field K] {α : Type} [DecidableEq α]

/-- What a list of additions adds to element `l`. -/
def total (ops : List (AddOp α K)) (l : α) : K := (ops.map fun o => if o.1 = l then o.2 else 0).sum

/-- What the threads have still to add to element `l`. -/
def pending (ts : List (Thread α K)) (l : α) : K := (ts.map fun t => total t.ops l).sum

theorem total_cons (o : AddOp α K) (ops : List (AddOp α K)) (l : α) :
    total (o :: ops) l = (if o.1 = l then o.2 else 0) + total ops l := by simp [total]

theorem total_append (a b : List (AddOp α K)) (l : α) : total (a ++ b) l = total a l + total b l := by simp [total]

theorem total_perm {a b : List (AddOp α K)} (h : a.Perm b) (l : α) : total a l = total b l :=
  (h.map _).sum_eq

theorem total_flatten (os : List (List (AddOp α K))) (l : α) :
    total os.flatten l = (os.map fun o => total o l).sum := by
  induction os with
  | nil => simp [total]
  | cons o os ih => rw [List.flatten_cons, total_append, ih]; simp

theorem pending_mid (pre post : List (Thread α K)) (t : Thread α K) (l : α) :
    pending (pre ++ t :: post) l = pending pre l + total t.ops l + pending post l := by
  simp [pending, add_assoc]

theorem step_atomic_inv {c d : Cfg α K} (h : StepAtomic c d) (l : α) :
    d.mem l + pending d.threads l = c.mem l + pending c.threads l := by
  cases h with
  | add pre post l' v rest mem =>
    simp only [pending_mid, total_cons, write]
    by_cases hl : l' = l
    · subst hl; simp; ring
    · simp [hl, Ne.symm hl]

theorem run_atomic_inv {c d : Cfg α K} (h : Relation.ReflTransGen StepAtomic c d) (l : α) :
    d.mem l + pending d.threads l = c.mem l + pending c.threads l := by
  induction h with
  | refl => rfl
  | tail _ hs ih => rw [step_atomic_inv hs l, ih]

theorem pending_finished {c : Cfg α K} (h : Finished c) (l : α) : pending c.threads l = 0 := by
  unfold pending
  apply List.sum_eq_zero
  intro x hx
  obtain ⟨t, ht, rfl⟩ := List.mem_map.mp hx
  rw [(h t ht).1]; rfl

/-- Ownership invariant of the plain variant: each element is only touched by one thread, and a loaded value is
current. -/
def Owned (own : α → Nat) (c : Cfg α K) : Prop :=
  ∀ (t : Nat) (th : Thread α K), c.threads[t]? = some th →
    (∀ o ∈ th.ops, own o.1 = t) ∧ ∀ x, th.reg = some x → ∃ l v rest, th.ops = (l, v) :: rest ∧ x = c.mem l

theorem getElem?_mid (pre post : List (Thread α K)) (t t' : Thread α K) (i : Nat) :
    (pre ++ t' :: post)[i]? = if i = pre.length then some t' else (pre ++ t :: post)[i]? := by
  by_cases h : i = pre.length
  · subst h; simp
  · rw [if_neg h]
    rcases Nat.lt_or_ge i pre.length with h1 | h1
    · rw [List.getElem?_append_left h1, List.getElem?_append_left h1]
    · rw [List.getElem?_append_right h1, List.getElem?_append_right h1]
      obtain ⟨k, hk⟩ : ∃ k, i - pre.length = k + 1 := ⟨i - pre.length - 1, by omega⟩
      rw [hk]; simp

theorem step_plain_inv {own : α → Nat} {c d : Cfg α K} (h : StepPlain c d) (ho : Owned own c) :
    Owned own d ∧ ∀ l, d.mem l + pending d.threads l = c.mem l + pending c.threads l := by
  cases h with
  | load pre post l v rest mem =>
    have hself := ho pre.length ⟨(l, v) :: rest, none⟩ (by simp)
    refine ⟨?_, fun l' => by simp only [pending_mid]⟩
    intro t th hth
    rw [getElem?_mid pre post ⟨(l, v) :: rest, none⟩] at hth
    by_cases ht : t = pre.length
    · rw [if_pos ht] at hth
      cases hth
      subst ht
      exact ⟨hself.1, fun x hx => ⟨l, v, rest, rfl, by simpa using hx.symm⟩⟩
    · rw [if_neg ht] at hth
      exact ho t th hth
  | store pre post l v x rest mem =>
    have hself := ho pre.length ⟨(l, v) :: rest, some x⟩ (by simp)
    obtain ⟨l1, v1, r1, he, hx⟩ := hself.2 x rfl
    injection he with he1 he2
    injection he1 with e1 e2
    subst e1 e2 he2
    refine ⟨?_, ?_⟩
    · intro t th hth
      rw [getElem?_mid pre post ⟨(l, v) :: rest, some x⟩] at hth
      by_cases ht : t = pre.length
      · rw [if_pos ht] at hth
        cases hth
        subst ht
        exact ⟨fun o hm => hself.1 o (by simp [hm]), fun y hy => by simp at hy⟩
      · rw [if_neg ht] at hth
        obtain ⟨ha, hb⟩ := ho t th hth
        refine ⟨ha, fun y hy => ?_⟩
        obtain ⟨l2, v2, r2, hops, hy2⟩ := hb y hy
        refine ⟨l2, v2, r2, hops, ?_⟩
        have o1 : own l2 = t := ha (l2, v2) (by rw [hops]; simp)
        have o2 : own l = pre.length := hself.1 (l, v) (by simp)
        have hne : l2 ≠ l := fun e => ht (by rw [← o1, e, o2])
        simp only [write, hne, if_false]
        exact hy2
    · intro l'
      simp only [pending_mid, total_cons, write]
      simp only at hx
      by_cases hl : l = l'
      · subst hl; simp [hx]; ring
      · simp [hl, Ne.symm hl]

theorem run_plain_inv {own : α → Nat} {c d : Cfg α K} (h : Relation.ReflTransGen StepPlain c d) (ho : Owned own c) :
    Owned own d ∧ ∀ l, d.mem l + pending d.threads l = c.mem l + pending c.threads l := by
  induction h with
  | refl => exact ⟨ho, fun _ => rfl⟩
  | tail _ hs ih =>
    obtain ⟨h1, h2⟩ := step_plain_inv hs ih.1
    exact ⟨h1, fun l => by rw [h2, ih.2]⟩

theorem mapping_prefix (ts : List Treatment) (m : Nat) (hm : m ≤ ts.length)
    (h1 : ∀ ia < m, ∃ t, ts[ia]? = some t ∧ t.hasGamma) (h2 : ∀ ia t, m ≤ ia → ts[ia]? = some t → t.hasGamma = false) :
    gammaMapping ts = List.range m := by
  unfold gammaMapping
  obtain ⟨d, hd⟩ := Nat.exists_eq_add_of_le hm
  rw [hd, List.range_add, List.filter_append]
  have e1 : (List.range m).filter (fun ia => match ts[ia]? with | some t => t.hasGamma | none => false) = List.range m := by
    apply List.filter_eq_self.mpr
    intro ia hia
    obtain ⟨t, ht, hg⟩ := h1 ia (List.mem_range.mp hia)
    rw [ht]; exact hg
  have e2 : ((List.range d).map (m + ·)).filter (fun ia => match ts[ia]? with | some t => t.hasGamma | none => false)
      = [] := by
    apply List.filter_eq_nil_iff.mpr
    intro ia hia
    obtain ⟨k, _, rfl⟩ := List.mem_map.mp hia
    cases hc : ts[m + k]? with
    | none => simp
    | some t => simp [h2 (m + k) t (by omega) hc]
  exact (congrArg₂ (· ++ ·) e1 e2).trans (List.append_nil _)

end Rates
end DexRT
