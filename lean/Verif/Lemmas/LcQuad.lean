import Verif.Spec.LcQuad
import Mathlib.Tactic.Ring
import Mathlib.Tactic.Linarith
import Mathlib.Tactic.FinCases
import Mathlib.Tactic.FieldSimp
/-! Lemmas for the quadratures. -/
namespace DexRT.LcQuad

theorem length_table : ∀ q, (table q).length = num q := by decide +kernel

theorem sum_range_getD {A : Type} (g : A → ℝ) (x : A) : ∀ l : List A,
    ((List.range l.length).map fun t => g (l.getD t x)).sum = (l.map g).sum
  | [] => rfl
  | y :: l => by
    rw [List.length_cons, List.range_succ_eq_map, List.map_cons, List.map_map, List.sum_cons, List.map_cons, List.sum_cons,
      ← sum_range_getD g x l]
    rfl

noncomputable def Node.d (n : Node) : Fin 3 → ℝ := fun i => (n.c i : ℝ) / 10 ^ 8
noncomputable def Node.wt (n : Node) : ℝ := (n.w : ℝ) / 10 ^ 10

theorem quad_eq (q : Fin 4) (f : (Fin 3 → ℝ) → ℝ) : quad q f = ((table q).map fun n => n.wt * f n.d).sum := by
  unfold quad
  rw [← length_table]
  exact sum_range_getD (fun n : Node => n.wt * f n.d) ⟨0, 0, 0, 0⟩ (table q)

def m0 (l : List Node) : ℤ := (l.map fun n => n.w).sum
def m1 (l : List Node) (i : Fin 3) : ℤ := (l.map fun n => n.w * n.c i).sum
def m2 (l : List Node) (i j : Fin 3) : ℤ := (l.map fun n => n.w * (n.c i * n.c j)).sum
def m3 (l : List Node) (i j k : Fin 3) : ℤ := (l.map fun n => n.w * (n.c i * n.c j * n.c k)).sum

theorem moments (a : ℝ) (b : Fin 3 → ℝ) (M : Fin 3 → Fin 3 → ℝ) (T : Fin 3 → Fin 3 → Fin 3 → ℝ) : ∀ l : List Node,
    (l.map fun n => n.wt * cubic a b M T n.d).sum = a * ((m0 l : ℝ) / 10 ^ 10) + ∑ i, b i * ((m1 l i : ℝ) / 10 ^ 18) +
      ∑ i, ∑ j, M i j * ((m2 l i j : ℝ) / 10 ^ 26) + ∑ i, ∑ j, ∑ k, T i j k * ((m3 l i j k : ℝ) / 10 ^ 34)
  | [] => by simp [m0, m1, m2, m3]
  | n :: l => by
    rw [List.map_cons, List.sum_cons, moments a b M T l]
    simp only [m0, m1, m2, m3, List.map_cons, List.sum_cons, cubic, Node.wt, Node.d, Fin.sum_univ_three]
    push_cast
    ring

theorem m0_near : ∀ q, |m0 (table q) - 10 ^ 10| ≤ 200 := by decide +kernel
theorem m0_le : ∀ q, q ≠ 1 → m0 (table q) ≤ 10 ^ 10 := by decide +kernel
theorem m1_zero : ∀ q i, m1 (table q) i = 0 := by decide +kernel
theorem m2_zero : ∀ q i j, i ≠ j → m2 (table q) i j = 0 := by decide +kernel
theorem m2_near : ∀ q i, |3 * m2 (table q) i i - 10 ^ 26| ≤ 9 * 10 ^ 18 := by decide +kernel
theorem m3_zero : ∀ q i j k, m3 (table q) i j k = 0 := by decide +kernel

theorem node_pos : ∀ q, ∀ n ∈ table q, 0 < n.w := by decide +kernel
theorem node_unit : ∀ q, ∀ n ∈ table q, |n.x * n.x + n.y * n.y + n.z * n.z - 10 ^ 16| ≤ 10 ^ 8 := by decide +kernel
theorem node_le : ∀ q, ∀ n ∈ table q, ∀ i, |n.c i| ≤ 10 ^ 8 := by decide +kernel

end DexRT.LcQuad
