import Verif.Lemmas.Ng
/-!
C29, the extrapolation itself (when it is allowed to fire: `Props/IterLoop.lean`). Every statement is about
`Ng.level`, the function applied to each level separately.
-/
namespace DexRT
open Ng

/-! ### Specification -/

/-- How badly the mixture of the last four changes `(1-p-q-r, p, q, r)` fails to vanish, relative to the
current populations: `Σ_cells ((Σ_j w_j (x_j - x_{j-1})) / x_4)²`. -/
def NgResidual {K : Type} [Field K] (cells : List (Cell K)) (p q r : K) : K :=
  (cells.map fun c =>
    (((1 - p - q - r) * (c.x4 - c.x3) + p * (c.x3 - c.x2) + q * (c.x2 - c.x1) + r * (c.x1 - c.x0)) / c.x4) ^ 2).sum

/-- The second differences `d_j = (x_4 - x_3) - (x_j - x_{j-1})`, `j = 3, 2, 1`, admit no linear relation common
to all cells. -/
def NgIndependent {K : Type} [Field K] (cells : List (Cell K)) : Prop :=
  ∀ p q r : K, (∀ c ∈ cells, p * ((c.x4 - c.x3) - (c.x3 - c.x2)) + q * ((c.x4 - c.x3) - (c.x2 - c.x1))
    + r * ((c.x4 - c.x3) - (c.x1 - c.x0)) = 0) → p = 0 ∧ q = 0 ∧ r = 0

section
variable {K : Type} [Field K] [LinearOrder K] [IsStrictOrderedRing K]

theorem ngResidual_eq (cells : List (Cell K)) (p q r : K) :
    NgResidual cells p q r
      = wsum cells fun c => (c.d0 - p * c.d1 - q * c.d2 - r * c.d3) * (c.d0 - p * c.d1 - q * c.d2 - r * c.d3) := by
  unfold NgResidual wsum
  congr 1
  refine List.map_congr_left fun c _ => ?_
  simp only [Cell.weight, Cell.d1, Cell.d2, Cell.d3, Cell.d0, div_pow]
  rw [one_div, div_eq_mul_inv, ← sq c.x4]
  ring

theorem level_some {cells : List (Cell K)} {ys : List K} (h : level cells = some ys) :
    (∀ c ∈ cells, c.x4 ≠ 0) ∧ ∃ w, solveLU (system cells) = some w ∧ ys = cells.map (newVal w) := by
  unfold level at h
  split at h
  · simp at h
  · rename_i hz
    simp only [List.any_eq_true, beq_iff_eq, not_exists, not_and] at hz
    rw [Option.map_eq_some_iff] at h
    obtain ⟨w, hw, rfl⟩ := h
    exact ⟨hz, w, hw, rfl⟩

/-- C29 (weights): whenever acceleration gives finite populations, they are the same combination of the last
four iterates in every cell of the level, the weights add up to one, and among all such combinations they
minimise the residual. -/
theorem C29_weights (cells : List (Cell K)) (ys : List K) (h : level cells = some ys) :
    ∃ w4 w3 w2 w1 : K, w4 + w3 + w2 + w1 = 1 ∧
      ys = cells.map (fun c => w4 * c.x4 + w3 * c.x3 + w2 * c.x2 + w1 * c.x1) ∧
      ∀ p q r, NgResidual cells w3 w2 w1 ≤ NgResidual cells p q r := by
  obtain ⟨hz, w, hw, rfl⟩ := level_some h
  refine ⟨1 - w.1 - w.2.1 - w.2.2, w.1, w.2.1, w.2.2, by ring, rfl, fun p q r => ?_⟩
  obtain ⟨e0, e1, e2⟩ := solveLU_correct _ _ hw
  have hq := wsum_nonneg hz (fun c => (p - w.1) * c.d1 + (q - w.2.1) * c.d2 + (r - w.2.2) * c.d3)
  rw [quad] at hq
  rw [ngResidual_eq, ngResidual_eq, resid_expand, resid_expand]
  rw [← e0, ← e1, ← e2]
  nlinarith [hq]

/-- C29 (when it is defined): acceleration gives finite populations exactly when no current population is zero
and the second differences are linearly independent. -/
theorem C29_defined_iff (cells : List (Cell K)) :
    (∃ ys, level cells = some ys) ↔ (∀ c ∈ cells, c.x4 ≠ 0) ∧ NgIndependent cells := by
  constructor
  · rintro ⟨ys, h⟩
    obtain ⟨hz, w, hw, rfl⟩ := level_some h
    refine ⟨hz, fun p q r hk => ?_⟩
    have hd := ((solveLU_defined _).mp ⟨w, hw⟩).2.2
    have hk' : ∀ c ∈ cells, p * c.d1 + q * c.d2 + r * c.d3 = 0 := hk
    have dot : ∀ f : Cell K → K, p * wsum cells (fun c => f c * c.d1) + q * wsum cells (fun c => f c * c.d2)
        + r * wsum cells (fun c => f c * c.d3) = 0 := by
      intro f
      clear hd hw hz w hk h
      induction cells with
      | nil => simp [wsum]
      | cons c cs ih =>
        simp only [wsum_cons]
        have a := ih (fun x hx => hk' x (List.mem_cons_of_mem _ hx))
        have b := hk' c (by simp)
        linear_combination a + c.weight * f c * b
    have r0 := dot Cell.d1
    have r1 := dot Cell.d2
    have r2 := dot Cell.d3
    have s10 : wsum cells (fun c => c.d2 * c.d1) = (system cells).a01 := by
      rw [system_eq]; congr 1; funext c; ring
    have s20 : wsum cells (fun c => c.d3 * c.d1) = (system cells).a02 := by
      rw [system_eq]; congr 1; funext c; ring
    have s21 : wsum cells (fun c => c.d3 * c.d2) = (system cells).a12 := by
      rw [system_eq]; congr 1; funext c; ring
    have s00 : wsum cells (fun c => c.d1 * c.d1) = (system cells).a00 := by rw [system_eq]
    have s01 : wsum cells (fun c => c.d1 * c.d2) = (system cells).a01 := by rw [system_eq]
    have s02 : wsum cells (fun c => c.d1 * c.d3) = (system cells).a02 := by rw [system_eq]
    have s11 : wsum cells (fun c => c.d2 * c.d2) = (system cells).a11 := by rw [system_eq]
    have s12 : wsum cells (fun c => c.d2 * c.d3) = (system cells).a12 := by rw [system_eq]
    have s22 : wsum cells (fun c => c.d3 * c.d3) = (system cells).a22 := by rw [system_eq]
    simp only [s10, s20, s21, s00, s01, s02, s11, s12, s22] at r0 r1 r2
    generalize system cells = S at *
    refine ⟨?_, ?_, ?_⟩ <;> apply (mul_eq_zero.mp (?_ : det S * _ = 0)).resolve_left hd <;> unfold det
    · linear_combination (S.a11 * S.a22 - S.a12 * S.a12) * r0 - (S.a01 * S.a22 - S.a12 * S.a02) * r1
        + (S.a01 * S.a12 - S.a11 * S.a02) * r2
    · linear_combination (-(S.a01 * S.a22 - S.a12 * S.a02)) * r0 + (S.a00 * S.a22 - S.a02 * S.a02) * r1
        - (S.a00 * S.a12 - S.a01 * S.a02) * r2
    · linear_combination (S.a01 * S.a12 - S.a11 * S.a02) * r0 - (S.a00 * S.a12 - S.a01 * S.a02) * r1
        + (S.a00 * S.a11 - S.a01 * S.a01) * r2
  · rintro ⟨hz, hi⟩
    have key : ∀ p q r : K, p * p * (system cells).a00 + q * q * (system cells).a11 + r * r * (system cells).a22
        + 2 * p * q * (system cells).a01 + 2 * p * r * (system cells).a02 + 2 * q * r * (system cells).a12 = 0
        → p = 0 ∧ q = 0 ∧ r = 0 := by
      intro p q r e
      rw [← quad] at e
      exact hi p q r (wsum_sq_zero hz _ e)
    have h0 : (system cells).a00 ≠ 0 := fun e => by
      have := (key 1 0 0 (by rw [e]; ring)).1
      exact one_ne_zero this
    have h1 : minor2 (system cells) ≠ 0 := fun e => by
      unfold minor2 at e
      exact h0 (key (-(system cells).a01) (system cells).a00 0
        (by linear_combination (system cells).a00 * e)).2.1
    have h2 : det (system cells) ≠ 0 := fun e => by
      apply h1
      refine (key ((system cells).a01 * (system cells).a12 - (system cells).a02 * (system cells).a11)
        ((system cells).a01 * (system cells).a02 - (system cells).a00 * (system cells).a12)
        (minor2 (system cells)) ?_).2.2
      unfold det at e
      unfold minor2
      linear_combination ((system cells).a00 * (system cells).a11 - (system cells).a01 * (system cells).a01) * e
    obtain ⟨w, hw⟩ := (solveLU_defined _).mpr ⟨h0, h1, h2⟩
    refine ⟨cells.map (newVal w), ?_⟩
    unfold level
    rw [if_neg (by simpa using hz), hw]
    rfl

/-- C29 (converged, partial): if the last two iterates agree in every cell and acceleration gives finite
populations, it leaves them unchanged. Missing: identical iterates, for which it never does, see
`C29_refuted_identical`. -/
theorem C29_converged_partial (cells : List (Cell K)) (ys : List K) (h : level cells = some ys)
    (he : ∀ c ∈ cells, c.x4 = c.x3) : ys = cells.map (·.x4) := by
  obtain ⟨hz, w, hw, rfl⟩ := level_some h
  obtain ⟨e0, e1, e2⟩ := solveLU_correct _ _ hw
  have hq := quad cells w.1 w.2.1 w.2.2
  have zb : ∀ f : Cell K → K, wsum cells (fun c => c.d0 * f c) = 0 := fun f => by
    unfold wsum
    apply List.sum_eq_zero
    simp only [List.mem_map]
    rintro _ ⟨c, hc, rfl⟩
    simp [Cell.d0, he c hc]
  have b0 : (system cells).b0 = 0 := by rw [system_eq]; exact zb _
  have b1 : (system cells).b1 = 0 := by rw [system_eq]; exact zb _
  have b2 : (system cells).b2 = 0 := by rw [system_eq]; exact zb _
  rw [b0] at e0; rw [b1] at e1; rw [b2] at e2
  have q0 : (wsum cells fun c => (w.1 * c.d1 + w.2.1 * c.d2 + w.2.2 * c.d3) * (w.1 * c.d1 + w.2.1 * c.d2 + w.2.2 * c.d3)) = 0 := by
    rw [hq]; linear_combination w.1 * e0 + w.2.1 * e1 + w.2.2 * e2
  have hi := ((C29_defined_iff cells).mp ⟨_, h⟩).2
  obtain ⟨z0, z1, z2⟩ := hi w.1 w.2.1 w.2.2 (wsum_sq_zero hz _ q0)
  refine List.map_congr_left fun c _ => ?_
  simp [newVal, z0, z1, z2]

/-- C29 is **false** for iterates that agree: if the last four iterates of a level are the same in every cell
(in particular if all five are), acceleration turns the whole level into NaN. -/
theorem C29_refuted_identical (cells : List (Cell K)) (he : ∀ c ∈ cells, c.x1 = c.x2 ∧ c.x2 = c.x3 ∧ c.x3 = c.x4) :
    level cells = none := by
  rw [Option.eq_none_iff_forall_ne_some]
  intro ys h
  have hi := ((C29_defined_iff cells).mp ⟨_, h⟩).2
  have := hi 1 0 0 fun c hc => by
    obtain ⟨a, b, d⟩ := he c hc
    rw [← d, ← b]; ring
  exact one_ne_zero this.1

/-- Likewise a grid of fewer than three cells can never be accelerated: the level becomes NaN. -/
theorem C29_refuted_few_cells (cells : List (Cell K)) (hl : cells.length < 3) : level cells = none := by
  rw [Option.eq_none_iff_forall_ne_some]
  intro ys h
  have hi := ((C29_defined_iff cells).mp ⟨_, h⟩).2
  match cells, hl with
  | [], _ => exact one_ne_zero (hi 1 0 0 (by simp)).1
  | [c], _ =>
    obtain ⟨a, b, _⟩ := hi c.d2 (-c.d1) 0 fun x hx => by
      simp only [List.mem_singleton] at hx; subst hx
      change x.d2 * x.d1 + -x.d1 * x.d2 + 0 * x.d3 = 0
      ring
    have hb : c.d1 = 0 := by simpa using b
    exact one_ne_zero (hi 1 0 0 fun x hx => by
      simp only [List.mem_singleton] at hx; subst hx
      change 1 * x.d1 + 0 * x.d2 + 0 * x.d3 = 0
      rw [hb]; ring).1
  | [c, e], _ =>
    -- the cross product of the two difference vectors kills both
    obtain ⟨a, b, d⟩ := hi (c.d2 * e.d3 - c.d3 * e.d2) (c.d3 * e.d1 - c.d1 * e.d3) (c.d1 * e.d2 - c.d2 * e.d1)
      fun x hx => by
        simp only [List.mem_cons, List.not_mem_nil, or_false] at hx
        rcases hx with rfl | rfl
        · change (x.d2 * e.d3 - x.d3 * e.d2) * x.d1 + (x.d3 * e.d1 - x.d1 * e.d3) * x.d2
            + (x.d1 * e.d2 - x.d2 * e.d1) * x.d3 = 0
          ring
        · change (c.d2 * x.d3 - c.d3 * x.d2) * x.d1 + (c.d3 * x.d1 - c.d1 * x.d3) * x.d2
            + (c.d1 * x.d2 - c.d2 * x.d1) * x.d3 = 0
          ring
    -- parallel vectors: a single relation of the form (d2, -d1, 0), (d3, 0, -d1) or (1,0,0) exists
    obtain ⟨p1, q1, _⟩ := hi c.d2 (-c.d1) 0 fun x hx => by
      simp only [List.mem_cons, List.not_mem_nil, or_false] at hx
      rcases hx with rfl | rfl
      · change x.d2 * x.d1 + -x.d1 * x.d2 + 0 * x.d3 = 0; ring
      · change c.d2 * x.d1 + -c.d1 * x.d2 + 0 * x.d3 = 0; linear_combination -d
    obtain ⟨p2, q2, _⟩ := hi e.d2 (-e.d1) 0 fun x hx => by
      simp only [List.mem_cons, List.not_mem_nil, or_false] at hx
      rcases hx with rfl | rfl
      · change e.d2 * x.d1 + -e.d1 * x.d2 + 0 * x.d3 = 0; linear_combination d
      · change x.d2 * x.d1 + -x.d1 * x.d2 + 0 * x.d3 = 0; ring
    exact one_ne_zero (hi 1 0 0 fun x hx => by
      simp only [List.mem_cons, List.not_mem_nil, or_false] at hx
      rcases hx with rfl | rfl
      · change 1 * x.d1 + 0 * x.d2 + 0 * x.d3 = 0
        linear_combination -q1
      · change 1 * x.d1 + 0 * x.d2 + 0 * x.d3 = 0
        linear_combination -q2).1

/-- Why it is worth doing: if the five iterates of a level come from an affine iteration `x ↦ F x` over the cells
and some combination has zero residual, the accelerated populations are a fixed point of the iteration. -/
theorem C29_exact {n : Nat} (x : Fin 5 → Fin n → K) (F : (Fin n → K) → (Fin n → K))
    (aff : ∀ (a : K) (u v : Fin n → K) , F (fun i => a * u i + (1 - a) * v i) = fun i => a * F u i + (1 - a) * F v i)
    (hit : ∀ k : Fin 4, x k.succ = F (x k.castSucc))
    (ys : List K)
    (h : level (List.ofFn fun i => (⟨x 0 i, x 1 i, x 2 i, x 3 i, x 4 i⟩ : Cell K)) = some ys)
    (hr : ∃ p q r, NgResidual (List.ofFn fun i => (⟨x 0 i, x 1 i, x 2 i, x 3 i, x 4 i⟩ : Cell K)) p q r = 0) :
    ∃ y : Fin n → K, ys = List.ofFn y ∧ F y = y := by
  set cells := List.ofFn fun i => (⟨x 0 i, x 1 i, x 2 i, x 3 i, x 4 i⟩ : Cell K) with hc
  obtain ⟨w4, w3, w2, w1, hs, hy, hmin⟩ := C29_weights cells ys h
  have hz := ((C29_defined_iff cells).mp ⟨_, h⟩).1
  obtain ⟨p, q, r, h0⟩ := hr
  have hn : ∀ p q r, 0 ≤ NgResidual cells p q r := fun p q r => by
    rw [ngResidual_eq]; exact wsum_nonneg hz _
  have z : NgResidual cells w3 w2 w1 = 0 := le_antisymm (h0 ▸ hmin p q r) (hn _ _ _)
  rw [ngResidual_eq] at z
  have zc := wsum_sq_zero hz _ z
  have zi : ∀ i, w4 * x 4 i + w3 * x 3 i + w2 * x 2 i + w1 * x 1 i
      = w4 * x 3 i + w3 * x 2 i + w2 * x 1 i + w1 * x 0 i := fun i => by
    have := zc ⟨x 0 i, x 1 i, x 2 i, x 3 i, x 4 i⟩ (by rw [hc, List.mem_ofFn]; exact ⟨i, rfl⟩)
    simp only [Cell.d0, Cell.d1, Cell.d2, Cell.d3] at this
    have e4 : w4 = 1 - w3 - w2 - w1 := by linear_combination hs
    rw [e4]; linear_combination this
  -- F of an affine combination of four vectors
  have aff3 : ∀ (a b c : K) (u v w t : Fin n → K),
      F (fun i => a * u i + b * v i + c * w i + (1 - a - b - c) * t i)
        = fun i => a * F u i + b * F v i + c * F w i + (1 - a - b - c) * F t i := by
    intro a b c u v w t
    -- write it as 2 * (half-sums); affine maps preserve midpoints and extrapolations
    have e1 : (fun i => a * u i + b * v i + c * w i + (1 - a - b - c) * t i)
        = fun i => (2 : K) * (fun i => (1 / 2 : K) * (fun i => a * u i + (1 - a) * t i) i
            + (1 - 1 / 2) * (fun i => (2 : K) * (fun i => (1 / 2 : K) * (fun i => b * v i + (1 - b) * t i) i
              + (1 - 1 / 2) * (fun i => c * w i + (1 - c) * t i) i) i + (1 - 2) * t i) i) i
          + (1 - 2) * t i := by
      funext i; ring
    rw [e1, aff, aff, aff, aff, aff, aff, aff]
    funext i; ring
  refine ⟨fun i => w4 * x 4 i + w3 * x 3 i + w2 * x 2 i + w1 * x 1 i, ?_, ?_⟩
  · rw [hy, hc, List.map_ofFn]; rfl
  · have e0 : (fun i => w4 * x 4 i + w3 * x 3 i + w2 * x 2 i + w1 * x 1 i)
        = fun i => w4 * x 3 i + w3 * x 2 i + w2 * x 1 i + (1 - w4 - w3 - w2) * x 0 i := by
      funext i; rw [zi i]; linear_combination (x 0 i) * hs
    conv_lhs => rw [e0, aff3]
    have i0 : F (x 3) = x 4 := (hit 3).symm
    have i1 : F (x 2) = x 3 := (hit 2).symm
    have i2 : F (x 1) = x 2 := (hit 1).symm
    have i3 : F (x 0) = x 1 := (hit 0).symm
    rw [i0, i1, i2, i3]
    funext i
    linear_combination (-x 1 i) * hs

end

/-- Populations are **not** conserved by acceleration: weights are computed per level, so although the two levels
add up to 4 in every cell at each of the five iterates, the accelerated ones do not. -/
theorem C29_refuted_conservation :
    ∃ (a b : List (Cell ℚ)) (ya yb : List ℚ),
      (∀ c ∈ a.zip b, c.1.x0 + c.2.x0 = 4 ∧ c.1.x1 + c.2.x1 = 4 ∧ c.1.x2 + c.2.x2 = 4 ∧
        c.1.x3 + c.2.x3 = 4 ∧ c.1.x4 + c.2.x4 = 4) ∧
      level a = some ya ∧ level b = some yb ∧ (ya.zipWith (· + ·) yb)[1]? = some (24 / 5) := by
  refine ⟨[⟨3, 2, 3, 3, 3⟩, ⟨3, 3, 2, 2, 1⟩, ⟨2, 3, 3, 3, 3⟩, ⟨1, 2, 2, 3, 3⟩],
    [⟨1, 2, 1, 1, 1⟩, ⟨1, 1, 2, 2, 3⟩, ⟨2, 1, 1, 1, 1⟩, ⟨3, 2, 2, 1, 1⟩],
    [3, 19 / 10, 3, 3], [1, 29 / 10, 1, 1], ?_, ?_, ?_, ?_⟩
  · decide +kernel
  · decide +kernel
  · decide +kernel
  · decide +kernel

/-- Nor is positivity: five positive iterates can be accelerated to a negative population. -/
theorem C29_refuted_positive :
    ∃ (a : List (Cell ℚ)) (y : List ℚ), (∀ c ∈ a, 0 < c.x0 ∧ 0 < c.x1 ∧ 0 < c.x2 ∧ 0 < c.x3 ∧ 0 < c.x4) ∧
      level a = some y ∧ ∃ v ∈ y, v < 0 := by
  refine ⟨[⟨3, 1, 3, 2, 1⟩, ⟨1, 2, 1, 2, 3⟩, ⟨1, 3, 3, 2, 2⟩, ⟨3, 3, 1, 1, 1⟩],
    [-3 / 5, 109 / 20, 6 / 5, -7 / 10], ?_, ?_, -3 / 5, ?_, ?_⟩
  all_goals decide +kernel

/-- Non-vacuity of `C29_weights`, `C29_defined_iff` and `C29_converged_partial`: a level with three cells whose last two iterates agree. -/
example : ∃ cells : List (Cell ℚ), (∀ c ∈ cells, c.x4 = c.x3) ∧ level cells = some [1, 2, 3] := by
  refine ⟨[⟨1, 1, 2, 1, 1⟩, ⟨2, 1, 2, 2, 2⟩, ⟨1, 3, 3, 3, 3⟩], ?_, ?_⟩
  all_goals decide +kernel

end DexRT
