import Verif.Model.Clip
import Mathlib.Tactic.Linarith
import Mathlib.Tactic.FieldSimp
import Mathlib.Tactic.Positivity
/-! Lemmas for the ray clippers. -/
namespace DexRT
open Classical

/-- `fin t` is not below the lower bound `a` (for a bound that is not NaN). -/
def geB (a : Ext) (t : ℝ) : Prop := ¬ Ext.lt (.fin t) a
/-- `fin t` is not above the upper bound `b`. -/
def leB (b : Ext) (t : ℝ) : Prop := ¬ Ext.lt b (.fin t)

theorem Ext.lt_fin_fin (a b : ℝ) : Ext.lt (.fin a) (.fin b) ↔ a < b := Iff.rfl

theorem geB_fin (a t : ℝ) : geB (.fin a) t ↔ a ≤ t := by simp [geB, Ext.lt]
theorem geB_pinf (t : ℝ) : geB .pinf t ↔ False := by simp [geB, Ext.lt]
theorem geB_ninf (t : ℝ) : geB .ninf t ↔ True := by simp [geB, Ext.lt]
theorem leB_fin (a t : ℝ) : leB (.fin a) t ↔ t ≤ a := by simp [leB, Ext.lt]
theorem leB_pinf (t : ℝ) : leB .pinf t ↔ True := by simp [leB, Ext.lt]
theorem leB_ninf (t : ℝ) : leB .ninf t ↔ False := by simp [leB, Ext.lt]

theorem raise_fin (x y : ℝ) : Ext.raise (.fin x) (.fin y) = .fin (max x y) := by
  unfold Ext.raise
  by_cases h : x < y
  · rw [if_pos (by exact h), max_eq_right h.le]
  · rw [if_neg (by exact h), max_eq_left (not_lt.1 h)]

theorem lower_fin (x y : ℝ) : Ext.lower (.fin x) (.fin y) = .fin (min x y) := by
  unfold Ext.lower
  by_cases h : y < x
  · rw [if_pos (by exact h), min_eq_right h.le]
  · rw [if_neg (by exact h), min_eq_left (not_lt.1 h)]

/-- Raising the lower bound to `c` when `c` is larger. -/
theorem geB_raise (a c : Ext) (ha : a ≠ .nan) (t : ℝ) :
    geB (a.raise c) t ↔ geB a t ∧ (c = .nan ∨ geB c t) := by
  cases a <;> cases c <;> first
    | (simp [raise_fin, geB_fin]; done)
    | simp_all [Ext.raise, geB, Ext.lt]

theorem leB_lower (b c : Ext) (hb : b ≠ .nan) (t : ℝ) :
    leB (b.lower c) t ↔ leB b t ∧ (c = .nan ∨ leB c t) := by
  cases b <;> cases c <;> first
    | (simp [lower_fin, leB_fin]; done)
    | simp_all [Ext.lower, leB, Ext.lt]

/-- A bound that is at least `fin x`. -/
def aboveFin (x : ℝ) : Ext → Prop
  | .fin y => x ≤ y
  | .pinf => True
  | _ => False

/-- A bound that is at most `fin x`. -/
def belowFin (x : ℝ) : Ext → Prop
  | .fin y => y ≤ x
  | .ninf => True
  | _ => False

theorem aboveFin_raise (x : ℝ) (a c : Ext) (ha : aboveFin x a) : aboveFin x (a.raise c) := by
  cases a <;> cases c <;> first
    | (rw [raise_fin]; exact le_trans ha (le_max_left _ _))
    | simp_all [Ext.raise, Ext.lt, aboveFin]

theorem belowFin_lower (x : ℝ) (b c : Ext) (hb : belowFin x b) : belowFin x (b.lower c) := by
  cases b <;> cases c <;> first
    | (rw [lower_fin]; exact le_trans (min_le_left _ _) hb)
    | simp_all [Ext.lower, Ext.lt, belowFin]

theorem aboveFin.ne_nan {x : ℝ} {a : Ext} (h : aboveFin x a) : a ≠ .nan := by
  rintro rfl; exact h

theorem belowFin.ne_nan {x : ℝ} {a : Ext} (h : belowFin x a) : a ≠ .nan := by
  rintro rfl; exact h

/-- One slab: the two clipped values bound exactly the parameters for which the coordinate is in `[a, b]`,
unless the direction is a negative zero and the origin lies on the edge of the slab. -/
theorem slab_iff (a b o d : ℝ) (hab : a < b) (nz : Bool) (hd : d = 0 → nz = false ∨ (o ≠ a ∧ o ≠ b)) (t : ℝ) :
    let a' := Ext.smul (a - o) (Ext.div 1 d nz)
    let b' := Ext.smul (b - o) (Ext.div 1 d nz)
    let lo := if Ext.lt b' a' then b' else a'
    let hi := if Ext.lt b' a' then a' else b'
    ((lo = .nan ∨ geB lo t) ∧ (hi = .nan ∨ leB hi t)) ↔ (a ≤ o + t * d ∧ o + t * d ≤ b) := by
  intro a' b' lo hi
  by_cases h0 : d = 0
  · rcases hd h0 with hnz | ⟨hoa, hob⟩
    on_goal 2 =>
      cases nz with
      | false => ?_
      | true => ?_
    on_goal 3 =>
      subst h0
      have ha' : a' = if 0 < a - o then Ext.ninf else if a - o < 0 then .pinf else .nan := by
        show Ext.smul _ (Ext.div 1 0 true) = _
        simp [Ext.div, Ext.smul]
      have hb' : b' = if 0 < b - o then Ext.ninf else if b - o < 0 then .pinf else .nan := by
        show Ext.smul _ (Ext.div 1 0 true) = _
        simp [Ext.div, Ext.smul]
      rcases lt_or_gt_of_ne hoa.symm with h1 | h1 <;> rcases lt_or_gt_of_ne hob.symm with h2 | h2 <;>
        try (exfalso; linarith)
      · have e1 : a' = .pinf := by rw [ha', if_neg (by linarith), if_pos (by linarith)]
        have e2 : b' = .pinf := by rw [hb', if_neg (by linarith), if_pos (by linarith)]
        simp only [lo, hi, e1, e2, Ext.lt, geB, leB, if_false]
        simp; intro; linarith
      · have e1 : a' = .pinf := by rw [ha', if_neg (by linarith), if_pos (by linarith)]
        have e2 : b' = .ninf := by rw [hb', if_pos (by linarith)]
        simp only [lo, hi, e1, e2, Ext.lt, geB, leB, if_true]
        simp; constructor <;> linarith
      · have e1 : a' = .ninf := by rw [ha', if_pos (by linarith)]
        have e2 : b' = .ninf := by rw [hb', if_pos (by linarith)]
        simp only [lo, hi, e1, e2, Ext.lt, geB, leB, if_false]
        simp; intro; linarith
    all_goals (try subst hnz); subst h0
    all_goals
    have ha' : a' = if 0 < a - o then Ext.pinf else if a - o < 0 then .ninf else .nan := by
      show Ext.smul _ (Ext.div 1 0 false) = _
      simp [Ext.div, Ext.smul]
    have hb' : b' = if 0 < b - o then Ext.pinf else if b - o < 0 then .ninf else .nan := by
      show Ext.smul _ (Ext.div 1 0 false) = _
      simp [Ext.div, Ext.smul]
    rcases lt_trichotomy a o with h1 | h1 | h1 <;> rcases lt_trichotomy b o with h2 | h2 | h2 <;>
      try (exfalso; linarith)
    · have e1 : a' = .ninf := by rw [ha', if_neg (by linarith), if_pos (by linarith)]
      have e2 : b' = .ninf := by rw [hb', if_neg (by linarith), if_pos (by linarith)]
      simp only [lo, hi, e1, e2, Ext.lt, geB, leB, if_false]
      simp; intro; linarith
    · have e1 : a' = .ninf := by rw [ha', if_neg (by linarith), if_pos (by linarith)]
      have e2 : b' = .nan := by rw [hb', if_neg (by linarith), if_neg (by linarith)]
      simp only [lo, hi, e1, e2, Ext.lt, geB, leB, if_false]
      simp; constructor <;> linarith
    · have e1 : a' = .ninf := by rw [ha', if_neg (by linarith), if_pos (by linarith)]
      have e2 : b' = .pinf := by rw [hb', if_pos (by linarith)]
      simp only [lo, hi, e1, e2, Ext.lt, geB, leB, if_false]
      simp; constructor <;> linarith
    · have e1 : a' = .nan := by rw [ha', if_neg (by linarith), if_neg (by linarith)]
      have e2 : b' = .pinf := by rw [hb', if_pos (by linarith)]
      simp only [lo, hi, e1, e2, Ext.lt, geB, leB, if_false]
      simp; constructor <;> linarith
    · have e1 : a' = .pinf := by rw [ha', if_pos (by linarith)]
      have e2 : b' = .pinf := by rw [hb', if_pos (by linarith)]
      simp only [lo, hi, e1, e2, Ext.lt, geB, leB, if_false]
      simp; intro; linarith
  · have ha' : a' = .fin ((a - o) * (1 / d)) := by
      show Ext.smul _ (Ext.div 1 d nz) = _
      rw [Ext.div, if_neg h0]; rfl
    have hb' : b' = .fin ((b - o) * (1 / d)) := by
      show Ext.smul _ (Ext.div 1 d nz) = _
      rw [Ext.div, if_neg h0]; rfl
    rcases lt_or_gt_of_ne h0 with hneg | hpos
    · have hlt : (b - o) * (1 / d) < (a - o) * (1 / d) := by
        have : 1 / d < 0 := by exact one_div_neg.mpr hneg
        nlinarith
      have hlt' : Ext.lt b' a' := by rw [ha', hb']; exact hlt
      simp only [lo, hi, if_pos hlt', ha', hb', geB, leB, Ext.lt, reduceCtorEq, false_or, not_lt, mul_one_div]
      rw [div_le_iff_of_neg hneg, le_div_iff_of_neg hneg]
      constructor
      · rintro ⟨h1, h2⟩; constructor <;> linarith
      · rintro ⟨h1, h2⟩; constructor <;> linarith
    · have hlt : ¬ (b - o) * (1 / d) < (a - o) * (1 / d) := by
        have : 0 < 1 / d := by positivity
        nlinarith
      have hlt' : ¬ Ext.lt b' a' := by rw [ha', hb']; exact hlt
      simp only [lo, hi, if_neg hlt', ha', hb', geB, leB, Ext.lt, reduceCtorEq, false_or, not_lt, mul_one_div]
      rw [div_le_iff₀ hpos, le_div_iff₀ hpos]
      constructor
      · rintro ⟨h1, h2⟩; constructor <;> linarith
      · rintro ⟨h1, h2⟩; constructor <;> linarith

/-- What the loop over the axes computes. -/
theorem intersectsLoop_spec {n : ℕ} (r : RaySeg n) (bbox : Bbox n) (shrink T0 T1 : ℝ)
    (hz : ∀ i, r.d i = 0 → r.negZero i = false ∨ (r.o i ≠ bbox.min i + shrink ∧ r.o i ≠ bbox.max i - shrink)) :
    ∀ (axs : List (Fin n)) (t0 t1 : Ext), aboveFin T0 t0 → belowFin T1 t1 → ¬ Ext.lt t1 t0 →
      (match intersectsLoop r bbox shrink axs t0 t1 with
        | (true, a, b) => aboveFin T0 a ∧ belowFin T1 b ∧ ¬ Ext.lt b a ∧
            (∀ i ∈ axs, (bbox.min i : ℝ) + shrink < bbox.max i - shrink) ∧
            ∀ t, (geB a t ∧ leB b t) ↔ (geB t0 t ∧ leB t1 t ∧
              ∀ i ∈ axs, (bbox.min i : ℝ) + shrink ≤ r.pt t i ∧ r.pt t i ≤ bbox.max i - shrink)
        | (false, _, _) => (∃ i ∈ axs, (bbox.max i : ℝ) - shrink ≤ bbox.min i + shrink) ∨
            ∀ t, geB t0 t → leB t1 t →
              ∃ i ∈ axs, ¬ ((bbox.min i : ℝ) + shrink ≤ r.pt t i ∧ r.pt t i ≤ bbox.max i - shrink))
  | [], t0, t1, h0, h1, h2 => by
    simp only [intersectsLoop]
    exact ⟨h0, h1, h2, by simp, fun t => by simp⟩
  | ax :: rest, t0, t1, h0, h1, h2 => by
    unfold intersectsLoop
    by_cases hd : (bbox.max ax : ℝ) - shrink ≤ bbox.min ax + shrink
    · simp only [hd, if_true]
      exact Or.inl ⟨ax, by simp, hd⟩
    · simp only [hd, if_false]
      have hab : (bbox.min ax : ℝ) + shrink < bbox.max ax - shrink := lt_of_not_ge hd
      have hs := fun t => slab_iff _ _ (r.o ax) (r.d ax) hab (r.negZero ax) (hz ax) t
      set A := Ext.smul ((bbox.min ax : ℝ) + shrink - r.o ax) (r.invD ax) with hA
      set B := Ext.smul ((bbox.max ax : ℝ) - shrink - r.o ax) (r.invD ax) with hB
      have hs' : ∀ t, (((if Ext.lt B A then B else A) = .nan ∨ geB (if Ext.lt B A then B else A) t) ∧
          ((if Ext.lt B A then A else B) = .nan ∨ leB (if Ext.lt B A then A else B) t)) ↔ _ := hs
      clear_value A B
      generalize hlo : (if Ext.lt B A then B else A) = lo at *
      generalize hhi : (if Ext.lt B A then A else B) = hi at *
      have hg := fun t => geB_raise t0 lo h0.ne_nan t
      have hl := fun t => leB_lower t1 hi h1.ne_nan t
      have h0' := aboveFin_raise T0 t0 lo h0
      have h1' := belowFin_lower T1 t1 hi h1
      generalize t0.raise lo = t0' at *
      generalize t1.lower hi = t1' at *
      by_cases hx : Ext.lt t1' t0'
      · simp only [hx, if_true]
        right
        intro t ht0 ht1
        refine ⟨ax, by simp, fun hin => ?_⟩
        have := (hs' t).2 hin
        have e0 : geB t0' t := (hg t).2 ⟨ht0, this.1⟩
        have e1 : leB t1' t := (hl t).2 ⟨ht1, this.2⟩
        revert hx e0 e1 h0' h1'
        cases t0' <;> cases t1' <;> simp [Ext.lt, geB, leB, aboveFin, belowFin]
        intros; linarith
      · simp only [hx, if_false]
        have ih := intersectsLoop_spec r bbox shrink T0 T1 hz rest t0' t1' h0' h1' hx
        revert ih
        rcases intersectsLoop r bbox shrink rest t0' t1' with ⟨ok, a, b⟩
        cases ok
        · rintro (⟨i, hi', h⟩ | h)
          · exact Or.inl ⟨i, by simp [hi'], h⟩
          · right
            intro t ht0 ht1
            by_cases hin : (bbox.min ax : ℝ) + shrink ≤ r.pt t ax ∧ r.pt t ax ≤ bbox.max ax - shrink
            · have := (hs' t).2 hin
              obtain ⟨i, hi', hh⟩ := h t ((hg t).2 ⟨ht0, this.1⟩) ((hl t).2 ⟨ht1, this.2⟩)
              exact ⟨i, by simp [hi'], hh⟩
            · exact ⟨ax, by simp, hin⟩
        · rintro ⟨ih1, ih2, ih3, ih4, ih5⟩
          refine ⟨ih1, ih2, ih3, ?_, fun t => ?_⟩
          · intro i hi'
            rcases List.mem_cons.1 hi' with rfl | hi'
            · exact hab
            · exact ih4 i hi'
          · rw [ih5 t, hg t, hl t]
            constructor
            · rintro ⟨⟨a1, a2⟩, ⟨a3, a4⟩, a5⟩
              refine ⟨a1, a3, ?_⟩
              intro i hi'
              rcases List.mem_cons.1 hi' with rfl | hi'
              · exact (hs' t).1 ⟨a2, a4⟩
              · exact a5 i hi'
            · rintro ⟨a1, a3, a5⟩
              have := (hs' t).2 (a5 ax (by simp))
              exact ⟨⟨a1, this.1⟩, ⟨a3, this.2⟩, fun i hi' => a5 i (by simp [hi'])⟩

/-- An empty parameter range stays empty. -/
theorem lower_lt_raise (x y : ℝ) (h : y < x) (lo hi : Ext) :
    Ext.lt ((Ext.fin y).lower hi) ((Ext.fin x).raise lo) := by
  have e0 := aboveFin_raise x (.fin x) lo (le_refl x)
  have e1 := belowFin_lower y (.fin y) hi (le_refl y)
  generalize (Ext.fin x).raise lo = a at *
  generalize (Ext.fin y).lower hi = b at *
  match a, b, e0, e1 with
  | .fin a, .fin b, e0, e1 =>
    have e0 : x ≤ a := e0
    have e1 : b ≤ y := e1
    show b < a
    linarith
  | .pinf, .fin b, _, _ => trivial
  | .fin a, .ninf, _, _ => trivial
  | .pinf, .ninf, _, _ => trivial

/-! ### `clip_ray_to_box` -/

theorem clipStart_above (lo hi s e : ℝ) (acc : Ext) (h : aboveFin 0 acc) : aboveFin 0 (clipStart lo hi s e acc) := by
  unfold clipStart
  split
  · exact aboveFin_raise _ _ _ h
  · split
    · exact aboveFin_raise _ _ _ h
    · exact h

theorem clipEnd_above (lo hi s e : ℝ) (acc : Ext) (h : aboveFin 0 acc) : aboveFin 0 (clipEnd lo hi s e acc) := by
  unfold clipEnd
  split
  · exact aboveFin_raise _ _ _ h
  · split
    · exact aboveFin_raise _ _ _ h
    · exact h

theorem div_pos_zero (x : ℝ) (hx : 0 < x) : Ext.div x 0 false = .pinf := by simp [Ext.div, Ext.smul, hx]
theorem div_neg_zero (x : ℝ) (hx : x < 0) : Ext.div x 0 false = .ninf := by
  simp [Ext.div, Ext.smul, hx, not_lt.2 hx.le]
theorem div_pos_nzero (x : ℝ) (hx : 0 < x) : Ext.div x 0 true = .ninf := by simp [Ext.div, Ext.smul, hx]
theorem div_neg_nzero (x : ℝ) (hx : x < 0) : Ext.div x 0 true = .pinf := by
  simp [Ext.div, Ext.smul, hx, not_lt.2 hx.le]

/-- One dimension: the new bounds admit exactly the parameters in the slab. -/
theorem clip_dim_iff (lo hi s e : ℝ) (hlh : lo ≤ hi) (a b : Ext) (ha : aboveFin 0 a) (hb : aboveFin 0 b)
    (u : ℝ) (hu0 : 0 ≤ u) (hu1 : u ≤ 1) :
    (geB (clipStart lo hi s e a) u ∧ geB (clipEnd lo hi s e b) (1 - u)) ↔
      (geB a u ∧ geB b (1 - u) ∧ lo ≤ s + u * (e - s) ∧ s + u * (e - s) ≤ hi) := by
  have na := ha.ne_nan
  have nb := hb.ne_nan
  rcases lt_trichotomy e s with hes | hes | hes
  · -- moving down
    have hl : e - s < 0 := by linarith
    have hl' : -(e - s) > 0 := by linarith
    have hd : ∀ num z, Ext.div num (e - s) z = .fin (num / (e - s)) := fun num z => by
      rw [Ext.div, if_neg hl.ne]
    have hd' : ∀ num z, Ext.div num (-(e - s)) z = .fin (num / (-(e - s))) := fun num z => by
      rw [Ext.div, if_neg hl'.ne']
    have hmul1 : u * (e - s) ≤ 0 := by nlinarith
    have hmul2 : e - s ≤ u * (e - s) := by nlinarith
    unfold clipStart clipEnd
    by_cases c1 : s < lo
    · have c2 : e < lo := by linarith
      simp only [if_pos c1, if_pos c2, geB_raise _ _ na, geB_raise _ _ nb, hd, hd', geB_fin, reduceCtorEq, false_or]
      rw [div_le_iff_of_neg hl, div_le_iff₀ hl']
      constructor
      · rintro ⟨_, _, h⟩; exfalso; nlinarith
      · rintro ⟨_, _, h, _⟩; exfalso; linarith
    · by_cases c3 : hi < s
      · by_cases c2 : e < lo
        · simp only [if_neg c1, if_pos c3, if_pos c2, geB_raise _ _ na, geB_raise _ _ nb, hd, hd', geB_fin, reduceCtorEq, false_or]
          rw [div_le_iff_of_neg hl, div_le_iff₀ hl']
          constructor
          · rintro ⟨⟨h1, h2⟩, h3, h4⟩; exact ⟨h1, h3, by nlinarith, by nlinarith⟩
          · rintro ⟨h1, h3, h2, h4⟩; exact ⟨⟨h1, by nlinarith⟩, h3, by nlinarith⟩
        · by_cases c4 : hi < e
          · simp only [if_neg c1, if_pos c3, if_neg c2, if_pos c4, geB_raise _ _ na, geB_raise _ _ nb, hd, hd', geB_fin, reduceCtorEq, false_or]
            rw [div_le_iff_of_neg hl, div_le_iff₀ hl']
            constructor
            · rintro ⟨⟨h1, h2⟩, h3, h4⟩; exfalso; nlinarith
            · rintro ⟨h1, h3, h2, h4⟩; exfalso; linarith
          · simp only [if_neg c1, if_pos c3, if_neg c2, if_neg c4, geB_raise _ _ na, hd, geB_fin, reduceCtorEq, false_or]
            rw [div_le_iff_of_neg hl]
            constructor
            · rintro ⟨⟨h1, h2⟩, h3⟩; exact ⟨h1, h3, by linarith, by linarith⟩
            · rintro ⟨h1, h3, h2, h4⟩; exact ⟨⟨h1, by linarith⟩, h3⟩
      · by_cases c2 : e < lo
        · simp only [if_neg c1, if_neg c3, if_pos c2, geB_raise _ _ nb, hd', geB_fin, reduceCtorEq, false_or]
          rw [div_le_iff₀ hl']
          constructor
          · rintro ⟨h1, h3, h4⟩; exact ⟨h1, h3, by nlinarith, by linarith⟩
          · rintro ⟨h1, h3, h2, h4⟩; exact ⟨h1, h3, by nlinarith⟩
        · have c4 : ¬ hi < e := by linarith
          simp only [if_neg c1, if_neg c3, if_neg c2, if_neg c4]
          constructor
          · rintro ⟨h1, h3⟩; exact ⟨h1, h3, by linarith, by linarith⟩
          · rintro ⟨h1, h3, _⟩; exact ⟨h1, h3⟩
  · subst hes
    unfold clipStart clipEnd
    simp only [sub_self, neg_zero, mul_zero, add_zero]
    by_cases c1 : e < lo
    · simp only [if_pos c1, geB_raise _ _ na, geB_raise _ _ nb, div_pos_zero _ (sub_pos.2 c1), div_pos_nzero _ (sub_pos.2 c1),
        geB_pinf, geB_ninf, reduceCtorEq, false_or]
      constructor
      · rintro ⟨⟨_, h⟩, _⟩; exact h.elim
      · rintro ⟨_, _, h, _⟩; exfalso; linarith
    · by_cases c3 : hi < e
      · simp only [if_neg c1, if_pos c3, geB_raise _ _ na, geB_raise _ _ nb, div_neg_zero _ (sub_neg.2 c3), div_neg_nzero _ (sub_neg.2 c3),
          geB_pinf, geB_ninf, reduceCtorEq, false_or]
        constructor
        · rintro ⟨_, _, h⟩; exact h.elim
        · rintro ⟨_, _, _, h⟩; exfalso; linarith
      · simp only [if_neg c1, if_neg c3]
        constructor
        · rintro ⟨h1, h3⟩; exact ⟨h1, h3, by linarith, by linarith⟩
        · rintro ⟨h1, h3, _⟩; exact ⟨h1, h3⟩
  · -- moving up
    have hl : 0 < e - s := by linarith
    have hl' : -(e - s) < 0 := by linarith
    have hd : ∀ num z, Ext.div num (e - s) z = .fin (num / (e - s)) := fun num z => by
      rw [Ext.div, if_neg hl.ne']
    have hd' : ∀ num z, Ext.div num (-(e - s)) z = .fin (num / (-(e - s))) := fun num z => by
      rw [Ext.div, if_neg hl'.ne]
    have hmul1 : 0 ≤ u * (e - s) := by nlinarith
    have hmul2 : u * (e - s) ≤ e - s := by nlinarith
    unfold clipStart clipEnd
    by_cases c1 : s < lo
    · by_cases c2 : e < lo
      · simp only [if_pos c1, if_pos c2, geB_raise _ _ na, geB_raise _ _ nb, hd, hd', geB_fin, reduceCtorEq, false_or]
        rw [div_le_iff₀ hl, div_le_iff_of_neg hl']
        constructor
        · rintro ⟨⟨_, h⟩, _, h'⟩; exfalso; nlinarith
        · rintro ⟨_, _, h, _⟩; exfalso; linarith
      · by_cases c4 : hi < e
        · simp only [if_pos c1, if_neg c2, if_pos c4, geB_raise _ _ na, geB_raise _ _ nb, hd, hd', geB_fin, reduceCtorEq, false_or]
          rw [div_le_iff₀ hl, div_le_iff_of_neg hl']
          constructor
          · rintro ⟨⟨h1, h⟩, h2, h'⟩; exact ⟨h1, h2, by linarith, by nlinarith⟩
          · rintro ⟨h1, h2, h, h'⟩; exact ⟨⟨h1, by linarith⟩, h2, by nlinarith⟩
        · simp only [if_pos c1, if_neg c2, if_neg c4, geB_raise _ _ na, hd, geB_fin, reduceCtorEq, false_or]
          rw [div_le_iff₀ hl]
          constructor
          · rintro ⟨⟨h1, h⟩, h2⟩; exact ⟨h1, h2, by linarith, by linarith⟩
          · rintro ⟨h1, h2, h, h'⟩; exact ⟨⟨h1, by linarith⟩, h2⟩
    · by_cases c3 : hi < s
      · have c2 : ¬ e < lo := by linarith
        have c4 : hi < e := by linarith
        simp only [if_neg c1, if_pos c3, if_neg c2, if_pos c4, geB_raise _ _ na, geB_raise _ _ nb, hd, hd', geB_fin, reduceCtorEq, false_or]
        rw [div_le_iff₀ hl, div_le_iff_of_neg hl']
        constructor
        · rintro ⟨⟨h1, h⟩, h2, h'⟩; exfalso; nlinarith
        · rintro ⟨h1, h2, h, h'⟩; exfalso; linarith
      · have c2 : ¬ e < lo := by linarith
        by_cases c4 : hi < e
        · simp only [if_neg c1, if_neg c3, if_neg c2, if_pos c4, geB_raise _ _ nb, hd', geB_fin, reduceCtorEq, false_or]
          rw [div_le_iff_of_neg hl']
          constructor
          · rintro ⟨h1, h2, h'⟩; exact ⟨h1, h2, by linarith, by nlinarith⟩
          · rintro ⟨h1, h2, h, h'⟩; exact ⟨h1, h2, by nlinarith⟩
        · simp only [if_neg c1, if_neg c3, if_neg c2, if_neg c4]
          constructor
          · rintro ⟨h1, h3⟩; exact ⟨h1, h3, by linarith, by linarith⟩
          · rintro ⟨h1, h3, _⟩; exact ⟨h1, h3⟩

/-- All dimensions. -/
theorem clip_fold_iff {n : ℕ} (ray : RayStartEnd n) (box : ClipBox n) (hbox : ∀ d, box.lo d ≤ box.hi d)
    (u : ℝ) (hu0 : 0 ≤ u) (hu1 : u ≤ 1) : ∀ (ds : List (Fin n)) (a b : Ext), aboveFin 0 a → aboveFin 0 b →
    (aboveFin 0 (ds.foldl (fun a d => clipStart (box.lo d) (box.hi d) (ray.start d) (ray.stop d) a) a) ∧
     aboveFin 0 (ds.foldl (fun a d => clipEnd (box.lo d) (box.hi d) (ray.start d) (ray.stop d) a) b)) ∧
    ((geB (ds.foldl (fun a d => clipStart (box.lo d) (box.hi d) (ray.start d) (ray.stop d) a) a) u ∧
      geB (ds.foldl (fun a d => clipEnd (box.lo d) (box.hi d) (ray.start d) (ray.stop d) a) b) (1 - u)) ↔
     (geB a u ∧ geB b (1 - u) ∧ ∀ d ∈ ds, box.lo d ≤ ray.start d + u * (ray.stop d - ray.start d) ∧
        ray.start d + u * (ray.stop d - ray.start d) ≤ box.hi d))
  | [], a, b, ha, hb => by simp [ha, hb]
  | d :: ds, a, b, ha, hb => by
    obtain ⟨h1, h2⟩ := clip_fold_iff ray box hbox u hu0 hu1 ds _ _ (clipStart_above _ _ _ _ a ha) (clipEnd_above _ _ _ _ b hb)
    refine ⟨h1, ?_⟩
    simp only [List.foldl_cons]
    rw [h2]
    have := clip_dim_iff (box.lo d) (box.hi d) (ray.start d) (ray.stop d) (hbox d) a b ha hb u hu0 hu1
    rw [← and_assoc, this]
    simp only [List.mem_cons, forall_eq_or_imp]
    tauto

end DexRT
