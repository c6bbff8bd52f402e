import Verif.Lemmas.LineSide
import Verif.Lemmas.LineStore
/-! Lemmas about looking samples up, extending them and interpolating between lines. -/
namespace DexRT.LineSweep
open DexRT
open DexRT.VelInterp (truncInt fits_iff)

theorem before_lt (nums : List ℤ) (h : ∀ x ∈ nums, 1 ≤ x) (i j : ℕ) (hij : i < j) (hj : j ≤ nums.length) : before nums i < before nums j := by
  induction j with
  | zero => omega
  | succ j ih =>
    have e := before_succ nums j
    have hm : 1 ≤ nums.getD j 0 := by
      rw [List.getD, List.getElem?_eq_getElem (by omega), Option.getD_some]
      exact h _ (List.getElem_mem _)
    rcases Nat.lt_or_ge i j with h' | h'
    · have := ih h' (by omega); omega
    · have : i = j := by omega
      subst this; omega

theorem bracket (f : ℕ → ℤ) (n : ℕ) (x : ℤ) (h0 : f 0 ≤ x) (h1 : x < f n) : ∃ l, l < n ∧ f l ≤ x ∧ x < f (l + 1) := by
  induction n with
  | zero => omega
  | succ n ih =>
    by_cases h : x < f n
    · obtain ⟨l, a, b, c⟩ := ih h; exact ⟨l, by omega, b, c⟩
    · exact ⟨n, by omega, by omega, h1⟩

theorem lookup_eq (sets : List (List ℤ)) (hs : ∀ s ∈ sets, s ≠ []) (hn : ∀ s ∈ sets, ∀ m ∈ s, (1 : ℤ) ≤ m) (x : ℤ) (h0 : 0 ≤ x)
    (h1 : x < sets.flatten.sum) : ∃ l k : ℕ, l < sets.flatten.length ∧ k < sets.length ∧
      (sets.take k).flatten.length ≤ l ∧ l < (sets.take (k + 1)).flatten.length ∧
      before sets.flatten l ≤ x ∧ x < before sets.flatten (l + 1) ∧
      lookup (storageStart sets).1 (storageStart sets).2 x = .ok (l, k, x - before sets.flatten l) := by
  have hne : sets ≠ [] := by rintro rfl; simp at h1; omega
  obtain ⟨e1, e2⟩ := storageStart_eq sets hs hne
  have hall : ∀ m ∈ sets.flatten, (1 : ℤ) ≤ m := by
    intro m hm
    obtain ⟨s, a, b⟩ := List.mem_flatten.1 hm
    exact hn s a m b
  have htot : before sets.flatten sets.flatten.length = sets.flatten.sum := by unfold before; rw [List.take_length]
  obtain ⟨l, hl, hlo, hhi⟩ := bracket (before sets.flatten) sets.flatten.length x (by simpa [before] using h0) (by rw [htot]; exact h1)
  obtain ⟨g, hg⟩ : ∃ g : ℕ → ℤ, g = fun k : ℕ => (((sets.take k).flatten.length : ℕ) : ℤ) := ⟨_, rfl⟩
  have hginc : ∀ i j, i < j → j ≤ sets.length → g i < g j := by
    intro i j hij hj
    induction j with
    | zero => omega
    | succ j ih =>
      have hpos := List.length_pos_iff.2 (hs (sets[j]'(by omega)) (List.getElem_mem _))
      have e : g (j + 1) = g j + ((sets[j]'(by omega)).length : ℤ) := by
        rw [hg]
        simp only
        rw [List.take_add_one, List.flatten_append, List.length_append, List.getElem?_eq_getElem (by omega)]
        simp
      rcases Nat.lt_or_ge i j with h' | h'
      · have := ih h' (by omega); omega
      · have : i = j := by omega
        subst this; omega
  have gtot : g sets.length = sets.flatten.length := by rw [hg]; simp only; rw [List.take_length]
  obtain ⟨k, hk, hklo, hkhi⟩ := bracket g sets.length (l : ℤ) (by rw [hg]; simp) (by rw [gtot]; exact_mod_cast hl)
  refine ⟨l, k, hl, hk, ?_, ?_, hlo, hhi, ?_⟩
  · simp only [hg] at hklo; exact_mod_cast hklo
  · simp only [hg] at hkhi; exact_mod_cast hkhi
  · unfold lookup
    rw [e1, search (before sets.flatten) _ l (fun i j => before_lt _ hall i j) hl x hlo hhi, Outcome.ok_bind, if_neg (by omega), e2]
    have hsr := search g _ k hginc hk (l : ℤ) hklo hkhi
    rw [hg] at hsr
    simp only [Nat.add_sub_cancel]
    have hc : (((l : ℕ) : ℤ) : ℚ) = ((l : ℕ) : ℚ) := by push_cast; rfl
    rw [hc] at hsr
    rw [hsr, Outcome.ok_bind, if_neg (by omega)]
    have hr : readAt ((List.range sets.flatten.length).map (before sets.flatten)) l = .ok (before sets.flatten l) := by
      unfold readAt
      rw [List.getElem?_eq_getElem (by rw [List.length_map, List.length_range]; exact hl)]
      simp only [List.getElem_map, List.getElem_range]
    rw [hr]
    simp only [Outcome.ok_bind, Nat.add_sub_cancel]

/-- One sample after the extension. -/
theorem extendAt_eq (copy : ℕ → ℝ × ℝ) (k : ℤ) (t : ℕ) : extendAt copy k t =
    (emerging ((List.range' (max ((t : ℤ) - (k - 1)) 0).toNat (t + 1 - (max ((t : ℤ) - (k - 1)) 0).toNat)).map copy),
     (((List.range' (max ((t : ℤ) - (k - 1)) 0).toNat (t + 1 - (max ((t : ℤ) - (k - 1)) 0).toNat)).map copy).map Prod.snd).prod) := by
  unfold extendAt
  simp only
  have := fold_emerging ((List.range' (max ((t : ℤ) - (k - 1)) 0).toNat (t + 1 - (max ((t : ℤ) - (k - 1)) 0).toNat)).map copy) 0 1
  rw [List.foldl_map] at this
  rw [this]
  simp

/-- The teams do not disturb each other. -/
theorem extendAll_eq (k : ℤ) (start num : ℕ → ℕ) (hstart : ∀ l, start l + num l ≤ start (l + 1)) (sched : ℕ → List ℕ)
    (order : List ℕ) (hnd : order.Nodup) (hsch : ∀ l ∈ order, (sched l).Perm (List.range (num l))) (st : ℕ → ℝ × ℝ) (l : ℕ) (t : ℕ) (ht : t < num l) :
    extendAll k (order.map fun l : ℕ => (start l, sched l)) st (start l + t) =
      if l ∈ order then extendAt (fun t => st (start l + t)) k t else st (start l + t) := by
  have mono : ∀ a b : ℕ, a < b → start a + num a ≤ start b := by
    intro a b hab
    induction b with
    | zero => omega
    | succ b ih =>
      rcases Nat.lt_or_ge a b with h | h
      · have := ih h; have := hstart b; omega
      · have : a = b := by omega
        subst this; exact hstart a
  have disj : ∀ a b : ℕ, a ≠ b → ∀ s u, s < num a → u < num b → start a + s ≠ start b + u := by
    intro a b hab s u hs hu
    rcases Nat.lt_or_ge a b with h | h
    · have := mono a b h; omega
    · have := mono b a (by omega); omega
  -- a team of another line leaves the line alone
  have other : ∀ (m : ℕ), m ≠ l → (sched m).Perm (List.range (num m)) → ∀ s u, u < num l → team k (start m) (sched m) s (start l + u) = s (start l + u) := by
    intro m hm hp s u hu
    rw [team_eq, if_neg]
    rintro ⟨v, hv, e⟩
    have := (List.mem_range.1 ((hp.mem_iff).1 hv))
    exact disj l m (Ne.symm hm) u v hu this e
  unfold extendAll
  induction order generalizing st with
  | nil => simp
  | cons m order ih =>
    rw [List.map_cons, List.foldl_cons]
    simp only
    rw [ih (List.nodup_cons.1 hnd).2 (fun x hx => hsch x (List.mem_cons_of_mem _ hx))]
    have hpm := hsch m List.mem_cons_self
    by_cases hml : m = l
    · subst hml
      rw [if_neg (List.nodup_cons.1 hnd).1, if_pos List.mem_cons_self, team_eq, if_pos ⟨t, (hpm.mem_iff).2 (List.mem_range.2 ht), rfl⟩]
      congr 1; omega
    · have hpt := other m hml hpm st
      by_cases hl : l ∈ order
      · rw [if_pos hl, if_pos (List.mem_cons_of_mem _ hl)]
        -- the extension only reads samples of the line up to `t`
        unfold extendAt
        simp only
        have gen : ∀ (js : List ℕ), (∀ j ∈ js, j < num l) → ∀ a : ℝ × ℝ,
            js.foldl (fun acc i => ((team k (start m) (sched m) st (start l + i)).1 + acc.1 * (team k (start m) (sched m) st (start l + i)).2,
              acc.2 * (team k (start m) (sched m) st (start l + i)).2)) a =
            js.foldl (fun acc i => ((st (start l + i)).1 + acc.1 * (st (start l + i)).2, acc.2 * (st (start l + i)).2)) a := by
          intro js
          induction js with
          | nil => intro _ a; rfl
          | cons j js ihj =>
            intro hj a
            rw [List.foldl_cons, List.foldl_cons, hpt j (hj j List.mem_cons_self), ihj (fun x hx => hj x (List.mem_cons_of_mem _ hx))]
        apply gen
        intro j hj
        have := List.mem_range'_1.1 hj
        omega
      · rw [if_neg hl, if_neg (by rw [List.mem_cons]; push Not; exact ⟨Ne.symm hml, hl⟩), hpt t ht]

/-- The value interpolated on one line. -/
theorem interp_ok (ls : LineSet) (start : List ℤ) (st : List (ℝ × ℝ)) (frm : ℝ) (p : Fin 2 → ℝ) (l0 : Line) (h0 : ls.lines[0]? = some l0)
    (hlen : start.length = ls.lines.length)
    (hst : ∀ i (h : i < ls.lines.length), 1 ≤ ls.lines[i].num ∧ 0 ≤ start[i] ∧ start[i] + ls.lines[i].num ≤ st.length)
    (hli : ∃ li, truncInt (gridPos ls l0.o p).1 = .ok li)
    (hsi : ∀ i (h : i < ls.lines.length), |(gridPos ls l0.o p).2 - frm * (1 / ls.step) - ls.lines[i].first * (1 / ls.step)| < 2 ^ 30) :
    ∃ (li : ℤ) (i1 i2 : ℕ) (h1 : i1 < ls.lines.length) (h2 : i2 < ls.lines.length) (x1 y1 x2 y2 : ℝ × ℝ) (w v1 v2 : ℝ),
      truncInt (gridPos ls l0.o p).1 = .ok li ∧
      (i1 : ℤ) = min (max li 0) ((ls.lines.length : ℤ) - 1) ∧ (i2 : ℤ) = min (max (li + 1) 0) ((ls.lines.length : ℤ) - 1) ∧
      w = ((li + 1 : ℤ) : ℝ) - (gridPos ls l0.o p).1 ∧ (0 ≤ v1 ∧ v1 ≤ 1) ∧ (0 ≤ v2 ∧ v2 ≤ 1) ∧
      (let s := (gridPos ls l0.o p).2 - frm * (1 / ls.step) - ls.lines[i1].first * (1 / ls.step)
       v1 = ((⌊s⌋ + 1 : ℤ) : ℝ) - s ∧ st[(start[i1] + min (max ⌊s⌋ 0) (ls.lines[i1].num - 1)).toNat]? = some x1 ∧
       st[(start[i1] + min (max (⌊s⌋ + 1) 0) (ls.lines[i1].num - 1)).toNat]? = some y1) ∧
      (let s := (gridPos ls l0.o p).2 - frm * (1 / ls.step) - ls.lines[i2].first * (1 / ls.step)
       v2 = ((⌊s⌋ + 1 : ℤ) : ℝ) - s ∧ st[(start[i2] + min (max ⌊s⌋ 0) (ls.lines[i2].num - 1)).toNat]? = some x2 ∧
       st[(start[i2] + min (max (⌊s⌋ + 1) 0) (ls.lines[i2].num - 1)).toNat]? = some y2) ∧
      interpAt ls start st frm p = .ok
        (w * (v1 * x1.1 + (1 - v1) * y1.1) + (1 - w) * (v2 * x2.1 + (1 - v2) * y2.1),
         w * (v1 * x1.2 + (1 - v1) * y1.2) + (1 - w) * (v2 * x2.2 + (1 - v2) * y2.2)) := by
  obtain ⟨li, hl⟩ := hli
  have hpos : 0 < ls.lines.length := (List.getElem?_eq_some_iff.1 h0).1
  obtain ⟨i1, hi1⟩ : ∃ i : ℕ, (i : ℤ) = min (max li 0) ((ls.lines.length : ℤ) - 1) := ⟨_, Int.toNat_of_nonneg (by omega)⟩
  obtain ⟨i2, hi2⟩ : ∃ i : ℕ, (i : ℤ) = min (max (li + 1) 0) ((ls.lines.length : ℤ) - 1) := ⟨_, Int.toNat_of_nonneg (by omega)⟩
  have b1 : i1 < ls.lines.length := by omega
  have b2 : i2 < ls.lines.length := by omega
  obtain ⟨n1, s1, e1⟩ := hst i1 b1
  obtain ⟨n2, s2, e2⟩ := hst i2 b2
  obtain ⟨w, hw⟩ : ∃ w : ℝ, w = ((li + 1 : ℤ) : ℝ) - (gridPos ls l0.o p).1 := ⟨_, rfl⟩
  obtain ⟨x1, y1, v1, va, vb, hx1, hy1, hv1, t1⟩ := lineTerm_ok st start[i1] ls.lines[i1].num
    ((gridPos ls l0.o p).2 - frm * (1 / ls.step) - ls.lines[i1].first * (1 / ls.step)) w (0, 1) s1 n1 e1 (hsi i1 b1)
  obtain ⟨x2, y2, v2, vc, vd, hx2, hy2, hv2, t2⟩ := lineTerm_ok st start[i2] ls.lines[i2].num
    ((gridPos ls l0.o p).2 - frm * (1 / ls.step) - ls.lines[i2].first * (1 / ls.step)) (1 - w)
    ((0 : ℝ) + w * (v1 * x1.1 + (1 - v1) * y1.1), (1 : ℝ) - w * (v1 * (1 - x1.2) + (1 - v1) * (1 - y1.2))) s2 n2 e2 (hsi i2 b2)
  have rd : ∀ {α : Type} (l : List α) (i : ℕ) (j : ℤ) (hij : (i : ℤ) = j) (h : i < l.length), atInt l j = .ok l[i] := by
    intro α l i j hij h
    subst hij
    unfold atInt
    rw [if_pos (by omega)]
    simp [readAt, h]
  refine ⟨li, i1, i2, b1, b2, x1, y1, x2, y2, w, v1, v2, hl, hi1, hi2, hw, ⟨va, vb⟩, ⟨vc, vd⟩, ⟨hv1, hx1, hy1⟩, ⟨hv2, hx2, hy2⟩, ?_⟩
  unfold interpAt
  have hr0 : readAt ls.lines 0 = .ok l0 := by unfold readAt; rw [h0]
  rw [hr0, Outcome.ok_bind]
  simp only
  rw [hl, Outcome.ok_bind, ← hw, rd ls.lines i1 _ hi1 b1, Outcome.ok_bind, rd start i1 _ hi1 (by omega), Outcome.ok_bind, t1, Outcome.ok_bind,
    rd ls.lines i2 _ hi2 b2, Outcome.ok_bind, rd start i2 _ hi2 (by omega), Outcome.ok_bind, t2]
  congr 1
  rw [Prod.mk.injEq]
  constructor <;> ring

theorem trunc_ok (x : ℝ) (h : |x| < 2 ^ 30) : ∃ li, truncInt x = .ok li ∧ (0 ≤ x → li = ⌊x⌋) := by
  obtain ⟨a, c⟩ := abs_lt.1 h
  norm_num at a c
  by_cases h0 : 0 ≤ x
  · exact ⟨⌊x⌋, trunc_nonneg x h0 (by linarith), fun _ => rfl⟩
  · refine ⟨⌈x⌉, ?_, fun hc => absurd hc h0⟩
    have h1 : ⌈x⌉ ≤ 0 := Int.ceil_le.2 (by push_cast; linarith)
    have h2 : -1073741824 < ⌈x⌉ := by
      have := Int.le_ceil x
      have h3 : (-1073741824 : ℝ) < ⌈x⌉ := by linarith
      exact_mod_cast h3
    unfold truncInt
    rw [if_neg h0, if_pos ((fits_iff _).2 (by omega))]

/-- Position of a probe with respect to the lines. -/
theorem gridPos_inv (ls : LineSet) (l0 p : Fin 2 → ℝ) (hs : ls.d (other ls.axis) ≠ 0) (hstep : ls.step ≠ 0) (ho : l0 (other ls.axis) = ls.origin (other ls.axis)) :
    ∀ i, p i = (if i = ls.axis then l0 i + (gridPos ls l0 p).1 * ls.step else l0 i) + (gridPos ls l0 p).2 * ls.step * ls.d i := by
  have e2 : (gridPos ls l0 p).2 * ls.step * ls.d (other ls.axis) = p (other ls.axis) - ls.origin (other ls.axis) := by
    unfold gridPos other at *
    simp only
    field_simp
    ring
  have e1 : (gridPos ls l0 p).1 * ls.step + (gridPos ls l0 p).2 * ls.step * ls.d ls.axis = p ls.axis - l0 ls.axis := by
    unfold gridPos other at *
    simp only
    field_simp
    ring
  apply forall_axis ls.axis
  · rw [if_pos rfl]; linarith
  · rw [if_neg (other_ne _)]; linarith

theorem gridPos_on (ls : LineSet) (l0 p : Fin 2 → ℝ) (hs : ls.d (other ls.axis) ≠ 0) (hstep : ls.step ≠ 0) (ho : l0 (other ls.axis) = ls.origin (other ls.axis))
    (u t : ℝ) (hp : ∀ i, p i = (if i = ls.axis then l0 i + u else l0 i) + t * ls.d i) : gridPos ls l0 p = (u / ls.step, t / ls.step) := by
  have hs1 := hp (other ls.axis)
  have hp1 := hp ls.axis
  rw [if_neg (other_ne _)] at hs1
  rw [if_pos rfl] at hp1
  unfold gridPos
  simp only
  rw [Prod.mk.injEq]
  unfold other at *
  rw [hs1, hp1, ho]
  constructor
  · field_simp; ring
  · field_simp; ring

end DexRT.LineSweep
