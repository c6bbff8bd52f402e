import Verif.Spec.LineSweep
import Verif.Lemmas.VelInterp
import Verif.Props.Interp
import Mathlib.Data.Rat.Floor
/-! Lemmas about the storage of the samples of line sweeping, their extension and interpolation. -/
namespace DexRT.LineSweep
open DexRT
open DexRT.VelInterp (truncInt fits_iff)

/-- Samples stored before line `i`. -/
def before (nums : List ℤ) (i : ℕ) : ℤ := (nums.take i).sum

theorem before_succ (nums : List ℤ) (i : ℕ) : before nums (i + 1) = before nums i + nums.getD i 0 := by
  unfold before
  by_cases h : i < nums.length
  · rw [List.take_add_one, List.sum_append]
    simp [List.getD, h]
  · push Not at h
    rw [List.take_of_length_le (by omega), List.take_of_length_le h]
    simp [List.getD, h]

theorem before_append (a s : List ℤ) (i : ℕ) (h : i ≤ a.length) : before (a ++ s) i = before a i := by
  unfold before
  rw [List.take_append_of_le_length h]

theorem fill_loop (nums : List ℤ) : ∀ (c m : ℕ) (st : List ℤ), 1 ≤ m → st.length = nums.length → m + c ≤ nums.length →
    (∀ j, j < m → st.getD j 0 = before nums j) →
    let r := (List.range' m c).foldl (fun st i => st.set i (st.getD (i - 1) 0 + nums.getD (i - 1) 0)) st
    r.length = nums.length ∧ ∀ j, j < m + c → r.getD j 0 = before nums j := by
  intro c
  induction c with
  | zero => intro m st _ h2 _ h4; simpa using ⟨h2, h4⟩
  | succ c ih =>
    intro m st h1 h2 h3 h4
    rw [List.range'_succ]
    simp only [List.foldl_cons]
    have := ih (m + 1) (st.set m (st.getD (m - 1) 0 + nums.getD (m - 1) 0)) (by omega) (by simpa using h2) (by omega) (by
      intro j hj
      by_cases hjm : j = m
      · subst hjm
        have e : before nums j = before nums (j - 1) + nums.getD (j - 1) 0 := by
          have := before_succ nums (j - 1)
          rwa [Nat.sub_add_cancel h1] at this
        rw [List.getD, List.getElem?_set_self (by omega)]
        simp only [Option.getD_some]
        rw [h4 (j - 1) (by omega), e]
      · rw [List.getD, List.getElem?_set_ne (by omega), ← List.getD]
        exact h4 j (by omega))
    refine ⟨this.1, fun j hj => this.2 j (by omega)⟩

theorem extendStart_eq (a s : List ℤ) (hs : s ≠ []) (start : List ℤ) (hl : start.length = max a.length 1)
    (hv : ∀ j, j < max a.length 1 → start.getD j 0 = before a j) :
    (extendStart (a ++ s) start a.length).length = (a ++ s).length ∧
    ∀ j, j < (a ++ s).length → (extendStart (a ++ s) start a.length).getD j 0 = before (a ++ s) j := by
  have hpos : 0 < s.length := List.length_pos_iff.2 hs
  have hlen : max a.length 1 ≤ (a ++ s).length := by rw [List.length_append]; omega
  have := fill_loop (a ++ s) ((a ++ s).length - max a.length 1) (max a.length 1) (resize start (a ++ s).length) (by omega)
    (by unfold resize; rw [List.length_append, List.length_take, List.length_replicate, hl]; omega) (by omega) (by
      intro j hj
      unfold resize
      rw [List.take_of_length_le (by omega), List.getD, List.getElem?_append_left (by omega), ← List.getD, hv j hj]
      rcases Nat.lt_or_ge a.length 1 with h | h
      · have hj0 : j = 0 := by omega
        subst hj0
        simp [before]
      · rw [before_append a s j (by omega)])
  refine ⟨this.1, fun j hj => this.2 j (by omega)⟩

/-- The two index arrays of a subset. -/
theorem storageStart_eq (sets : List (List ℤ)) (hs : ∀ s ∈ sets, s ≠ []) (hne : sets ≠ []) :
    (storageStart sets).1 = (List.range sets.flatten.length).map (before sets.flatten) ∧
    (storageStart sets).2 = (List.range sets.length).map fun k : ℕ => (((sets.take k).flatten.length : ℕ) : ℤ) := by
  have gen : ∀ (todo done : List (List ℤ)) (st : List ℤ × List ℤ × List ℤ), (∀ s ∈ todo, s ≠ []) →
      st.1 = done.flatten → st.2.1.length = max done.flatten.length 1 →
      (∀ j, j < max done.flatten.length 1 → st.2.1.getD j 0 = before done.flatten j) →
      st.2.2 = ((List.range done.length).map fun k : ℕ => (((done.take k).flatten.length : ℕ) : ℤ)) →
      let r := todo.foldl (fun (st : List ℤ × List ℤ × List ℤ) s =>
        let nums := st.1 ++ s
        (nums, extendStart nums st.2.1 st.1.length, st.2.2 ++ [(st.1.length : ℤ)])) st
      r.2.1.length = max (done ++ todo).flatten.length 1 ∧
      (∀ j, j < max (done ++ todo).flatten.length 1 → r.2.1.getD j 0 = before (done ++ todo).flatten j) ∧
      r.2.2 = ((List.range (done ++ todo).length).map fun k : ℕ => ((((done ++ todo).take k).flatten.length : ℕ) : ℤ)) := by
    intro todo
    induction todo with
    | nil => intro done st _ _ h3 h4 h5; simp only [List.foldl_nil, List.append_nil]; exact ⟨h3, h4, h5⟩
    | cons s todo ih =>
      intro done st h1 h2 h3 h4 h5
      simp only [List.foldl_cons]
      have hsn := h1 s List.mem_cons_self
      have hpos : 0 < s.length := List.length_pos_iff.2 hsn
      have hfl : (done ++ [s]).flatten = done.flatten ++ s := by simp
      have hx := extendStart_eq done.flatten s hsn st.2.1 h3 h4
      have hmax : max (done ++ [s]).flatten.length 1 = (done.flatten ++ s).length := by
        rw [hfl, List.length_append]; omega
      have := ih (done ++ [s]) (st.1 ++ s, extendStart (st.1 ++ s) st.2.1 st.1.length, st.2.2 ++ [(st.1.length : ℤ)])
        (fun x hx => h1 x (List.mem_cons_of_mem _ hx)) (by simp only; rw [hfl, h2])
        (by simp only; rw [hmax, h2]; exact hx.1) (by simp only; rw [hmax, hfl, h2]; exact hx.2)
        (by
          simp only
          rw [h5, h2, List.length_append, List.length_singleton, List.range_succ, List.map_append]
          congr 1
          · apply List.map_congr_left
            intro k hk
            rw [List.take_append_of_le_length (by have := List.mem_range.1 hk; omega)]
          · simp)
      rw [List.append_assoc] at this
      exact this
  have := gen sets [] ([], [0], []) hs rfl (by simp) 
    (by
      intro j hj
      have hj0 : j = 0 := by simpa using hj
      subst hj0; simp [before]) (by simp)
  simp only [List.nil_append] at this
  have hpos : 0 < sets.flatten.length := by
    obtain ⟨s, rest, rfl⟩ := List.exists_cons_of_ne_nil hne
    have := List.length_pos_iff.2 (hs s List.mem_cons_self)
    simp; omega
  unfold storageStart
  simp only
  refine ⟨?_, this.2.2⟩
  apply List.ext_getElem
  · rw [this.1, List.length_map, List.length_range]; omega
  · intro j h1 h2
    have hj : j < sets.flatten.length := by simpa using h2
    have := this.2.1 j (by omega)
    rw [List.getD, List.getElem?_eq_getElem h1, Option.getD_some] at this
    rw [this]; simp

/-- The search in a strictly increasing index array. -/
theorem search (f : ℕ → ℤ) (n l : ℕ) (hf : ∀ i j, i < j → j ≤ n → f i < f j) (hl : l < n) (x : ℤ) (h0 : f l ≤ x) (h1 : x < f (l + 1)) :
    upperBound (((List.range n).map f).map fun x : ℤ => (x : ℚ)) (some (x : ℚ)) = .ok (l + 1) := by
  obtain ⟨xs, hxs⟩ : ∃ xs : List ℚ, xs = ((List.range n).map f).map fun x : ℤ => (x : ℚ) := ⟨_, rfl⟩
  have hlen : xs.length = n := by rw [hxs]; simp
  have hget : ∀ i (h : i < xs.length), xs[i] = (f i : ℚ) := by intro i h; subst hxs; simp
  have hp : xs.Pairwise (· ≤ ·) := by
    rw [List.pairwise_iff_getElem]
    intro i j hi hj hij
    rw [hget, hget]
    have := (hf i j hij (by omega)).le
    exact_mod_cast this
  obtain ⟨k, hk, hkl, hlo, hhi⟩ := C37_upper_bound xs hp (x : ℚ)
  rw [← hxs, hk]
  congr 1
  have a1 : l < k := by
    by_contra hc
    push Not at hc
    have := hhi l (by omega) hc
    rw [hget] at this
    have : x < f l := by exact_mod_cast this
    omega
  have a2 : k ≤ l + 1 := by
    by_contra hc
    push Not at hc
    have := hlo (l + 1) (by omega) hc
    rw [hget] at this
    have : f (l + 1) ≤ x := by exact_mod_cast this
    omega
  omega

/-- Extension: the loop is the sum of the emissions seen through what follows. -/
theorem fold_emerging (l : List (ℝ × ℝ)) : ∀ a w : ℝ, l.foldl (fun acc x => (x.1 + acc.1 * x.2, acc.2 * x.2)) (a, w) =
    (a * (l.map Prod.snd).prod + emerging l, w * (l.map Prod.snd).prod) := by
  induction l with
  | nil => intro a w; simp [emerging]
  | cons x l ih =>
    intro a w
    rw [List.foldl_cons, ih]
    simp only [emerging, List.map_cons, List.prod_cons, Prod.mk.injEq]
    constructor <;> ring

theorem team_eq (k : ℤ) (start : ℕ) (st : ℕ → ℝ × ℝ) (sched : List ℕ) (i : ℕ) :
    team k start sched st i = if ∃ t ∈ sched, i = start + t then extendAt (fun t => st (start + t)) k (i - start) else st i := by
  unfold team
  obtain ⟨E, hE⟩ : ∃ E : ℕ → ℝ × ℝ, E = fun t => extendAt (fun t => st (start + t)) k t := ⟨_, rfl⟩
  have gen : ∀ (sched : List ℕ) (s : ℕ → ℝ × ℝ), (sched.foldl (fun s t => Function.update s (start + t) (E t)) s) i =
      if ∃ t ∈ sched, i = start + t then E (i - start) else s i := by
    intro sched
    induction sched with
    | nil => intro s; simp
    | cons t sched ih =>
      intro s
      rw [List.foldl_cons, ih]
      by_cases h : ∃ t' ∈ sched, i = start + t'
      · rw [if_pos h, if_pos (by obtain ⟨t', h1, h2⟩ := h; exact ⟨t', List.mem_cons_of_mem _ h1, h2⟩)]
      · rw [if_neg h]
        by_cases hi : i = start + t
        · rw [if_pos ⟨t, List.mem_cons_self, hi⟩, hi, Function.update_self]; congr 1; omega
        · rw [Function.update_of_ne hi, if_neg]
          rintro ⟨t', h1, h2⟩
          rcases List.mem_cons.1 h1 with rfl | h1
          · exact hi h2
          · exact h ⟨t', h1, h2⟩
  have := gen sched st
  rw [hE] at this
  exact this

theorem atInt_ok {α : Type} (l : List α) (i : ℤ) (h0 : 0 ≤ i) (h1 : i < l.length) : ∃ x, atInt l i = .ok x ∧ x ∈ l ∧ l[i.toNat]? = some x := by
  have : i.toNat < l.length := by omega
  refine ⟨l[i.toNat], ?_, List.getElem_mem _, List.getElem?_eq_getElem this⟩
  unfold atInt
  rw [if_pos h0]
  simp [readAt, this]

theorem floorInt_ok (x : ℝ) (h : |x| < 2 ^ 30) : floorInt x = .ok ⌊x⌋ := by
  obtain ⟨a, c⟩ := abs_lt.1 h
  have h1 : ⌊x⌋ < 2 ^ 30 := Int.floor_lt.2 (by push_cast; norm_num at c ⊢; exact c)
  have h2 : -(2 ^ 30) ≤ ⌊x⌋ := Int.le_floor.2 (by push_cast; linarith)
  unfold floorInt
  rw [if_pos ((fits_iff _).2 (by norm_num at h1 h2; omega))]

/-- What one line adds: its weight times a mean of two of its samples. -/
theorem lineTerm_ok (st : List (ℝ × ℝ)) (base num : ℤ) (s w : ℝ) (acc : ℝ × ℝ) (hb : 0 ≤ base) (hn : 1 ≤ num)
    (hl : base + num ≤ st.length) (hs : |s| < 2 ^ 30) : ∃ x y : ℝ × ℝ, ∃ v : ℝ, 0 ≤ v ∧ v ≤ 1 ∧
      st[(base + min (max ⌊s⌋ 0) (num - 1)).toNat]? = some x ∧ st[(base + min (max (⌊s⌋ + 1) 0) (num - 1)).toNat]? = some y ∧
      v = ((⌊s⌋ + 1 : ℤ) : ℝ) - s ∧
      lineTerm st base num s w acc = .ok (acc.1 + w * (v * x.1 + (1 - v) * y.1), acc.2 - w * (v * (1 - x.2) + (1 - v) * (1 - y.2))) := by
  obtain ⟨x, hx, _, hx'⟩ := atInt_ok st (base + min (max ⌊s⌋ 0) (num - 1)) (by omega) (by omega)
  obtain ⟨y, hy, _, hy'⟩ := atInt_ok st (base + min (max (⌊s⌋ + 1) 0) (num - 1)) (by omega) (by omega)
  have f1 := Int.floor_le s
  have f2 := Int.lt_floor_add_one s
  refine ⟨x, y, ((⌊s⌋ + 1 : ℤ) : ℝ) - s, by push_cast; linarith, by push_cast; linarith, hx', hy', rfl, ?_⟩
  unfold lineTerm
  rw [floorInt_ok s hs, Outcome.ok_bind]
  simp only
  rw [hx, Outcome.ok_bind, hy, Outcome.ok_bind]
  congr 1
  rw [Prod.mk.injEq]
  constructor <;> ring

end DexRT.LineSweep
