import Verif.Lemmas.Crtaf
import Mathlib.Tactic.NormNum
import Mathlib.Data.Rat.Defs
/-!
# C69: model atoms are read as written or rejected
-/
namespace DexRT
open Crtaf
variable {K : Type} [Field K] [LinearOrder K]

/-- C69 (read or rejected): for every decoded file and whatever order the sort gives to levels of equal energy, the file is rejected exactly if
it cannot be understood; otherwise the atom has the file's levels in order of energy, and its lines, continua and collisional rates are those
of the file, in its order, between the levels named there. -/
theorem C69_read (f : File K) (levels : List (Level K)) (hs : SortedByEnergy f.levels levels) :
    (FileBad f ∧ parse f levels = .throws) ∨
    (¬ FileBad f ∧ ∃ m, parse f levels = .ok m ∧ m.levels.Perm f.levels ∧ m.levels.Pairwise (fun a b => a.energy ≤ b.energy) ∧
      List.Forall₂ (LineOf m.levels) f.lines m.lines ∧ List.Forall₂ (ContOf m.levels) f.conts m.conts ∧
      List.Forall₂ (CollOf m.levels) (f.colls.flatMap fun c => c.data.map fun d => (c, d)) m.colls) := by
  have hp := hs.1
  unfold parse FileBad
  by_cases hm : f.hasMeta = true
  · rw [if_pos hm]
    by_cases hl : f.level = "simplified"
    · rw [if_neg (not_not_intro hl)]
      rcases mapM_cases (parseLine levels) f.lines (fun l _ => by
        rcases parseLine_cases f levels hp l with h | ⟨_, r, h, _⟩
        · exact Or.inr h.2
        · exact Or.inl ⟨r, h⟩) with ⟨hall1, r1, hr1⟩ | ⟨⟨l, hlm, hlt⟩, hr⟩
      · rw [hr1, Outcome.ok_bind]
        rcases mapM_cases (parseCont levels) f.conts (fun l _ => by
          rcases parseCont_cases f levels hp l with h | ⟨_, r, h, _⟩
          · exact Or.inr h.2
          · exact Or.inl ⟨r, h⟩) with ⟨hall2, r2, hr2⟩ | ⟨⟨l, hlm, hlt⟩, hr⟩
        · rw [hr2, Outcome.ok_bind]
          rcases mapM_cases (parseColl levels) f.colls (fun l _ => by
            rcases parseColl_cases f levels hp l with h | ⟨_, r, h, _⟩
            · exact Or.inr h.2
            · exact Or.inl ⟨r, h⟩) with ⟨hall3, r3, hr3⟩ | ⟨⟨l, hlm, hlt⟩, hr⟩
          · rw [hr3, Outcome.ok_bind]
            right
            refine ⟨?_, _, rfl, hp, hs.2, ?_, ?_, ?_⟩
            · rintro (h | h | ⟨l, h1, h2⟩ | ⟨l, h1, h2⟩ | ⟨l, h1, h2⟩)
              · rw [hm] at h; cases h
              · exact h hl
              · obtain ⟨b, hb⟩ := hall1 l h1
                rcases parseLine_cases f levels hp l with h' | h'
                · rw [h'.2] at hb; cases hb
                · exact h'.1 h2
              · obtain ⟨b, hb⟩ := hall2 l h1
                rcases parseCont_cases f levels hp l with h' | h'
                · rw [h'.2] at hb; cases hb
                · exact h'.1 h2
              · obtain ⟨b, hb⟩ := hall3 l h1
                rcases parseColl_cases f levels hp l with h' | h'
                · rw [h'.2] at hb; cases hb
                · exact h'.1 h2
            · refine (mapM_forall2 _ _ _ hr1).imp fun n l h => ?_
              rcases parseLine_cases f levels hp n with h' | ⟨_, r, h', h''⟩
              · rw [h'.2] at h; cases h
              · rw [h'] at h; cases h; exact h''
            · refine (mapM_forall2 _ _ _ hr2).imp fun n l h => ?_
              rcases parseCont_cases f levels hp n with h' | ⟨_, r, h', h''⟩
              · rw [h'.2] at h; cases h
              · rw [h'] at h; cases h; exact h''
            · refine forall2_flatten (CollOf levels) (fun c => c.data) f.colls r3 ((mapM_forall2 _ _ _ hr3).imp fun n l h => ?_)
              rcases parseColl_cases f levels hp n with h' | ⟨_, r, h', h''⟩
              · rw [h'.2] at h; cases h
              · rw [h'] at h; cases h; exact h''
          · left
            refine ⟨Or.inr (Or.inr (Or.inr (Or.inr ⟨l, hlm, ?_⟩))), by rw [hr]; rfl⟩
            rcases parseColl_cases f levels hp l with h' | ⟨_, r, h', _⟩
            · exact h'.1
            · rw [h'] at hlt; cases hlt
        · left
          refine ⟨Or.inr (Or.inr (Or.inr (Or.inl ⟨l, hlm, ?_⟩))), by rw [hr]; rfl⟩
          rcases parseCont_cases f levels hp l with h' | ⟨_, r, h', _⟩
          · exact h'.1
          · rw [h'] at hlt; cases hlt
      · left
        refine ⟨Or.inr (Or.inr (Or.inl ⟨l, hlm, ?_⟩)), by rw [hr]; rfl⟩
        rcases parseLine_cases f levels hp l with h' | ⟨_, r, h', _⟩
        · exact h'.1
        · rw [h'] at hlt; cases hlt
    · left; exact ⟨Or.inr (Or.inl hl), by rw [if_pos hl]⟩
  · left
    exact ⟨Or.inl (by simpa using hm), by rw [if_neg hm]⟩

/-- C69 (names are unambiguous): with distinct level names only one level has a given name. -/
theorem C69_names_unique (levels : List (Level K)) (hk : (levels.map (·.key)).Nodup) (i j : ℕ) (name : String)
    (hi : Named levels i name) (hj : Named levels j name) : i = j := by
  unfold Named at hi hj
  rw [← List.getElem?_map] at hi hj
  obtain ⟨h1, e1⟩ := List.getElem?_eq_some_iff.mp hi
  obtain ⟨h2, e2⟩ := List.getElem?_eq_some_iff.mp hj
  exact (hk.getElem_inj_iff (hi := h1) (hj := h2)).mp (e1.trans e2.symm)

/-- C69 (linear grids): with at least two points and a positive half width the grid is finite and strictly increasing, starts at
`lambda0 - half`, ends at `lambda0 + half`, is symmetric about `lambda0`, and contains `lambda0` if the number of points is odd. -/
theorem C69_linear_grid [IsStrictOrderedRing K] (lambda0 half : K) (n : ℕ) (hn : 2 ≤ n) (hh : 0 < half) :
    ∃ w : List K, linearGrid lambda0 half n = .ok (w.map some) ∧ w.length = n ∧ w.Pairwise (· < ·) ∧
      w[0]? = some (lambda0 - half) ∧ w[n - 1]? = some (lambda0 + half) ∧
      (∀ i a b, w[i]? = some a → w[n - 1 - i]? = some b → a + b = 2 * lambda0) ∧ (n % 2 = 1 → w[n / 2]? = some lambda0) := by
  have hn1 : (0 : K) < ((n : ℤ) - 1 : ℤ) := by exact_mod_cast (by omega : (0 : ℤ) < (n : ℤ) - 1)
  have hc : (((n : ℤ) - 1 : ℤ) : K) = (n : K) - 1 := by push_cast; ring
  rw [hc] at hn1
  have hget : ∀ i, i < n → ((List.range n).map fun (i : ℕ) => lambda0 - half + (i : K) * ((half + half) / ((n : K) - 1)))[i]? =
      some (lambda0 - half + (i : K) * ((half + half) / ((n : K) - 1))) := by
    intro i hi
    rw [List.getElem?_map, List.getElem?_range hi]; rfl
  refine ⟨(List.range n).map fun (i : ℕ) => lambda0 - half + (i : K) * ((half + half) / ((n : K) - 1)), ?_, by simp, ?_, ?_, ?_, ?_, ?_⟩
  · unfold linearGrid
    rw [if_neg (by omega), List.map_map, Int.toNat_natCast]
    congr 1
    apply List.map_congr_left
    intro i _
    simp only [Function.comp]
    rw [if_neg (by omega), hc]
  · rw [List.pairwise_map]
    refine List.pairwise_lt_range.imp fun {a b} hab => ?_
    have : (a : K) < b := by exact_mod_cast hab
    have hp : 0 < (half + half) / ((n : K) - 1) := div_pos (by linarith) hn1
    nlinarith
  · rw [hget 0 (by omega)]; simp
  · rw [hget (n - 1) (by omega), Nat.cast_sub (by omega)]
    congr 1
    push_cast
    field_simp
    ring
  · intro i a b ha hb
    have hi : i < n := by
      by_contra hc'
      rw [List.getElem?_eq_none (by simpa using hc')] at ha
      cases ha
    rw [hget i hi] at ha
    rw [hget (n - 1 - i) (by omega), Nat.cast_sub (by omega), Nat.cast_sub (by omega)] at hb
    obtain rfl := Option.some.inj ha
    obtain rfl := Option.some.inj hb
    push_cast
    field_simp
    ring
  · intro hodd
    obtain ⟨m, rfl⟩ : ∃ m, n = 2 * m + 1 := ⟨n / 2, by omega⟩
    rw [show (2 * m + 1) / 2 = m by omega, hget m (by omega)]
    congr 1
    have hm : (((2 * m + 1 : ℕ) : K)) - 1 = 2 * m := by push_cast; ring
    rw [hm] at hn1 ⊢
    have : (m : K) ≠ 0 := by intro h; rw [h] at hn1; simp at hn1
    field_simp
    ring

/-- C69 (collision tables): if every rate has as many data as temperatures, the concatenated tables give each rate its own back. -/
theorem C69_coll_tables_partial (colls : List (Coll K)) (h : ∀ c ∈ colls, c.temperature.length = c.data.length) :
    ∃ t d r, collTables colls = .ok (t, d, r) ∧ List.Forall₂ (fun c ab => (t.drop ab.1).take (ab.2 - ab.1) = c.temperature ∧
      (d.drop ab.1).take (ab.2 - ab.1) = c.data ∧ ab.2 ≤ t.length) colls r := by
  suffices H : ∀ (colls : List (Coll K)) (t0 d0 : List K) (r0 : List (ℕ × ℕ)), t0.length = d0.length →
      (∀ c ∈ colls, c.temperature.length = c.data.length) →
      ∃ t1 d1 r1, colls.foldlM (fun (s : List K × List K × List (ℕ × ℕ)) c =>
          if c.data.length < c.temperature.length then .ub
          else Outcome.ok (s.1 ++ c.temperature, s.2.1 ++ c.data.take c.temperature.length,
            s.2.2 ++ [(s.1.length, s.1.length + c.temperature.length)])) (t0, d0, r0) = .ok (t0 ++ t1, d0 ++ d1, r0 ++ r1) ∧
        List.Forall₂ (fun c ab => ((t0 ++ t1).drop ab.1).take (ab.2 - ab.1) = c.temperature ∧
          ((d0 ++ d1).drop ab.1).take (ab.2 - ab.1) = c.data ∧ ab.2 ≤ (t0 ++ t1).length) colls r1 by
    obtain ⟨t, d, r, e, h'⟩ := H colls [] [] [] rfl h
    exact ⟨t, d, r, by simpa [collTables] using e, by simpa using h'⟩
  intro colls
  induction colls with
  | nil => intro t0 d0 r0 _ _; exact ⟨[], [], [], by simp, .nil⟩
  | cons c cs ih =>
    intro t0 d0 r0 hl hc
    have hcl := hc c (by simp)
    obtain ⟨t1, d1, r1, e, h'⟩ := ih (t0 ++ c.temperature) (d0 ++ c.data) (r0 ++ [(t0.length, t0.length + c.temperature.length)])
      (by simp [hl, hcl]) (fun x hx => hc x (by simp [hx]))
    refine ⟨c.temperature ++ t1, c.data ++ d1, (t0.length, t0.length + c.temperature.length) :: r1, ?_, .cons ?_ ?_⟩
    · rw [List.foldlM_cons, if_neg (by omega), Outcome.ok_bind, List.take_of_length_le (by omega)]
      rw [e]
      simp
    · refine ⟨?_, ?_, by simp⟩
      · simp
      · simp only [Nat.add_sub_cancel_left, hcl]
        rw [hl]; simp
    · simpa using h'

/-! ## What is not rejected -/

/-- Two levels. -/
def lv2 : List (Level K) := [⟨"a", 0, 2, 0⟩, ⟨"b", 1, 2, 0⟩]

/-- A file with two levels and one line. -/
def oneLine (upper lower : String) (broad : List (BroadNode K)) (grid : GridNode K) : File K :=
  { hasMeta := true, level := "simplified", levels := lv2,
    lines := [⟨"Voigt", upper, lower, 1, 1, 1, 1, 1, 1, 500, broad, grid⟩], conts := [], colls := [] }

theorem lv2_sorted [IsStrictOrderedRing K] : SortedByEnergy (lv2 (K := K)) lv2 := by
  refine ⟨List.Perm.refl _, ?_⟩
  simp [lv2]

/-- The one line of an accepted file. -/
theorem oneLine_parse (upper lower : String) (broad : List (BroadNode K)) (grid' : GridNode K) :
    parse (oneLine upper lower broad grid') lv2 = (do
      let l ← parseLine lv2 (⟨"Voigt", upper, lower, 1, 1, 1, 1, 1, 1, 500, broad, grid'⟩ : LineNode K)
      .ok { levels := lv2, lines := [l], conts := [], colls := [] }) := by
  unfold parse oneLine
  simp

theorem at_ab : at_ (lv2 (K := K)) "b" = .ok 1 ∧ at_ (lv2 (K := K)) "a" = .ok 0 := by
  constructor <;> simp [at_, mapping, lv2]

/-- C69, REFUTED in full, 1: a line without natural broadening is accepted and its natural width is never set: the value used is
indeterminate. -/
theorem C69_refuted_natural (f : File K) (levels : List (Level K)) (hs : SortedByEnergy f.levels levels) (m : Atom K)
    (hm : parse f levels = .ok m) (k : ℕ) (n : LineNode K) (hn : f.lines[k]? = some n) (hnat : ∀ v, BroadNode.natural v ∉ n.broad) :
    ∃ l, m.lines[k]? = some l ∧ l.gNatural = none := by
  rcases C69_read f levels hs with ⟨_, h⟩ | ⟨_, m', h, _, _, hl, _⟩
  · rw [hm] at h; cases h
  · rw [hm] at h
    cases h
    obtain ⟨hk, e⟩ := List.getElem?_eq_some_iff.mp hn
    have hlen := hl.length_eq
    have hg := List.forall₂_iff_get.mp hl
    have := hg.2 k hk (by omega)
    refine ⟨m.lines[k]'(by omega), List.getElem?_eq_getElem _, ?_⟩
    obtain ⟨_, _, _, _, _, _, _, _, _, _, hgn, _⟩ := this
    simp only [List.get_eq_getElem] at hgn
    rw [hgn, e]
    rw [List.head?_eq_none_iff, List.filterMap_eq_nil_iff]
    intro b hb
    cases b with
    | natural v => exact absurd hb (hnat v)
    | scaled => rfl
    | other => rfl

/-- C69, REFUTED in full, 2: a linear grid with one point is accepted; its only wavelength is not a number. -/
theorem C69_refuted_one_point [IsStrictOrderedRing K] (half : K) :
    ∃ m l, parse (oneLine "b" "a" [.natural 1] (.linear half 1)) lv2 = .ok m ∧ m.lines = [l] ∧ l.waves = [none] := by
  rw [oneLine_parse]
  simp [parseLine, at_ab, broadStep, grid, linearGrid]

/-- C69, REFUTED in full, 3: empty grids are accepted, and building the wavelength grid then reads the first element of an empty list. -/
theorem C69_refuted_empty :
    ∃ m l, parse (oneLine "b" "a" [.natural 1] (.tabulated ([] : List K))) lv2 = .ok m ∧ m.lines = [l] ∧ frontBack l.waves = .ub := by
  rw [oneLine_parse]
  simp [parseLine, at_ab, broadStep, grid, frontBack]

/-- C69, REFUTED in full, 4: a line whose upper level lies below the lower one is accepted as it is. -/
theorem C69_refuted_inverted [IsStrictOrderedRing K] : ∃ m l eu el,
    parse (oneLine "a" "b" [.natural (1 : K)] (.linear 1 3)) lv2 = .ok m ∧ m.lines = [l] ∧ (m.levels[l.j]?).map (·.energy) = some eu ∧
    (m.levels[l.i]?).map (·.energy) = some el ∧ eu < el := by
  rw [oneLine_parse]
  simp only [parseLine, at_ab, broadStep, grid, linearGrid]
  simp [at_ab, broadStep]
  simp [lv2]

/-- C69, REFUTED in full, 5: a table of wavelengths in decreasing order is accepted (CRTAF tables of continua often come like this); the
transition then is active nowhere, and building the global grid reads past the end of the empty list of active transitions. -/
theorem C69_refuted_decreasing [IsStrictOrderedRing K] : ∃ m l,
    parse (oneLine "b" "a" [.natural (1 : K)] (.tabulated [1, -1])) lv2 = .ok m ∧ m.lines = [l] ∧
    l.waves = [some 501, some 499] ∧
    ∀ sorted, Atomic.IsSorted ⟨[⟨[501, 499], (500 : K)⟩], []⟩ sorted → Atomic.newGrid ⟨[⟨[501, 499], (500 : K)⟩], []⟩ sorted = none := by
  rw [oneLine_parse]
  have hparse : parseLine (lv2 (K := K)) ⟨"Voigt", "b", "a", 1, 1, 1, 1, 1, 1, 500, [.natural (1 : K)], .tabulated [1, -1]⟩ =
      .ok ⟨false, 1, 0, 1, some 1, 1, 1, 1, 1, 1, 500, [], [some (500 + 1), some (500 + -1)]⟩ := by
    simp [parseLine, at_ab, broadStep, grid]
  rw [hparse]
  refine ⟨_, _, rfl, rfl, ?_, ?_⟩
  · norm_num
  · intro sorted hs
    have hgov : ∀ w : K, Atomic.governing ⟨[⟨[501, 499], (500 : K)⟩], []⟩ w = none := by
      intro w
      have : Atomic.activeTrans ⟨[⟨[501, 499], (500 : K)⟩], []⟩ w = [] := by
        unfold Atomic.activeTrans Atomic.Model.trans
        simp only [List.append_nil, List.length_singleton]
        rw [List.filter_eq_nil_iff]
        intro t ht
        have : t = 0 := by simpa using ht
        subst this
        simp only [Atomic.isActive, Atomic.Model.trans, Atomic.Trans.blue, Atomic.Trans.red]
        simp only [List.append_nil, List.getElem?_cons_zero, List.headD_cons]
        intro h
        simp at h
        have : (501 : K) ≤ 499 := h.1.trans h.2
        norm_num at this
      unfold Atomic.governing
      rw [this]
    have hlen := hs.1.length_eq
    cases sorted with
    | nil => simp [Atomic.defaultGrid] at hlen
    | cons p rest =>
      obtain ⟨w, o⟩ := p
      unfold Atomic.newGrid
      rw [hgov]

/-- C69, REFUTED in full, 6: a rate with fewer data than temperatures is accepted, and building the tables reads past its end. -/
theorem C69_refuted_coll : ∃ (f : File K) (m : Atom K), parse f lv2 = .ok m ∧ collTables m.colls = .ub := by
  refine ⟨{ hasMeta := true, level := "simplified", levels := lv2, lines := [], conts := [],
            colls := [⟨"b", "a", [⟨"CE", [1, 2], [1]⟩]⟩] }, ⟨lv2, [], [], [⟨1, 0, .ce, [1, 2], [1]⟩]⟩, ?_, ?_⟩
  · simp [parse, parseColl, at_ab, collType]
  · simp [collTables]

/-- A file that is read. -/
example : ¬ FileBad (oneLine "b" "a" [.natural (1 : ℚ)] (.linear 1 3)) := by
  rcases C69_read (oneLine "b" "a" [.natural (1 : ℚ)] (.linear 1 3)) lv2 lv2_sorted with ⟨_, h⟩ | h
  · rw [oneLine_parse] at h
    simp [parseLine, at_ab, broadStep, grid, linearGrid] at h
  · exact h.1
example : FileBad (oneLine "c" "a" [.natural (1 : ℚ)] (.linear 1 3)) := by
  refine Or.inr (Or.inr (Or.inl ⟨_, List.mem_singleton.mpr rfl, Or.inr (Or.inl ?_)⟩))
  simp [oneLine, lv2]

end DexRT
