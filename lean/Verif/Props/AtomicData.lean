import Verif.Lemmas.AtomicData
import Mathlib.Data.Rat.Defs
import Mathlib.Algebra.Order.Ring.Rat
/-!
# C31, C32, C33, C49: the assembled atomic data
-/
namespace DexRT
open Atomic

/-! ### Specification, in terms of the input models only -/

/-- Transition number `t` covers wavelength `w`. -/
def Covers {K : Type} [Field K] [LinearOrder K] (m : Model K) (w : K) (t : Nat) (tr : Trans K) : Prop :=
  m.trans[t]? = some tr ∧ tr.blue ≤ w ∧ w ≤ tr.red

/-- The transitions that may decide about `w`: the lines covering it; if there are none, the continua. -/
def Candidate {K : Type} [Field K] [LinearOrder K] (m : Model K) (w : K) (t : Nat) (tr : Trans K) : Prop :=
  Covers m w t tr ∧ (t < m.lines.length ∨ ∀ l ∈ m.lines, ¬ (l.blue ≤ w ∧ w ≤ l.red))

/-- `t` governs `w`: of the candidates, it is the first of those whose reference wavelength is nearest. -/
def Governs {K : Type} [Field K] [LinearOrder K] (m : Model K) (w : K) (t : Nat) : Prop :=
  ∃ tr, Candidate m w t tr ∧ ∀ t' tr', Candidate m w t' tr' →
    |w - tr.lambda0| ≤ |w - tr'.lambda0| ∧ (t' < t → |w - tr.lambda0| < |w - tr'.lambda0|)

variable {K : Type} [Field K] [LinearOrder K]

/-! ### C49: the wavelength grid -/

theorem lambda0_eq {m : Model K} {t : Nat} {tr : Trans K} (h : m.trans[t]? = some tr) : lambda0 m t = tr.lambda0 := by
  simp [lambda0, h]

/-- C49 (governing transition): for every set of transitions and every wavelength closer than 1e8 to the reference
wavelength of each transition covering it, the transition chosen is the governing one. -/
theorem C49_governing (m : Model K) (w : K) (hfar : ∀ t tr, Covers m w t tr → |w - tr.lambda0| < 100000000) (t : Nat) :
    governing m w = some t ↔ Governs m w t := by
  -- the candidates as a list in increasing order
  have hcand : ∀ u tr, m.trans[u]? = some tr → (u ∈ activeTrans m w ↔ Covers m w u tr) := by
    intro u tr h
    rw [mem_activeTrans]
    exact ⟨fun ⟨tr', h', hb⟩ => ⟨h, by rw [h] at h'; exact Option.some.inj h' ▸ hb⟩, fun h => ⟨tr, h⟩⟩
  have hsorted : (activeTrans m w).Pairwise (· < ·) := (List.pairwise_lt_range).filter _
  have uniq : ∀ t1 t2, Governs m w t1 → Governs m w t2 → t1 = t2 := by
    rintro t1 t2 ⟨r1, c1, m1⟩ ⟨r2, c2, m2⟩
    rcases Nat.lt_trichotomy t1 t2 with h | h | h
    · exact absurd ((m2 t1 r1 c1).2 h) (not_lt.mpr (m1 t2 r2 c2).1)
    · exact h
    · exact absurd ((m1 t2 r2 c2).2 h) (not_lt.mpr (m2 t1 r1 c1).1)
  suffices hgov : ∀ g, governing m w = some g → Governs m w g by
    refine ⟨hgov t, fun hG => ?_⟩
    obtain ⟨tr, hc, _⟩ := hG
    have hmem : t ∈ activeTrans m w := (hcand t tr hc.1.1).mpr hc.1
    cases hg : governing m w with
    | none =>
      unfold governing at hg
      cases ha : activeTrans m w with
      | nil => rw [ha] at hmem; simp at hmem
      | cons a as => rw [ha] at hg; simp at hg
    | some g => rw [uniq g t (hgov g hg) ⟨tr, hc, ‹_›⟩]
  intro g hg
  unfold governing at hg
  cases ha : activeTrans m w with
  | nil => rw [ha] at hg; simp at hg
  | cons a as =>
    rw [ha] at hg hsorted
    simp only [Option.some.injEq] at hg
    generalize hlo : decide (a < m.lines.length) = lo at hg
    have hscan := govScan_foldl m w lo (a :: as) (100000000, a)
    simp only at hscan
    rw [hg] at hscan
    have hok : ∀ u ∈ a :: as, ∀ tr, m.trans[u]? = some tr →
        ((!lo || decide (u < m.lines.length)) = true ↔ Candidate m w u tr) := by
      intro u hu tr htr
      have hcov : Covers m w u tr := (hcand u tr htr).mp (ha ▸ hu)
      have hau : a ≤ u := by
        rcases List.mem_cons.mp hu with h | h
        · omega
        · exact (List.rel_of_pairwise_cons hsorted h).le
      rw [← hlo]
      constructor
      · intro h
        refine ⟨hcov, ?_⟩
        by_cases hu' : u < m.lines.length
        · exact Or.inl hu'
        · right
          intro l hl hb
          obtain ⟨i, hi, rfl⟩ := List.getElem_of_mem hl
          have hti : m.trans[i]? = some m.lines[i] := by
            unfold Model.trans
            rw [List.getElem?_append_left hi, List.getElem?_eq_getElem hi]
          have hia : i ∈ a :: as := ha ▸ (hcand i _ hti).mpr ⟨hti, hb⟩
          have hai : a ≤ i := by
            rcases List.mem_cons.mp hia with h | h
            · omega
            · exact (List.rel_of_pairwise_cons hsorted h).le
          have : a < m.lines.length := by omega
          simp [this, hu'] at h
      · rintro ⟨_, h | h⟩
        · simp [h]
        · have : ¬ a < m.lines.length := by
            intro hlt
            have hta : m.trans[a]? = some m.lines[a] := by
              unfold Model.trans
              rw [List.getElem?_append_left hlt, List.getElem?_eq_getElem hlt]
            exact h _ (List.getElem_mem hlt) ((hcand a _ hta).mp (by rw [ha]; simp)).2
          simp [this]
    have hget : ∀ u ∈ a :: as, ∃ tr, m.trans[u]? = some tr := by
      intro u hu
      obtain ⟨tr, h, _⟩ := (mem_activeTrans m w u).mp (ha ▸ hu)
      exact ⟨tr, h⟩
    have hmin := hscan.2.1
    obtain ⟨_, _, h3⟩ := hscan
    rcases h3 with ⟨hr, hall⟩ | ⟨i, hi, e1, e2, e3, _, e5⟩
    · -- impossible: the first candidate is nearer than the bound
      exfalso
      obtain ⟨tr, htr⟩ := hget a (by simp)
      have := hall a (by simp) (by rw [← hlo]; by_cases h : a < m.lines.length <;> simp [h])
      rw [lambda0_eq htr] at this
      exact absurd (hfar a tr ((hcand a tr htr).mp (by rw [ha]; simp))) (not_lt.mpr this)
    · rw [show g = _ from e1] at *
      have hu : (a :: as)[i] ∈ a :: as := List.getElem_mem hi
      obtain ⟨tr, htr⟩ := hget _ hu
      refine ⟨tr, (hok _ hu tr htr).mp e2, ?_⟩
      intro t' tr' hc'
      have hu' : t' ∈ a :: as := ha ▸ (hcand t' tr' hc'.1.1).mpr hc'.1
      have ho' := (hok t' hu' tr' hc'.1.1).mpr hc'
      rw [lambda0_eq htr] at e3
      have h1 := hmin t' hu' ho'
      rw [lambda0_eq hc'.1.1] at h1
      refine ⟨e3 ▸ h1, fun hlt => ?_⟩
      obtain ⟨j, hj, hje⟩ := List.getElem_of_mem hu'
      have hji : j < i := by
        rcases Nat.lt_trichotomy j i with h | h | h
        · exact h
        · subst h; omega
        · have := List.pairwise_iff_getElem.mp hsorted i j hi hj h
          omega
      have h2 := e5 j hj hji (by rw [hje]; exact ho')
      rw [hje, lambda0_eq hc'.1.1, e3] at h2
      exact h2

/-- C49 (grid): for every set of transitions with sorted wavelengths, and whatever order the sort gives to equal
wavelengths, building the grid succeeds; the result holds exactly the input wavelengths that the transition they come
from governs, each with that transition. -/
theorem C49_grid (m : Model K) (hs : ∀ t ∈ m.trans, t.waves.Pairwise (· ≤ ·)) (sorted : List (K × Nat))
    (h : IsSorted m sorted) : ∃ gr, newGrid m sorted = some gr ∧ (gr.map Prod.fst).Pairwise (· ≤ ·) ∧
      ∀ w t, (w, t) ∈ gr ↔ governing m w = some t ∧ ∃ tr, m.trans[t]? = some tr ∧ w ∈ tr.waves := by
  refine ⟨_, newGrid_eq m sorted fun e he => ?_, ?_, ?_⟩
  · exact governing_isSome m hs e.1 e.2 (h.1.mem_iff.mp he)
  · rw [List.pairwise_map]
    exact h.2.filter _
  · intro w t
    rw [List.mem_filter, h.1.mem_iff, mem_defaultGrid]
    simp [and_comm]

/-- C49 (strictly increasing): if no transition lists a wavelength twice, neither does the grid. -/
theorem C49_strict (m : Model K) (hs : ∀ t ∈ m.trans, t.waves.Pairwise (· < ·)) (sorted : List (K × Nat))
    (h : IsSorted m sorted) (gr : List (K × Nat)) (hg : newGrid m sorted = some gr) :
    (gr.map Prod.fst).Pairwise (· < ·) := by
  have hs' : ∀ t ∈ m.trans, t.waves.Pairwise (· ≤ ·) := fun t ht => (hs t ht).imp le_of_lt
  have e := newGrid_eq m sorted fun e he => governing_isSome m hs' e.1 e.2 (h.1.mem_iff.mp he)
  rw [hg] at e
  have e := Option.some.inj e
  have hnd : gr.Nodup := by
    rw [e]
    refine List.Nodup.filter _ (h.1.nodup_iff.mpr (nodup_defaultGrid m fun t ht => ?_))
    exact (hs t ht).imp ne_of_lt
  have hle : gr.Pairwise fun a b => a.1 ≤ b.1 := by rw [e]; exact h.2.filter _
  rw [List.pairwise_map]
  refine (hle.and hnd).imp_of_mem ?_
  intro a b ha hb hab
  refine lt_of_le_of_ne hab.1 fun heq => hab.2 ?_
  rw [e] at ha hb
  have h1 := (List.mem_filter.mp ha).2
  have h2 := (List.mem_filter.mp hb).2
  simp only [decide_eq_true_eq] at h1 h2
  rw [heq, h2] at h1
  exact Prod.ext heq (Option.some.inj h1).symm

/-- C49 (determinism): the grid does not depend on the order the (unstable) sort gives to equal wavelengths. -/
theorem C49_order (m : Model K) (hs : ∀ t ∈ m.trans, t.waves.Pairwise (· < ·)) (s₁ s₂ : List (K × Nat))
    (h₁ : IsSorted m s₁) (h₂ : IsSorted m s₂) : newGrid m s₁ = newGrid m s₂ := by
  have hs' : ∀ t ∈ m.trans, t.waves.Pairwise (· ≤ ·) := fun t ht => (hs t ht).imp le_of_lt
  obtain ⟨g₁, e₁, _, m₁⟩ := C49_grid m hs' s₁ h₁
  obtain ⟨g₂, e₂, _, m₂⟩ := C49_grid m hs' s₂ h₂
  have p₁ := List.pairwise_map.mp (C49_strict m hs s₁ h₁ g₁ e₁)
  have p₂ := List.pairwise_map.mp (C49_strict m hs s₂ h₂ g₂ e₂)
  have n₁ : g₁.Nodup := p₁.imp fun h he => by rw [he] at h; exact lt_irrefl _ h
  have n₂ : g₂.Nodup := p₂.imp fun h he => by rw [he] at h; exact lt_irrefl _ h
  have hp : g₁.Perm g₂ := (List.perm_ext_iff_of_nodup n₁ n₂).mpr fun ⟨w, t⟩ => by rw [m₁, m₂]
  rw [e₁, e₂]
  congr 1
  exact hp.eq_of_pairwise (le := fun a b => a.1 < b.1) (fun a b _ _ h1 h2 => absurd (lt_trans h1 h2) (lt_irrefl _)) p₁ p₂

/-- C49 (sampling): every line whose own reference wavelength is among its wavelengths is covered by at least one
point of the grid. Partial: the same is false for continua (`C49_refuted_continuum`). -/
theorem C49_sampled_partial [IsStrictOrderedRing K] (m : Model K) (hs : ∀ t ∈ m.trans, t.waves.Pairwise (· ≤ ·))
    (sorted : List (K × Nat)) (h : IsSorted m sorted) (gr : List (K × Nat)) (hg : newGrid m sorted = some gr)
    (hfar : ∀ w t tr, Covers m w t tr → |w - tr.lambda0| < 100000000)
    (h0 : ∀ l ∈ m.lines, l.lambda0 ∈ l.waves) (l : Trans K) (hl : l ∈ m.lines) :
    l.lambda0 ∈ gr.map Prod.fst ∧ l.blue ≤ l.lambda0 ∧ l.lambda0 ≤ l.red := by
  obtain ⟨gr', hgr', _, hmem⟩ := C49_grid m hs sorted h
  rw [hg] at hgr'
  obtain rfl := Option.some.inj hgr'
  have hlt : l ∈ m.trans := List.mem_append_left _ hl
  have hin := within l (hs l hlt) l.lambda0 (h0 l hl)
  refine ⟨?_, hin⟩
  obtain ⟨i, hi, hie⟩ := List.getElem_of_mem hl
  have hti : m.trans[i]? = some l := by
    unfold Model.trans
    rw [List.getElem?_append_left hi, List.getElem?_eq_getElem hi, hie]
  have hcov : Covers m l.lambda0 i l := ⟨hti, hin⟩
  have hsome := governing_isSome m hs l.lambda0 i ((mem_defaultGrid m _ _).mpr ⟨l, hti, h0 l hl⟩)
  obtain ⟨t, ht⟩ := Option.isSome_iff_exists.mp hsome
  obtain ⟨tr, hc, hmin⟩ := (C49_governing m l.lambda0 (hfar l.lambda0) t).mp ht
  have hz := (hmin i l ⟨hcov, Or.inl hi⟩).1
  simp only [sub_self, abs_zero] at hz
  have heq : l.lambda0 = tr.lambda0 := sub_eq_zero.mp (abs_eq_zero.mp (le_antisymm hz (abs_nonneg _)))
  have htline : t < m.lines.length := by
    rcases hc.2 with h | h
    · exact h
    · exact absurd hin (h l hl)
  have htr : tr ∈ m.lines := by
    have := hc.1.1
    unfold Model.trans at this
    rw [List.getElem?_append_left htline] at this
    exact List.mem_of_getElem? this
  exact List.mem_map.mpr ⟨(l.lambda0, t), (hmem _ _).mpr ⟨ht, tr, hc.1.1, heq ▸ h0 tr htr⟩, rfl⟩

/-- One line from 0 to 100 with points 0, 50, 100, and a continuum with points 10 and 20 below it. -/
def coarseLine : Model ℚ := { lines := [⟨[0, 50, 100], 50⟩], conts := [⟨[10, 20], 20⟩] }

/-- C49 is **false** as far as continua are concerned: a continuum covered by a line that is coarser than the
continuum loses all its wavelengths and is covered by no point of the grid at all, so its rates are zero. -/
theorem C49_refuted_continuum :
    newGrid coarseLine [(0, 0), (10, 1), (20, 1), (50, 0), (100, 0)] = some [(0, 0), (50, 0), (100, 0)] ∧
    IsSorted coarseLine [(0, 0), (10, 1), (20, 1), (50, 0), (100, 0)] ∧
    ∀ la, activeAt ((0 : ℚ) :: 50 :: 100 :: []) ⟨[10, 20], 20⟩ la = false := by
  refine ⟨by decide +kernel, ⟨?_, by decide +kernel⟩, ?_⟩
  · exact (List.perm_iff_count).mpr (by
      intro a
      by_cases h : a ∈ [((0 : ℚ), 0), (10, 1), (20, 1), (50, 0), (100, 0)]
      · revert a; decide +kernel
      · rw [List.count_eq_zero_of_not_mem h, List.count_eq_zero_of_not_mem]
        intro h'; apply h; revert h'
        have : defaultGrid coarseLine = [(10, 1), (20, 1), (0, 0), (50, 0), (100, 0)] := by decide +kernel
        rw [this]; simp; tauto)
  · intro la
    unfold activeAt
    have h1 : blueIdx ((0 : ℚ) :: 50 :: 100 :: []) ⟨[10, 20], 20⟩ = 1 := by decide +kernel
    have h2 : redIdx ((0 : ℚ) :: 50 :: 100 :: []) ⟨[10, 20], 20⟩ = 1 := by decide +kernel
    rw [h1, h2]
    by_cases h : la ≥ 1
    · simp [h, show ¬ la < 1 by omega]
    · simp [h]

/-! ### C31: integration weights -/

/-- C31 (weights): on every sorted grid of at least two points the weights exist, are not negative, and add up to the
width of the grid. -/
theorem C31_total [IsStrictOrderedRing K] (g : List K) (hg : g.Pairwise (· ≤ ·)) (h2 : 2 ≤ g.length) :
    ∃ ws, wavelengthBin g = .ok ws ∧ ws.length = g.length ∧ (∀ w ∈ ws, 0 ≤ w) ∧
      ws.sum = g[g.length - 1] - g[0] := by
  refine ⟨_, bin_eq g h2, by simp, ?_, ?_⟩
  · intro w hw
    obtain ⟨la, hla, rfl⟩ := List.mem_map.mp hw
    exact sub_nonneg.mpr (edge_mono g hg h2 la (List.mem_range.mp hla))
  · have := telescope (edge g) g.length 0
    simp only [Nat.zero_add] at this
    rw [this]
    unfold edge
    rw [if_neg (by omega), if_pos rfl, if_pos rfl, List.getD_eq_getElem _ _ (by omega),
      List.getD_eq_getElem _ _ (by omega)]

/-- C31 (per transition): the weights of the points `b, .., r - 1` of a transition inside the grid add up to the
distance between the midpoints on either side, for every grid and range. Partial: this is not the width of the
transition (`C31_refuted`). -/
theorem C31_range_partial [IsStrictOrderedRing K] (g : List K) (b r : Nat) (hb : 0 < b) (hbr : b ≤ r)
    (hr : r < g.length) (ws : List K) (hw : wavelengthBin g = .ok ws) :
    ((ws.drop b).take (r - b)).sum = (g[r - 1] + g[r]) / 2 - (g[b - 1] + g[b]) / 2 := by
  rw [bin_eq g (by omega)] at hw
  cases hw
  rw [slice_sum (edge g) g.length b r hbr (by omega)]
  unfold edge
  rw [if_neg (by omega), if_neg (by omega), if_neg (by omega), if_neg (by omega),
    List.getD_eq_getElem _ _ (by omega), List.getD_eq_getElem _ _ (by omega), List.getD_eq_getElem _ _ (by omega),
    List.getD_eq_getElem _ _ (by omega)]

/-- C31 is **false** for a transition inside a larger grid: with the grid 0, 10, 20, 100 a transition from 10 to 20
(width 10) has weights adding up to 55. -/
theorem C31_refuted : ∃ (g : List ℚ) (t : Trans ℚ) (ws : List ℚ), g.Pairwise (· < ·) ∧ t.blue ∈ g ∧ t.red ∈ g ∧
    wavelengthBin g = .ok ws ∧
    ((ws.drop (blueIdx g t)).take (redIdx g t - blueIdx g t)).sum = 55 ∧ t.red - t.blue = 10 :=
  ⟨[0, 10, 20, 100], ⟨[10, 20], 20⟩, [5, 10, 45, 40], by decide +kernel, by decide +kernel, by decide +kernel,
    by decide +kernel, by decide +kernel, by decide +kernel⟩

/-- C31 is **false** for a grid of fewer than two points: a point that does not exist is read. -/
theorem C31_refuted_short (g : List K) (h : g.length < 2) : wavelengthBin g = .ub := by
  simp [wavelengthBin, h]

/-- Non-vacuity. -/
example : wavelengthBin ([1, 2, 4, 8] : List ℚ) = .ok [1/2, 3/2, 3, 2] := by decide +kernel

/-! ### C32: active transitions -/

/-- C32 (slices): for every sorted grid, every list of at most 65536 transitions and every grid point, the slice of
the active set of the point lists exactly the transitions covering the point, in increasing order. -/
theorem C32_slice_partial (g : List K) (hg : g.Pairwise (· ≤ ·)) (ts : List (Trans K)) (hn : ts.length ≤ 65536) (la : Nat)
    (h : la < g.length) : (sliceActive (activeSets g ts) la).Pairwise (· < ·) ∧
      ∀ kr, kr ∈ sliceActive (activeSets g ts) la ↔ ∃ t, ts[kr]? = some t ∧ t.blue ≤ g[la] ∧ g[la] ≤ t.red := by
  have e : sliceActive (activeSets g ts) la = activeKr g ts la := by
    rw [sliceActive_eq g ts la h]
    have : ∀ kr ∈ activeKr g ts la, kr % 65536 = kr := by
      intro kr hkr
      have := List.mem_range.mp (List.mem_filter.mp hkr).1
      exact Nat.mod_eq_of_lt (by omega)
    conv_rhs => rw [← List.map_id (activeKr g ts la)]
    exact List.map_congr_left this
  rw [e]
  refine ⟨List.pairwise_lt_range.filter _, fun kr => ?_⟩
  unfold activeKr
  rw [List.mem_filter, List.mem_range]
  constructor
  · rintro ⟨hk, ha⟩
    rw [List.getElem?_eq_getElem hk] at ha ⊢
    exact ⟨_, rfl, (activeAt_iff g hg _ la h).mp ha⟩
  · rintro ⟨t, ht, hb⟩
    refine ⟨(List.getElem?_eq_some_iff.mp ht).1, ?_⟩
    rw [ht]
    exact (activeAt_iff g hg t la h).mpr hb

/-- C32 (layout): there is one slice per point, the first starts at 0, each starts where the one before ends, and the
last ends at the end of the buffer. -/
theorem C32_layout (g : List K) (ts : List (Trans K)) :
    (activeSets g ts).2.length = g.length ∧
    (∀ la, la < g.length → ∃ a b, (activeSets g ts).2[la]? = some (a, b) ∧ a ≤ b ∧
      (la = 0 → a = 0) ∧ (la + 1 = g.length → b = (activeSets g ts).1.length) ∧
      (la + 1 < g.length → ∃ c, (activeSets g ts).2[la + 1]? = some (b, c))) := by
  rw [activeSets_eq]
  refine ⟨by simp, fun la h => ⟨_, _, by rw [List.getElem?_map, List.getElem?_range h]; rfl, ?_, ?_, ?_, ?_⟩⟩
  · rw [blocks_succ]; simp
  · rintro rfl; simp [blocks]
  · intro h'; rw [h']
  · intro h'; exact ⟨_, by rw [List.getElem?_map, List.getElem?_range h']; rfl⟩

/-- C32 (emptiness of the range): the points active for a transition are those at `blueIdx, .., redIdx - 1`, all of
them in the grid. -/
theorem C32_index (g : List K) (hg : g.Pairwise (· ≤ ·)) (t : Trans K) (la : Nat) (h : la < g.length) :
    (blueIdx g t ≤ la ∧ la < redIdx g t ↔ t.blue ≤ g[la] ∧ g[la] ≤ t.red) ∧ redIdx g t ≤ g.length := by
  refine ⟨?_, (idx_le g t).2⟩
  rw [← activeAt_iff g hg t la h]
  simp [activeAt]

/-- C32 is **false** from 65537 transitions on: transition number 65536 is stored as number 0, for every grid point it
covers. -/
theorem C32_refuted (g : List K) (hg : g.Pairwise (· ≤ ·)) (ts : List (Trans K)) (t : Trans K) (ht : ts[65536]? = some t)
    (la : Nat) (h : la < g.length) (hb : t.blue ≤ g[la] ∧ g[la] ≤ t.red) :
    0 ∈ sliceActive (activeSets g ts) la ∧ 65536 ∉ sliceActive (activeSets g ts) la := by
  rw [sliceActive_eq g ts la h]
  constructor
  · refine List.mem_map.mpr ⟨65536, ?_, rfl⟩
    refine List.mem_filter.mpr ⟨List.mem_range.mpr (List.getElem?_eq_some_iff.mp ht).1, ?_⟩
    rw [ht]
    exact (activeAt_iff g hg t la h).mpr hb
  · intro hc
    obtain ⟨kr, _, he⟩ := List.mem_map.mp hc
    have := Nat.mod_lt kr (show 65536 > 0 by omega)
    omega

/-- Non-vacuity: two overlapping transitions on a three-point grid. -/
example : (sliceActive (activeSets [1, 2, 3] ([⟨[1, 2], 1⟩, ⟨[2, 3], 3⟩] : List (Trans ℚ))) 1) = [0, 1] ∧
    (sliceActive (activeSets [1, 2, 3] ([⟨[1, 2], 1⟩, ⟨[2, 3], 3⟩] : List (Trans ℚ))) 2) = [1] := by
  decide +kernel

/-! ### C33: concatenated arrays -/

/-- C33 (ranges): for every list of atoms the range of each atom starts where the previous one ends, the first starts
at 0, and they end at the total. -/
theorem C33_ranges (counts : List Nat) : (ranges counts).1.length = counts.length ∧ (ranges counts).2 = counts.sum ∧
    ∀ ia (h : ia < counts.length), (ranges counts).1[ia]? = some ((counts.take ia).sum, counts[ia]) := by
  refine ⟨by rw [ranges_fst]; simp, ranges_snd counts, fun ia h => ?_⟩
  rw [ranges_fst, List.getElem?_map, List.getElem?_range h]
  simp [h]

/-- C33 (contents): for every list of atoms, every element of the concatenated array is written, and the slice handed
out for an atom is that atom's own list. -/
theorem C33_concat {α : Type} (atoms : List (List α)) :
    (concatFill atoms).length = (ranges (atoms.map List.length)).2 ∧ none ∉ concatFill atoms ∧
    ∀ ia (h : ia < atoms.length), ∃ s n, (ranges (atoms.map List.length)).1[ia]? = some (s, n) ∧
      ((concatFill atoms).drop s).take n = atoms[ia].map some := by
  rw [concatFill_eq]
  refine ⟨?_, by simp, ?_⟩
  · rw [ranges_snd, List.length_map, List.length_flatten]
  · intro ia h
    refine ⟨_, _, (C33_ranges (atoms.map List.length)).2.2 ia (by simpa using h), ?_⟩
    have e : ∀ (atoms : List (List α)) (ia : Nat) (h : ia < atoms.length),
        ((atoms.flatten).drop ((atoms.map List.length).take ia).sum).take atoms[ia].length = atoms[ia] := by
      intro atoms
      induction atoms with
      | nil => intro ia h; simp at h
      | cons a as ih =>
        intro ia h
        cases ia with
        | zero => simp
        | succ ia =>
          simp only [List.map_cons, List.take_succ_cons, List.sum_cons, List.getElem_cons_succ, List.flatten_cons]
          rw [List.drop_append, List.drop_eq_nil_of_le (by omega)]
          simp only [List.nil_append, Nat.add_sub_cancel_left]
          exact ih ia (by simpa using h)
    rw [← List.map_drop, ← List.map_take]
    simp only [List.getElem_map]
    rw [e atoms ia h]

/-- C33 (cross-sections): the value read for continuum `kr` at a grid point it covers is the one interpolated for that
continuum and that point, for every grid and every list of continua. -/
theorem C33_sigma (g : List K) (conts : List (Trans K)) (hb : ∀ t ∈ conts, t.blue ≤ t.red) (f : Nat → Nat → K) (kr : Nat)
    (t : Trans K) (ht : conts[kr]? = some t) (la : Nat) (h : activeAt g t la) :
    ∃ s e, (sigmaRanges g conts)[kr]? = some (s, e) ∧ e = s + (redIdx g t - blueIdx g t) ∧
      e ≤ (sigmaFill g conts f).length ∧ (sigmaFill g conts f)[s + (la - blueIdx g t)]? = some (f kr la) := by
  have key : ∀ (cs : List (Trans K)), (∀ i < cs.length, cs[i]? = conts[i]?) →
      let fill := (List.range cs.length).foldl (fun buf kr =>
        match conts[kr]? with
        | some t => buf ++ (List.range (redIdx g t - blueIdx g t)).map fun k => f kr (blueIdx g t + k)
        | none => buf) []
      let rg := cs.foldl (fun (acc : Nat × List (Nat × Nat)) t =>
        (acc.1 + (redIdx g t - blueIdx g t), acc.2 ++ [(acc.1, acc.1 + (redIdx g t - blueIdx g t))])) (0, [])
      rg.1 = fill.length ∧ rg.2.length = cs.length ∧
      ∀ kr < cs.length, ∀ t, conts[kr]? = some t → ∃ s e, rg.2[kr]? = some (s, e) ∧
        e = s + (redIdx g t - blueIdx g t) ∧ e ≤ fill.length ∧
        ∀ la, blueIdx g t ≤ la → la < redIdx g t → fill[s + (la - blueIdx g t)]? = some (f kr la) := by
    intro cs
    induction cs using List.reverseRecOn with
    | nil => intro _; simp
    | append_singleton cs c ih =>
      intro hc
      obtain ⟨h1, h2, h3⟩ := ih (fun i hi => by
        rw [← hc i (by simp; omega), List.getElem?_append_left hi])
      have hlast : conts[cs.length]? = some c := by
        rw [← hc cs.length (by simp)]; simp
      simp only [List.length_append, List.length_singleton, List.range_succ, List.foldl_append, List.foldl_cons,
        List.foldl_nil, hlast]
      generalize (List.range cs.length).foldl _ [] = fill at h1 h3 ⊢
      generalize cs.foldl _ (0, []) = rg at h1 h2 h3 ⊢
      refine ⟨by simp [h1], by simp [h2], ?_⟩
      intro kr hk t ht
      rcases Nat.lt_or_eq_of_le (Nat.lt_succ_iff.mp hk) with hlt | heq
      · obtain ⟨s, e, e1, e2, e3, e4⟩ := h3 kr hlt t ht
        refine ⟨s, e, by rw [List.getElem?_append_left (by omega)]; exact e1, e2, by simp; omega, ?_⟩
        intro la hla hlr
        rw [List.getElem?_append_left (by omega)]
        exact e4 la hla hlr
      · subst heq
        rw [hlast] at ht
        obtain rfl := Option.some.inj ht
        refine ⟨rg.1, _, by rw [List.getElem?_append_right (by omega), h2]; simp, rfl, by simp [h1], ?_⟩
        intro la hla hlr
        rw [List.getElem?_append_right (by omega), h1]
        simp only [Nat.add_sub_cancel_left]
        rw [List.getElem?_map, List.getElem?_range (by omega)]
        simp [Nat.add_sub_cancel' hla]
  obtain ⟨_, _, h3⟩ := key conts (fun _ _ => rfl)
  obtain ⟨s, e, e1, e2, e3, e4⟩ := h3 kr (List.getElem?_eq_some_iff.mp ht).1 t ht
  unfold activeAt at h
  simp only [Bool.and_eq_true, decide_eq_true_eq] at h
  exact ⟨s, e, e1, e2, e3, e4 la h.1 h.2⟩

/-- Non-vacuity: two atoms with two and one levels. -/
example : concatFill [["a", "b"], ["c"]] = [some "a", some "b", some "c"] ∧ (ranges [2, 1]).1 = [(0, 2), (2, 1)] := by
  decide

/-- Non-vacuity of the grid theorems: two lines sharing a wavelength. -/
def twoLines : Model ℚ := { lines := [⟨[1, 2, 3], 2⟩, ⟨[2, 4], 4⟩], conts := [] }

example : newGrid twoLines [(1, 0), (2, 1), (2, 0), (3, 0), (4, 1)] = some [(1, 0), (2, 0), (3, 0), (4, 1)] ∧
    newGrid twoLines [(1, 0), (2, 0), (2, 1), (3, 0), (4, 1)] = some [(1, 0), (2, 0), (3, 0), (4, 1)] := by
  decide +kernel

/-- C33 (hydrogen): for every non-empty list of atoms in which hydrogen is lighter than the others, the flag "there is
a hydrogen model" says whether there is one, and if so the first atom of the sorted list is hydrogen. -/
theorem C33_hydrogen (models sorted : List (Element K)) (h : SortedByMass models sorted) (hne : models ≠ [])
    (hlight : ∀ a ∈ models, ∀ b ∈ models, a.Z = 1 → b.Z ≠ 1 → a.mass < b.mass) :
    ∃ f, haveH sorted = .ok f ∧ (f = true ↔ ∃ a ∈ models, a.Z = 1) ∧
      (f = true → ∃ a, sorted[0]? = some a ∧ a.Z = 1) := by
  cases hs : sorted with
  | nil => rw [hs] at h; exact absurd h.1.symm.eq_nil hne
  | cons a as =>
    rw [hs] at h
    refine ⟨a.Z == 1, rfl, ?_, fun hf => ⟨a, rfl, by simpa using hf⟩⟩
    constructor
    · intro hf; exact ⟨a, h.1.mem_iff.mp (by simp), by simpa using hf⟩
    · rintro ⟨b, hb, hz⟩
      by_contra hc
      have ha : a.Z ≠ 1 := by simpa using hc
      have hlt := hlight b hb a (h.1.mem_iff.mp (by simp)) hz ha
      rcases List.mem_cons.mp (h.1.mem_iff.mpr hb) with rfl | hm
      · exact ha hz
      · exact absurd (List.rel_of_pairwise_cons h.2 hm) (not_le.mpr hlt)

example : SortedByMass ([⟨40, 20⟩, ⟨1, 1⟩] : List (Element ℚ)) [⟨1, 1⟩, ⟨40, 20⟩] ∧
    haveH ([⟨1, 1⟩, ⟨40, 20⟩] : List (Element ℚ)) = .ok true :=
  ⟨⟨List.Perm.swap _ _ _, by simp⟩, rfl⟩

end DexRT
