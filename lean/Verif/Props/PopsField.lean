import Verif.Lemmas.PopsField
import Verif.Props.Lte
/-!
# C83: LTE populations of the whole atmosphere, neutral hydrogen
-/
namespace DexRT.PopsField
open DexRT DexRT.Lte DexRT.Atomic

variable (kB dbc fmin : ℝ) (atoms : List FieldAtom) (f : Atmos) (p : Pops)

/-- **C83** For all atoms and cells, whatever the order of the threads and the contents of the array before: every write is
inside the array, and the row of level `i` of atom `ia` then holds in every cell the LTE population of that level for the
temperature, the electron density and the hydrogen density of that cell and the abundance of that atom. No other element
than those of the atoms is touched. -/
theorem C83_lte (hr : HasRows atoms p) (sched : List (Nat × Nat)) (hs : sched.Perm (threads atoms p.cols)) :
    ∃ q, computeLtePops kB dbc fmin atoms f sched p = .ok q ∧ q.rows = p.rows ∧ q.cols = p.cols ∧
      (∀ ia a, atoms[ia]? = some a → ∀ (i : Fin (a.n + 1)) ks, ks < p.cols → popOf atoms q ia i ks =
        ltePops kB dbc fmin a.lv (f.temperature ks) (f.ne ks) (a.abundance * f.nhTot ks) i) ∧
      ∀ b, p.rows * p.cols ≤ b → q.mem b = p.mem b := by
  obtain ⟨q, h1, h2, h3, h4, h5⟩ := lte_fold kB dbc fmin atoms f sched (hs.nodup_iff.2 (threads_nodup _ _)) p hr
    (fun t ht => (threads_mem atoms p.cols t.1 t.2).1 (hs.mem_iff.1 ht))
  refine ⟨q, h1, h2, h3, fun ia a ha i ks hk => ?_, fun b hb => h5 b (fun t ht a ha i e => ?_)⟩
  · have hm : (ia, ks) ∈ sched := hs.mem_iff.2 ((threads_mem atoms p.cols ia ks).2 ⟨(List.getElem?_eq_some_iff.1 ha).1, hk⟩)
    unfold popOf
    rw [h3]
    exact h4 (ia, ks) hm a ha i
  · have hk := ((threads_mem atoms p.cols t.1 t.2).1 (hs.mem_iff.1 ht)).2
    have := rows_in atoms ha hr
    have hi := i.isLt
    have h2 : (start atoms t.1 + i.val) * p.cols + t.2 < p.rows * p.cols := by
      calc (start atoms t.1 + i.val) * p.cols + t.2 < (start atoms t.1 + i.val) * p.cols + p.cols := by omega
        _ = (start atoms t.1 + i.val + 1) * p.cols := by ring
        _ ≤ p.rows * p.cols := Nat.mul_le_mul_right _ (by omega)
    omega

/-- Physical input: positive temperatures, densities, abundances and statistical weights. -/
structure Physical : Prop where
  kB : 0 < kB
  dbc : 0 < dbc
  fmin : 0 < fmin
  atom : ∀ a ∈ atoms, 0 < a.abundance ∧ ∀ i, 0 < (a.lv i).g
  cell : ∀ ks, ks < p.cols → 0 < f.temperature ks ∧ 0 < f.ne ks ∧ 0 < f.nhTot ks

/-- **C83** In every cell the populations of every atom are then positive and add up to abundance times hydrogen density,
exceeding it by at most the smallest normal number per level. -/
theorem C83_total (hp : Physical kB dbc fmin atoms f p) (hr : HasRows atoms p) (sched : List (Nat × Nat)) (hs : sched.Perm (threads atoms p.cols)) :
    ∃ q, computeLtePops kB dbc fmin atoms f sched p = .ok q ∧
      ∀ ia a, atoms[ia]? = some a → ∀ ks, ks < p.cols → (∀ i, i < a.n + 1 → 0 < popOf atoms q ia i ks) ∧
        a.abundance * f.nhTot ks ≤ ∑ i ∈ Finset.range (a.n + 1), popOf atoms q ia i ks ∧
        ∑ i ∈ Finset.range (a.n + 1), popOf atoms q ia i ks ≤ a.abundance * f.nhTot ks + a.n * fmin := by
  obtain ⟨q, h1, _, _, h4, _⟩ := C83_lte kB dbc fmin atoms f p hr sched hs
  refine ⟨q, h1, fun ia a ha ks hk => ?_⟩
  have ha' := hp.atom a (List.mem_of_getElem? ha)
  have hc := hp.cell ks hk
  obtain ⟨t1, t2, t3⟩ := C27_total (lv := a.lv) (T := f.temperature ks) (ne := f.ne ks) (ntot := a.abundance * f.nhTot ks)
    ⟨hp.kB, hp.dbc, hp.fmin, ha'.2, hc.1, hc.2.1, mul_pos ha'.1 hc.2.2⟩
  rw [Finset.sum_range]
  simp only [h4 ia a ha _ ks hk]
  exact ⟨fun i hi => by rw [h4 ia a ha ⟨i, hi⟩ ks hk]; exact t1 _, t2, t3⟩

/-- **C83** ... and their ratios are those of Saha and Boltzmann, for atoms whose first level is in the lowest ionisation
stage and where no population is at the smallest normal number. -/
theorem C83_saha_boltzmann_partial (hp : Physical kB dbc fmin atoms f p) (hr : HasRows atoms p) (sched : List (Nat × Nat))
    (hs : sched.Perm (threads atoms p.cols)) : ∃ q, computeLtePops kB dbc fmin atoms f sched p = .ok q ∧
      ∀ ia a, atoms[ia]? = some a → (∀ i, (a.lv 0).stage ≤ (a.lv i).stage) → ∀ ks, ks < p.cols →
        (∀ i, i < a.n + 1 → i ≠ 0 → fmin < popOf atoms q ia i ks) →
        SahaBoltzmann a.lv (f.temperature ks * kB) (f.ne ks / 2 * (dbc / f.temperature ks) ^ (3 / 2 : ℝ)) (fun i => popOf atoms q ia i ks) := by
  obtain ⟨q, h1, _, _, h4, _⟩ := C83_lte kB dbc fmin atoms f p hr sched hs
  refine ⟨q, h1, fun ia a ha hz ks hk hc => ?_⟩
  have ha' := hp.atom a (List.mem_of_getElem? ha)
  have hc' := hp.cell ks hk
  simp only [h4 ia a ha _ ks hk]
  exact (C27_saha_boltzmann_partial (lv := a.lv) (T := f.temperature ks) (ne := f.ne ks) (ntot := a.abundance * f.nhTot ks)
    ⟨hp.kB, hp.dbc, hp.fmin, ha'.2, hc'.1, hc'.2.1, mul_pos ha'.1 hc'.2.2⟩ hz (fun i hi => by
      rw [← h4 ia a ha i ks hk]; exact hc i i.isLt (fun h => hi (Fin.ext h)))).1

variable (sahaConst ionE : ℝ)

/-- **C83** Neutral hydrogen, with a hydrogen model (the first atom, C33): the population of its ground level, in every
cell, whatever the order. -/
theorem C83_nh0_model (hrows : 0 < p.rows) (sched : List Nat) (hs : sched.Perm (List.range p.cols)) (m : Nat → ℝ) :
    ∃ m', computeNh0 sahaConst ionE true f p sched m = .ok m' ∧ ∀ ks, ks < p.cols → m' ks = popOf atoms p 0 0 ks := by
  obtain ⟨m', h1, h2, _⟩ := nh0_fold sahaConst ionE true f p (fun ks => p.mem ((0 + 0) * p.cols + ks))
    (fun ks hk => by
      unfold nh0Value
      rw [if_pos rfl, read_ok (sl := (0, p.rows)) (by simp) hrows hk])
    sched (fun k hk => List.mem_range.1 (hs.mem_iff.1 hk)) m
  refine ⟨m', h1, fun ks hk => ?_⟩
  rw [h2 ks (hs.mem_iff.2 (List.mem_range.2 hk))]
  unfold popOf
  simp

/-- **C83** Neutral hydrogen, without a hydrogen model: not negative, at most the hydrogen density, and in Saha
equilibrium with the rest. -/
theorem C83_nh0_lte (hsc : 0 ≤ sahaConst) (hc : ∀ ks, ks < p.cols → 0 < f.temperature ks ∧ 0 < f.ne ks ∧ 0 ≤ f.nhTot ks)
    (sched : List Nat) (hs : sched.Perm (List.range p.cols)) (m : Nat → ℝ) :
    ∃ m', computeNh0 sahaConst ionE false f p sched m = .ok m' ∧ ∀ ks, ks < p.cols → 0 ≤ m' ks ∧ m' ks ≤ f.nhTot ks ∧
      ∃ u, interp (some (Real.logb 10 (f.temperature ks))) (scaled logTData) (scaled partFnData) = .ok u ∧
        (f.nhTot ks - m' ks) * f.ne ks * u = m' ks * 2 * (sahaConst * f.temperature ks) ^ (3 / 2 : ℝ) * Real.exp (-ionE / f.temperature ks) := by
  have key : ∀ ks, ∃ v, ks < p.cols → nh0Value sahaConst ionE false f p ks = .ok v ∧ 0 ≤ v ∧ v ≤ f.nhTot ks ∧
      ∃ u, interp (some (Real.logb 10 (f.temperature ks))) (scaled logTData) (scaled partFnData) = .ok u ∧
        (f.nhTot ks - v) * f.ne ks * u = v * 2 * (sahaConst * f.temperature ks) ^ (3 / 2 : ℝ) * Real.exp (-ionE / f.temperature ks) := by
    intro ks
    by_cases hk : ks < p.cols
    · obtain ⟨a, b, u, h1, h2, h3, h4, h5, h6⟩ := C50_hydrogen sahaConst ionE _ _ _ hsc (hc ks hk).1 (hc ks hk).2.1 (hc ks hk).2.2
      refine ⟨a, fun _ => ⟨?_, h3, by linarith, u, h5, ?_⟩⟩
      · unfold nh0Value
        rw [if_neg (by simp), h1]; rfl
      · rw [← h6, ← h2]; ring
    · exact ⟨0, fun h => absurd h hk⟩
  choose v hv using key
  obtain ⟨m', h1, h2, _⟩ := nh0_fold sahaConst ionE false f p v (fun ks hk => (hv ks hk).1)
    sched (fun k hk => List.mem_range.1 (hs.mem_iff.1 hk)) m
  refine ⟨m', h1, fun ks hk => ?_⟩
  rw [h2 ks (hs.mem_iff.2 (List.mem_range.2 hk))]
  exact (hv ks hk).2

/-- **C83** After the LTE populations, neutral hydrogen from a hydrogen model is positive and at most the hydrogen of the
model. -/
theorem C83_nh0_after_lte (hp : Physical kB dbc fmin atoms f p) (hr : HasRows atoms p) (h : FieldAtom) (hh : atoms[0]? = some h)
    (sched : List (Nat × Nat)) (hs : sched.Perm (threads atoms p.cols)) (sched' : List Nat) (hs' : sched'.Perm (List.range p.cols)) (m : Nat → ℝ) :
    ∃ q m', computeLtePops kB dbc fmin atoms f sched p = .ok q ∧ computeNh0 sahaConst ionE true f q sched' m = .ok m' ∧
      ∀ ks, ks < p.cols → 0 < m' ks ∧ m' ks ≤ h.abundance * f.nhTot ks := by
  obtain ⟨q, h1, h2, h3, h4, _⟩ := C83_lte kB dbc fmin atoms f p hr sched hs
  have hpos : 0 < q.rows := by
    have := rows_in atoms hh hr; omega
  obtain ⟨m', g1, g2⟩ := C83_nh0_model atoms f q sahaConst ionE hpos sched' (by rw [h3]; exact hs') m
  refine ⟨q, m', h1, g1, fun ks hk => ?_⟩
  have ha' := hp.atom h (List.mem_of_getElem? hh)
  have hc := hp.cell ks hk
  have hS := sahaTerm_pos dbc (f.temperature ks) (f.ne ks) hp.dbc hc.1 hc.2.1
  have hntot := mul_pos ha'.1 hc.2.2
  have h40 : popOf atoms q 0 0 ks = _ := h4 0 h hh 0 ks hk
  rw [g2 ks (by rw [h3]; exact hk), h40]
  have e : ltePops kB dbc fmin h.lv (f.temperature ks) (f.ne ks) (h.abundance * f.nhTot ks) 0 =
      pop0 h.lv (f.temperature ks * kB) (sahaTerm dbc (f.temperature ks) (f.ne ks)) (h.abundance * f.nhTot ks) := by
    unfold ltePops; rw [if_pos rfl]
  rw [e]
  refine ⟨pop0_pos _ _ _ _ ha'.2 hS hntot, ?_⟩
  unfold pop0
  refine div_le_self hntot.le ?_
  have := Finset.sum_nonneg (s := Finset.univ) fun i (_ : i ∈ Finset.univ) => (relPop_pos h.lv (f.temperature ks * kB) _ ha'.2 hS (Fin.succ i)).le
  linarith

/-- Non-vacuity: two atoms, two cells, the threads in reverse order. -/
noncomputable def exAtoms : List FieldAtom := [⟨1, 1, ![⟨0, 2, 1⟩, ⟨13, 1, 2⟩]⟩, ⟨1 / 10, 0, ![⟨0, 1, 1⟩]⟩]
noncomputable def exAtmos : Atmos := ⟨fun _ => 5000, fun _ => 100, fun k => k + 1⟩
noncomputable def exPops : Pops := ⟨3, 2, fun _ => 7⟩

example : HasRows exAtoms exPops ∧ ((threads exAtoms 2).reverse).Perm (threads exAtoms exPops.cols) ∧
    Physical 1 1 1 exAtoms exAtmos exPops ∧ exAtoms[0]? = some ⟨1, 1, ![⟨0, 2, 1⟩, ⟨13, 1, 2⟩]⟩ := by
  refine ⟨rfl, List.reverse_perm _, ⟨by norm_num, by norm_num, by norm_num, ?_, ?_⟩, rfl⟩
  · intro a ha
    simp only [exAtoms, List.mem_cons, List.not_mem_nil, or_false] at ha
    rcases ha with rfl | rfl
    · refine ⟨by norm_num, fun i => ?_⟩
      fin_cases i <;> norm_num
    · refine ⟨by norm_num, fun i => ?_⟩
      fin_cases i; norm_num
  · intro ks _
    exact ⟨by norm_num [exAtmos], by norm_num [exAtmos], by simp only [exAtmos]; positivity⟩

end DexRT.PopsField
