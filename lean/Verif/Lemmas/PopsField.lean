import Verif.Spec.PopsField
import Verif.Lemmas.Lte
import Verif.Props.AtomicData
/-! Lemmas for C83. -/
namespace DexRT.PopsField
open DexRT DexRT.Lte DexRT.Atomic

/-- address of an element of a slice -/
def addr (p : Pops) (s i ks : Nat) : Nat := (s + i) * p.cols + ks

theorem addr_inj {c s i ks i' ks' s' : Nat} (hk : ks < c) (hk' : ks' < c) (h : (s + i) * c + ks = (s' + i') * c + ks') :
    s + i = s' + i' ∧ ks = ks' := by
  have h1 : ((s + i) * c + ks) / c = s + i := by
    rw [Nat.mul_comm, Nat.mul_add_div (by omega), Nat.div_eq_of_lt hk, Nat.add_zero]
  have h2 : ((s' + i') * c + ks') / c = s' + i' := by
    rw [Nat.mul_comm, Nat.mul_add_div (by omega), Nat.div_eq_of_lt hk', Nat.add_zero]
  have e : s + i = s' + i' := by rw [← h1, ← h2, h]
  refine ⟨e, ?_⟩
  rw [e] at h; omega

theorem sliceAddr_ok {p : Pops} {sl : Nat × Nat} {i ks : Nat} (hs : sl.1 + sl.2 ≤ p.rows) (hi : i < sl.2) (hk : ks < p.cols) :
    sliceAddr p sl i ks = .ok ((sl.1 + i) * p.cols + ks) := by
  unfold sliceAddr
  have h2 : (sl.1 + i) * p.cols + ks < p.rows * p.cols := by
    calc (sl.1 + i) * p.cols + ks < (sl.1 + i) * p.cols + p.cols := by omega
      _ = (sl.1 + i + 1) * p.cols := by ring
      _ ≤ p.rows * p.cols := Nat.mul_le_mul_right _ (by omega)
  rw [← Nat.add_mul, if_pos ⟨hi, hk, h2⟩]

/-- the array after one write -/
def upd (p : Pops) (a : Nat) (v : ℝ) : Pops := { p with mem := fun b => if b = a then v else p.mem b }

theorem write_ok {p : Pops} {sl : Nat × Nat} {i ks : Nat} (v : ℝ) (hs : sl.1 + sl.2 ≤ p.rows) (hi : i < sl.2) (hk : ks < p.cols) :
    writeSlice sl i ks v p = .ok (upd p ((sl.1 + i) * p.cols + ks) v) := by
  unfold writeSlice
  rw [sliceAddr_ok hs hi hk]; rfl

theorem read_ok {p : Pops} {sl : Nat × Nat} {i ks : Nat} (hs : sl.1 + sl.2 ≤ p.rows) (hi : i < sl.2) (hk : ks < p.cols) :
    readSlice sl i ks p = .ok (p.mem ((sl.1 + i) * p.cols + ks)) := by
  unfold readSlice
  rw [sliceAddr_ok hs hi hk]; rfl

/-- what a loop over some levels leaves: value `v i` for its levels, the rest as before -/
structure Wrote (p q : Pops) (s ks : Nat) (is : List Nat) (v : Nat → ℝ) : Prop where
  rows : q.rows = p.rows
  cols : q.cols = p.cols
  val : ∀ i ∈ is, q.mem ((s + i) * p.cols + ks) = v i
  rest : ∀ b, (∀ i ∈ is, b ≠ (s + i) * p.cols + ks) → q.mem b = p.mem b

theorem loopRel_ok (a : FieldAtom) (kbT saha : ℝ) (s ks : Nat) (is : List (Fin a.n)) (hn : is.Nodup) :
    ∀ (p : Pops) (x : ℝ), s + (a.n + 1) ≤ p.rows → ks < p.cols → ∃ q, is.foldlM (fun (st : Pops × ℝ) i => do
      let v := relPop a.lv kbT saha i.succ
      let q ← writeSlice (s, a.n + 1) (i.val + 1) ks v st.1
      (.ok (q, st.2 + v) : Outcome (Pops × ℝ))) (p, x) = .ok (q, x + (is.map fun i => relPop a.lv kbT saha i.succ).sum) ∧
      q.rows = p.rows ∧ q.cols = p.cols ∧ (∀ i ∈ is, q.mem ((s + (i.val + 1)) * p.cols + ks) = relPop a.lv kbT saha i.succ) ∧
      ∀ b, (∀ i ∈ is, b ≠ (s + (i.val + 1)) * p.cols + ks) → q.mem b = p.mem b := by
  induction is with
  | nil => intro p x _ _; exact ⟨p, by simp, rfl, rfl, by simp, fun _ _ => rfl⟩
  | cons i is ih =>
    intro p x hs hk
    have hni : i ∉ is := (List.nodup_cons.1 hn).1
    rw [List.foldlM_cons]
    have hw := write_ok (p := p) (sl := (s, a.n + 1)) (i := i.val + 1) (ks := ks) (relPop a.lv kbT saha i.succ) hs (by show _ < a.n + 1; omega) hk
    simp only [hw, Outcome.ok_bind]
    obtain ⟨q, h1, h2, h3, h4, h5⟩ := ih (List.nodup_cons.1 hn).2 (upd p ((s + (i.val + 1)) * p.cols + ks) (relPop a.lv kbT saha i.succ)) (x + relPop a.lv kbT saha i.succ) hs hk
    refine ⟨q, ?_, h2, h3, ?_, ?_⟩
    · rw [List.map_cons, List.sum_cons, ← add_assoc x]; exact h1
    · intro j hj
      rcases List.mem_cons.1 hj with rfl | hj
      · rw [h5 _ (fun k hk' e => hni (by
          have := (addr_inj hk hk e).1
          have : k = j := Fin.ext (by omega)
          exact this ▸ hk'))]
        show (if _ then _ else _) = _
        rw [if_pos rfl]
      · exact h4 j hj
    · intro b hb
      rw [h5 b (fun k hk' => hb k (List.mem_cons_of_mem _ hk'))]
      exact if_neg (hb i List.mem_cons_self)

theorem loopScale_ok (a : FieldAtom) (fmin pop0 : ℝ) (s ks : Nat) (is : List (Fin a.n)) (hn : is.Nodup) :
    ∀ (p : Pops), s + (a.n + 1) ≤ p.rows → ks < p.cols → ∃ q, loopScale a fmin pop0 (s, a.n + 1) ks is p = .ok q ∧
      q.rows = p.rows ∧ q.cols = p.cols ∧
      (∀ i ∈ is, q.mem ((s + (i.val + 1)) * p.cols + ks) = max (p.mem ((s + (i.val + 1)) * p.cols + ks) * pop0) fmin) ∧
      ∀ b, (∀ i ∈ is, b ≠ (s + (i.val + 1)) * p.cols + ks) → q.mem b = p.mem b := by
  induction is with
  | nil => intro p _ _; exact ⟨p, rfl, rfl, rfl, by simp, fun _ _ => rfl⟩
  | cons i is ih =>
    intro p hs hk
    have hni : i ∉ is := (List.nodup_cons.1 hn).1
    unfold loopScale
    rw [List.foldlM_cons]
    have hi : i.val + 1 < (s, a.n + 1).2 := by show _ < a.n + 1; omega
    rw [read_ok (sl := (s, a.n + 1)) hs hi hk, Outcome.ok_bind, write_ok (sl := (s, a.n + 1)) _ hs hi hk, Outcome.ok_bind]
    obtain ⟨q, h1, h2, h3, h4, h5⟩ := ih (List.nodup_cons.1 hn).2 (upd p ((s + (i.val + 1)) * p.cols + ks) (max (p.mem ((s + (i.val + 1)) * p.cols + ks) * pop0) fmin)) hs hk
    refine ⟨q, h1, h2, h3, ?_, ?_⟩
    · intro j hj
      rcases List.mem_cons.1 hj with rfl | hj
      · rw [h5 _ (fun k hk' e => hni (by
          have := (addr_inj hk hk e).1
          have : k = j := Fin.ext (by omega)
          exact this ▸ hk'))]
        show (if _ then _ else _) = _
        rw [if_pos rfl]
      · have := h4 j hj
        refine Eq.trans this ?_
        congr 2
        refine if_neg fun e => hni ?_
        have := (addr_inj hk hk e).1
        have : i = j := Fin.ext (by omega)
        exact this ▸ hj
    · intro b hb
      rw [h5 b (fun k hk' => hb k (List.mem_cons_of_mem _ hk'))]
      exact if_neg (hb i List.mem_cons_self)

theorem lteCell_ok (kB dbc fmin : ℝ) (a : FieldAtom) (s : Nat) (T ne ntot : ℝ) (ks : Nat) (p : Pops)
    (hs : s + (a.n + 1) ≤ p.rows) (hk : ks < p.cols) : ∃ q, lteCell kB dbc fmin a (s, a.n + 1) T ne ntot ks p = .ok q ∧
      q.rows = p.rows ∧ q.cols = p.cols ∧
      (∀ i : Fin (a.n + 1), q.mem ((s + i.val) * p.cols + ks) = ltePops kB dbc fmin a.lv T ne ntot i) ∧
      ∀ b, (∀ i : Fin (a.n + 1), b ≠ (s + i.val) * p.cols + ks) → q.mem b = p.mem b := by
  unfold lteCell
  obtain ⟨q, h1, h2, h3, h4, h5⟩ := loopRel_ok a (T * kB) (sahaTerm dbc T ne) s ks (List.finRange a.n) (List.nodup_finRange _) p 1 hs hk
  have h1' : loopRel a (T * kB) (sahaTerm dbc T ne) (s, a.n + 1) ks (List.finRange a.n) p = _ := h1
  rw [h1', Outcome.ok_bind]
  have hsum : (1 : ℝ) + ((List.finRange a.n).map fun i => relPop a.lv (T * kB) (sahaTerm dbc T ne) i.succ).sum =
      1 + ∑ i : Fin a.n, relPop a.lv (T * kB) (sahaTerm dbc T ne) i.succ := by
    rw [← List.ofFn_eq_map, List.sum_ofFn]
  have hp0 : ntot / (1 + ((List.finRange a.n).map fun i => relPop a.lv (T * kB) (sahaTerm dbc T ne) i.succ).sum) =
      pop0 a.lv (T * kB) (sahaTerm dbc T ne) ntot := by
    rw [hsum]; rfl
  simp only [hp0]
  have hs' : (s, a.n + 1).1 + (s, a.n + 1).2 ≤ q.rows := by rw [h2]; exact hs
  rw [write_ok (sl := (s, a.n + 1)) _ hs' (by show 0 < a.n + 1; omega) (by rw [h3]; exact hk), Outcome.ok_bind]
  obtain ⟨r, r1, r2, r3, r4, r5⟩ := loopScale_ok a fmin (pop0 a.lv (T * kB) (sahaTerm dbc T ne) ntot) s ks (List.finRange a.n)
    (List.nodup_finRange _) (upd q ((s + 0) * q.cols + ks) (pop0 a.lv (T * kB) (sahaTerm dbc T ne) ntot))
    hs' (by show ks < q.cols; rw [h3]; exact hk)
  refine ⟨r, r1, by rw [r2]; exact h2, by rw [r3]; exact h3, ?_, ?_⟩
  · intro i
    refine Fin.cases ?_ (fun j => ?_) i
    · have := r5 ((s + 0) * p.cols + ks) (fun k _ e => by
        rw [show (upd q ((s + 0) * q.cols + ks) (pop0 a.lv (T * kB) (sahaTerm dbc T ne) ntot)).cols = p.cols from h3] at e
        have := (addr_inj hk hk e).1; omega)
      show r.mem ((s + 0) * p.cols + ks) = _
      rw [this]
      unfold ltePops
      rw [if_pos rfl]
      show (if _ then _ else _) = _
      rw [if_pos (by rw [h3])]
    · have := r4 j (List.mem_finRange j)
      dsimp only [upd] at this
      rw [h3] at this
      show r.mem ((s + (j.val + 1)) * p.cols + ks) = _
      rw [this, if_neg (fun e => by have := (addr_inj hk hk e).1; omega), h4 j (List.mem_finRange j)]
      unfold ltePops
      rw [if_neg (Fin.succ_ne_zero j)]
  · intro b hb
    rw [r5 b (fun k _ => by
      rw [show (upd q ((s + 0) * q.cols + ks) (pop0 a.lv (T * kB) (sahaTerm dbc T ne) ntot)).cols = p.cols from h3]; exact hb k.succ)]
    show (if _ then _ else _) = _
    rw [if_neg (by rw [h3]; exact hb 0)]
    exact h5 b (fun k _ => hb k.succ)

theorem sum_take_le (l : List Nat) (i : Nat) (h : i < l.length) : (l.take i).sum + l[i] ≤ l.sum := by
  induction l generalizing i with
  | nil => simp at h
  | cons a l ih =>
    cases i with
    | zero => simp
    | succ i =>
      simp only [List.take_succ_cons, List.sum_cons, List.getElem_cons_succ]
      have := ih i (by simpa using h)
      omega

theorem sum_take_mono (l : List Nat) {i j : Nat} (hij : i < j) (h : j ≤ l.length) :
    (l.take i).sum + l[i] ≤ (l.take j).sum := by
  have h1 := sum_take_le (l.take j) i (by rw [List.length_take]; omega)
  rw [List.take_take, min_eq_left (by omega)] at h1
  simpa using h1

/-- start of the rows of atom `ia` -/
def start (atoms : List FieldAtom) (ia : Nat) : Nat := ((atoms.take ia).map fun a => a.n + 1).sum

theorem start_eq (atoms : List FieldAtom) (ia : Nat) : start atoms ia = ((numLevels atoms).take ia).sum := by
  unfold start numLevels; rw [List.map_take]

theorem rows_disjoint (atoms : List FieldAtom) {ia ja : Nat} {a b : FieldAtom} (ha : atoms[ia]? = some a) (hb : atoms[ja]? = some b)
    {i j : Nat} (hi : i < a.n + 1) (hj : j < b.n + 1) (h : start atoms ia + i = start atoms ja + j) : ia = ja ∧ i = j := by
  obtain ⟨la, ea⟩ := List.getElem?_eq_some_iff.1 ha
  obtain ⟨lb, eb⟩ := List.getElem?_eq_some_iff.1 hb
  rw [start_eq, start_eq] at h
  have ca : (numLevels atoms)[ia]'(by unfold numLevels; simpa using la) = a.n + 1 := by simp [numLevels, ea]
  have cb : (numLevels atoms)[ja]'(by unfold numLevels; simpa using lb) = b.n + 1 := by simp [numLevels, eb]
  have hl : (numLevels atoms).length = atoms.length := by simp [numLevels]
  rcases Nat.lt_trichotomy ia ja with g | g | g
  · have := sum_take_mono (numLevels atoms) g (by omega); omega
  · subst g; exact ⟨rfl, by omega⟩
  · have := sum_take_mono (numLevels atoms) g (by omega); omega

theorem rows_in (atoms : List FieldAtom) {ia : Nat} {a : FieldAtom} (ha : atoms[ia]? = some a) {p : Pops} (hr : HasRows atoms p) :
    start atoms ia + (a.n + 1) ≤ p.rows := by
  obtain ⟨la, ea⟩ := List.getElem?_eq_some_iff.1 ha
  have ca : (numLevels atoms)[ia]'(by unfold numLevels; simpa using la) = a.n + 1 := by simp [numLevels, ea]
  have := sum_take_le (numLevels atoms) ia (by unfold numLevels; simpa using la)
  rw [start_eq, hr]
  unfold numLevels at *
  omega

theorem lte_fold (kB dbc fmin : ℝ) (atoms : List FieldAtom) (f : Atmos) (sched : List (Nat × Nat)) (hn : sched.Nodup) :
    ∀ (p : Pops), HasRows atoms p → (∀ t ∈ sched, t.1 < atoms.length ∧ t.2 < p.cols) →
      ∃ q, computeLtePops kB dbc fmin atoms f sched p = .ok q ∧ q.rows = p.rows ∧ q.cols = p.cols ∧
        (∀ t ∈ sched, ∀ a, atoms[t.1]? = some a → ∀ i : Fin (a.n + 1), q.mem ((start atoms t.1 + i.val) * p.cols + t.2) =
          ltePops kB dbc fmin a.lv (f.temperature t.2) (f.ne t.2) (a.abundance * f.nhTot t.2) i) ∧
        ∀ b, (∀ t ∈ sched, ∀ a, atoms[t.1]? = some a → ∀ i : Fin (a.n + 1), b ≠ (start atoms t.1 + i.val) * p.cols + t.2) →
          q.mem b = p.mem b := by
  induction sched with
  | nil => intro p _ _; exact ⟨p, rfl, rfl, rfl, by simp, fun _ _ => rfl⟩
  | cons t ts ih =>
    intro p hr hv
    obtain ⟨h1, h2⟩ := hv t List.mem_cons_self
    have ha := List.getElem?_eq_getElem h1
    obtain ⟨a, ea⟩ : ∃ a, atoms[t.1]? = some a := ⟨_, ha⟩
    have hsl : (ranges (numLevels atoms)).1[t.1]? = some (start atoms t.1, a.n + 1) := by
      obtain ⟨la, e⟩ := List.getElem?_eq_some_iff.1 ea
      rw [(C33_ranges (numLevels atoms)).2.2 t.1 (by unfold numLevels; simpa using la), ← start_eq]
      simp [numLevels, e]
    obtain ⟨q, q1, q2, q3, q4, q5⟩ := lteCell_ok kB dbc fmin a (start atoms t.1) (f.temperature t.2) (f.ne t.2)
      (a.abundance * f.nhTot t.2) t.2 p (rows_in atoms ea hr) h2
    obtain ⟨r, r1, r2, r3, r4, r5⟩ := ih (List.nodup_cons.1 hn).2 q (by unfold HasRows; rw [q2]; exact hr)
      (fun u hu => by rw [q3]; exact hv u (List.mem_cons_of_mem _ hu))
    refine ⟨r, ?_, r2.trans q2, r3.trans q3, ?_, ?_⟩
    · unfold computeLtePops
      rw [List.foldlM_cons]
      have e1 : readAt atoms t.1 = .ok a := by unfold readAt; rw [ea]
      have e2 : readAt (ranges (numLevels atoms)).1 t.1 = .ok (start atoms t.1, a.n + 1) := by unfold readAt; rw [hsl]
      simp only [e1, e2, q1, Outcome.ok_bind]
      exact r1
    · intro u hu b hb i
      rw [q3] at r4 r5
      rcases List.mem_cons.1 hu with rfl | hu
      · obtain rfl : a = b := Option.some.inj (ea.symm.trans hb)
        rw [r5 _ (fun v hv' c hc j e => ?_), q4 i]
        obtain ⟨e1, e2⟩ := addr_inj h2 (hv v (List.mem_cons_of_mem _ hv')).2 e
        have := (rows_disjoint atoms ea hc i.isLt j.isLt e1).1
        exact (List.nodup_cons.1 hn).1 ((Prod.ext this e2 : u = v) ▸ hv')
      · exact r4 u hu b hb i
    · intro b hb
      rw [r5 b (fun u hu c hc j => by rw [q3]; exact hb u (List.mem_cons_of_mem _ hu) c hc j)]
      exact q5 b (fun i => hb t List.mem_cons_self a ea i)

theorem threads_mem (atoms : List FieldAtom) (N ia ks : Nat) : (ia, ks) ∈ threads atoms N ↔ ia < atoms.length ∧ ks < N := by
  unfold threads
  simp [List.mem_flatMap]

theorem threads_nodup (atoms : List FieldAtom) (N : Nat) : (threads atoms N).Nodup := by
  unfold threads
  refine List.nodup_flatMap.2 ⟨fun ia _ => List.Nodup.map (fun a b h => (Prod.mk.inj h).2) List.nodup_range, ?_⟩
  refine List.nodup_range.imp fun {a b} hab => ?_
  intro x hx hy
  obtain ⟨_, _, rfl⟩ := List.mem_map.1 hx
  obtain ⟨_, _, e⟩ := List.mem_map.1 hy
  exact hab (Prod.mk.inj e).1.symm

theorem nh0_fold (sahaConst ionE : ℝ) (haveH : Bool) (f : Atmos) (p : Pops) (v : Nat → ℝ)
    (hv : ∀ ks, ks < p.cols → nh0Value sahaConst ionE haveH f p ks = .ok (v ks)) (sched : List Nat) (hs : ∀ k ∈ sched, k < p.cols) :
    ∀ m, ∃ m', computeNh0 sahaConst ionE haveH f p sched m = .ok m' ∧ (∀ k ∈ sched, m' k = v k) ∧ ∀ k, k ∉ sched → m' k = m k := by
  induction sched with
  | nil => intro m; exact ⟨m, rfl, by simp, fun _ _ => rfl⟩
  | cons k ks ih =>
    intro m
    have hk := hs k List.mem_cons_self
    obtain ⟨m', h1, h2, h3⟩ := ih (fun k hk => hs k (List.mem_cons_of_mem _ hk)) (fun k' => if k' = k then v k else m k')
    refine ⟨m', ?_, ?_, ?_⟩
    · unfold computeNh0
      rw [List.foldlM_cons]
      simp only [hv k hk, Outcome.ok_bind, if_pos hk]
      exact h1
    · intro j hj
      by_cases hj' : j ∈ ks
      · exact h2 j hj'
      · rcases List.mem_cons.1 hj with rfl | hj
        · rw [h3 j hj', if_pos rfl]
        · exact absurd hj hj'
    · intro j hj
      rw [h3 j (fun h => hj (List.mem_cons_of_mem _ h)), if_neg (fun h : j = k => hj (h ▸ List.mem_cons_self))]

end DexRT.PopsField
