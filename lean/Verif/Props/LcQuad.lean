import Verif.Lemmas.LcQuad
import Verif.Lemmas.SphereMean
import Verif.Props.LongChar
/-!
**C98** The quadratures of the long-characteristics mode, all four that can be selected.
-/
namespace DexRT.LcQuad
open DexRT DexRT.Fs DexRT.LongChar

theorem node_of (q : Fin 4) (t : Nat) (ht : t < num q) : ∃ n ∈ table q, dir q t = n.d ∧ weight q t = n.wt := by
  have h : t < (table q).length := by rw [length_table]; exact ht
  refine ⟨(table q)[t], List.getElem_mem h, ?_, ?_⟩
  · unfold dir Node.d
    rw [List.getD_eq_getElem?_getD, List.getElem?_eq_getElem h]; rfl
  · unfold weight Node.wt
    rw [List.getD_eq_getElem?_getD, List.getElem?_eq_getElem h]; rfl

/-- **C98** Every weight is positive, every direction has length 1 within 1e-8, and no component is larger than 1: these are the
rays `C97_marked` is about. -/
theorem C98_nodes (q : Fin 4) (t : Nat) (ht : t < num q) :
    0 < weight q t ∧ |dir q t 0 ^ 2 + dir q t 1 ^ 2 + dir q t 2 ^ 2 - 1| ≤ 1 / 10 ^ 8 ∧ ∀ i, |dir q t i| ≤ 1 := by
  obtain ⟨n, hn, e1, e2⟩ := node_of q t ht
  rw [e1, e2]
  refine ⟨?_, ?_, fun i => ?_⟩
  · have : (0 : ℝ) < n.w := by exact_mod_cast node_pos q n hn
    unfold Node.wt; positivity
  · have h := node_unit q n hn
    have h' : |(n.x : ℝ) * n.x + n.y * n.y + n.z * n.z - 10 ^ 16| ≤ 10 ^ 8 := by exact_mod_cast h
    have : n.d 0 ^ 2 + n.d 1 ^ 2 + n.d 2 ^ 2 - 1 = ((n.x : ℝ) * n.x + n.y * n.y + n.z * n.z - 10 ^ 16) / 10 ^ 16 := by
      show ((n.x : ℝ) / 10 ^ 8) ^ 2 + ((n.y : ℝ) / 10 ^ 8) ^ 2 + ((n.z : ℝ) / 10 ^ 8) ^ 2 - 1 = _
      ring
    rw [this, abs_div, abs_of_pos (by positivity : (0 : ℝ) < 10 ^ 16), div_le_div_iff₀ (by positivity) (by positivity)]
    nlinarith
  · have h : |(n.c i : ℝ)| ≤ 10 ^ 8 := by exact_mod_cast node_le q n hn i
    unfold Node.d
    rw [abs_div, abs_of_pos (by positivity : (0 : ℝ) < 10 ^ 8), div_le_one (by positivity)]
    exact h

theorem sum_weight (q : Fin 4) : ((List.range (num q)).map (weight q)).sum = (m0 (table q) : ℝ) / 10 ^ 10 := by
  have h := quad_eq q (cubic 1 0 0 0)
  rw [moments] at h
  simp only [Pi.zero_apply, zero_mul, Finset.sum_const_zero, add_zero, one_mul] at h
  rw [← h]
  unfold quad cubic
  simp

/-- **C98** The weights sum to 1 within 2e-8; to at most 1 in all sets but that of 24 directions. -/
theorem C98_weights (q : Fin 4) : |((List.range (num q)).map (weight q)).sum - 1| ≤ 2 / 10 ^ 8 ∧
    (q ≠ 1 → ((List.range (num q)).map (weight q)).sum ≤ 1) := by
  rw [sum_weight]
  constructor
  · have h : |(m0 (table q) : ℝ) - 10 ^ 10| ≤ 200 := by exact_mod_cast m0_near q
    rw [show (m0 (table q) : ℝ) / 10 ^ 10 - 1 = ((m0 (table q) : ℝ) - 10 ^ 10) / 10 ^ 10 by ring, abs_div,
      abs_of_pos (by positivity : (0 : ℝ) < 10 ^ 10), div_le_div_iff₀ (by positivity) (by positivity)]
    nlinarith
  · intro hq
    have h : (m0 (table q) : ℝ) ≤ 10 ^ 10 := by exact_mod_cast m0_le q hq
    rw [div_le_one (by positivity)]; exact h

/-- **C98** For every radiation field that is a polynomial of degree at most three in the direction, the quadrature gives its mean
over the sphere, up to the eight digits of the tables; the odd terms and the mixed products drop out exactly. -/
theorem C98_cubic (q : Fin 4) (a : ℝ) (b : Fin 3 → ℝ) (M : Fin 3 → Fin 3 → ℝ) (T : Fin 3 → Fin 3 → Fin 3 → ℝ) :
    |quad q (cubic a b M T) - sphereMean a M| ≤ 3 / 10 ^ 8 * (|a| + |M 0 0| + |M 1 1| + |M 2 2|) := by
  have h0 : |(m0 (table q) : ℝ) / 10 ^ 10 - 1| ≤ 3 / 10 ^ 8 := by
    have := (C98_weights q).1
    rw [sum_weight] at this
    exact this.trans (by norm_num)
  have h2 : ∀ i, |(m2 (table q) i i : ℝ) / 10 ^ 26 - 1 / 3| ≤ 3 / 10 ^ 8 := by
    intro i
    have h : |3 * (m2 (table q) i i : ℝ) - 10 ^ 26| ≤ 9 * 10 ^ 18 := by exact_mod_cast m2_near q i
    rw [show (m2 (table q) i i : ℝ) / 10 ^ 26 - 1 / 3 = (3 * (m2 (table q) i i : ℝ) - 10 ^ 26) / (3 * 10 ^ 26) by ring, abs_div,
      abs_of_pos (by positivity : (0 : ℝ) < 3 * 10 ^ 26), div_le_div_iff₀ (by positivity) (by positivity)]
    nlinarith
  rw [quad_eq, moments]
  simp only [m1_zero, m3_zero, Int.cast_zero, zero_div, mul_zero, Finset.sum_const_zero, add_zero, Fin.sum_univ_three,
    m2_zero q 0 1 (by decide), m2_zero q 0 2 (by decide), m2_zero q 1 0 (by decide), m2_zero q 1 2 (by decide),
    m2_zero q 2 0 (by decide), m2_zero q 2 1 (by decide), zero_add]
  unfold sphereMean
  have e : a * ((m0 (table q) : ℝ) / 10 ^ 10) + (M 0 0 * ((m2 (table q) 0 0 : ℝ) / 10 ^ 26) + M 1 1 * ((m2 (table q) 1 1 : ℝ) / 10 ^ 26) +
      M 2 2 * ((m2 (table q) 2 2 : ℝ) / 10 ^ 26)) - (a + (M 0 0 + M 1 1 + M 2 2) / 3) =
      a * ((m0 (table q) : ℝ) / 10 ^ 10 - 1) + M 0 0 * ((m2 (table q) 0 0 : ℝ) / 10 ^ 26 - 1 / 3) +
      M 1 1 * ((m2 (table q) 1 1 : ℝ) / 10 ^ 26 - 1 / 3) + M 2 2 * ((m2 (table q) 2 2 : ℝ) / 10 ^ 26 - 1 / 3) := by ring
  rw [e]
  have hm : ∀ u v : ℝ, |v| ≤ 3 / 10 ^ 8 → |u * v| ≤ 3 / 10 ^ 8 * |u| := by
    intro u v hv
    rw [abs_mul, mul_comm]
    exact mul_le_mul_of_nonneg_right hv (abs_nonneg u)
  have t1 := hm a _ h0
  have t2 := hm (M 0 0) _ (h2 0)
  have t3 := hm (M 1 1) _ (h2 1)
  have t4 := hm (M 2 2) _ (h2 2)
  refine (abs_add_le _ _).trans ?_
  refine (add_le_add_left (abs_add_le _ _) _).trans ?_
  refine (add_le_add_left (add_le_add_left (abs_add_le _ _) _) _).trans ?_
  linarith

/-- **C98** `sphereMean` is the mean over the sphere. -/
theorem C98_sphere (a : ℝ) (b : Fin 3 → ℝ) (M : Fin 3 → Fin 3 → ℝ) (T : Fin 3 → Fin 3 → Fin 3 → ℝ) :
    sphereAvg (cubic a b M T) = sphereMean a M := sphere_cubic a b M T

/-- **C98** So the quadrature of every polynomial field of degree at most three is its integral over the sphere divided by the area. -/
theorem C98_exact (q : Fin 4) (a : ℝ) (b : Fin 3 → ℝ) (M : Fin 3 → Fin 3 → ℝ) (T : Fin 3 → Fin 3 → Fin 3 → ℝ) :
    |quad q (cubic a b M T) - sphereAvg (cubic a b M T)| ≤ 3 / 10 ^ 8 * (|a| + |M 0 0| + |M 1 1| + |M 2 2|) := by
  rw [C98_sphere]; exact C98_cubic q a b M T

theorem table_mirror : ∀ q, ∀ n ∈ table q, (⟨-n.x, n.y, n.z, n.w⟩ : Node) ∈ table q ∧ (⟨n.x, -n.y, n.z, n.w⟩ : Node) ∈ table q ∧
    (⟨n.x, n.y, -n.z, n.w⟩ : Node) ∈ table q ∧ (⟨n.y, n.x, n.z, n.w⟩ : Node) ∈ table q := by decide +kernel

theorem table_nodup : ∀ q, ((table q).map fun n => (n.x, n.y, n.z)).Nodup := by decide +kernel

theorem of_node (q : Fin 4) (n : Node) (hn : n ∈ table q) : ∃ t < num q, dir q t = n.d ∧ weight q t = n.wt := by
  obtain ⟨t, ht, e⟩ := List.getElem_of_mem hn
  refine ⟨t, by rw [← length_table]; exact ht, ?_, ?_⟩
  · unfold dir Node.d
    rw [List.getD_eq_getElem?_getD, List.getElem?_eq_getElem ht, e]; rfl
  · unfold weight Node.wt
    rw [List.getD_eq_getElem?_getD, List.getElem?_eq_getElem ht, e]; rfl

/-- **C98** The quadrature does not prefer a side: with a direction, its mirror image in each coordinate plane is one of the set and
has the same weight. -/
theorem C98_mirror (q : Fin 4) (t : Nat) (ht : t < num q) (i : Fin 3) : ∃ t' < num q, weight q t' = weight q t ∧
    dir q t' i = -dir q t i ∧ ∀ j, j ≠ i → dir q t' j = dir q t j := by
  obtain ⟨n, hn, e1, e2⟩ := node_of q t ht
  obtain ⟨h0, h1, h2, -⟩ := table_mirror q n hn
  have key : ∀ n' : Node, n' ∈ table q → n'.w = n.w → n'.c i = -n.c i → (∀ j, j ≠ i → n'.c j = n.c j) →
      ∃ t' < num q, weight q t' = weight q t ∧ dir q t' i = -dir q t i ∧ ∀ j, j ≠ i → dir q t' j = dir q t j := by
    intro n' hn' hw hi hj
    obtain ⟨t', a, b, c⟩ := of_node q n' hn'
    refine ⟨t', a, ?_, ?_, fun j hji => ?_⟩
    · rw [c, e2]; unfold Node.wt; rw [hw]
    · rw [b, e1]; unfold Node.d; rw [hi]; push_cast; ring
    · rw [b, e1]; unfold Node.d; rw [hj j hji]
  fin_cases i
  · exact key _ h0 rfl rfl fun j hj => by fin_cases j <;> first | exact absurd rfl hj | rfl
  · exact key _ h1 rfl rfl fun j hj => by fin_cases j <;> first | exact absurd rfl hj | rfl
  · exact key _ h2 rfl rfl fun j hj => by fin_cases j <;> first | exact absurd rfl hj | rfl

/-- **C98** No direction is listed twice. -/
theorem C98_distinct (q : Fin 4) (t t' : Nat) (ht : t < num q) (ht' : t' < num q) (h : dir q t = dir q t') : t = t' := by
  have l : t < (table q).length := by rw [length_table]; exact ht
  have l' : t' < (table q).length := by rw [length_table]; exact ht'
  have hc : ∀ i, ((table q)[t]).c i = ((table q)[t']).c i := by
    intro i
    have := congrFun h i
    unfold dir at this
    rw [List.getD_eq_getElem?_getD, List.getElem?_eq_getElem l, List.getD_eq_getElem?_getD, List.getElem?_eq_getElem l'] at this
    have h' := (div_left_inj' (by positivity : (10 : ℝ) ^ 8 ≠ 0)).1 this
    exact_mod_cast h'
  have := (List.Nodup.getElem_inj_iff (table_nodup q) (i := t) (j := t') (hi := by simpa using l) (hj := by simpa using l')).1 (by
    rw [List.getElem_map, List.getElem_map]
    exact Prod.ext (hc 0) (Prod.ext (hc 1) (hc 2)))
  exact this

/-- **C98** A field between 0 and `hi` gives a mean between 0 and `hi`, up to 2e-8. -/
theorem C98_between (q : Fin 4) (f : (Fin 3 → ℝ) → ℝ) (hi : ℝ) (hf : ∀ t < num q, 0 ≤ f (dir q t) ∧ f (dir q t) ≤ hi) :
    0 ≤ quad q f ∧ quad q f ≤ (1 + 2 / 10 ^ 8) * hi := by
  have key : ∀ l : List Nat, (∀ t ∈ l, t < num q) → 0 ≤ (l.map fun t => weight q t * f (dir q t)).sum ∧
      (l.map fun t => weight q t * f (dir q t)).sum ≤ (l.map (weight q)).sum * hi := by
    intro l
    induction l with
    | nil => intro _; simp
    | cons t l ih =>
      intro hl
      obtain ⟨i1, i2⟩ := ih fun t' ht' => hl t' (List.mem_cons_of_mem _ ht')
      have h1 := (C98_nodes q t (hl t List.mem_cons_self)).1
      obtain ⟨h2, h3⟩ := hf t (hl t List.mem_cons_self)
      simp only [List.map_cons, List.sum_cons]
      constructor
      · positivity
      · nlinarith [mul_le_mul_of_nonneg_left h3 h1.le]
  obtain ⟨k1, k2⟩ := key (List.range (num q)) fun t ht => List.mem_range.1 ht
  refine ⟨k1, k2.trans ?_⟩
  have h0 : 0 < num q := by fin_cases q <;> decide
  have hhi : 0 ≤ hi := (hf 0 h0).1.trans (hf 0 h0).2
  refine mul_le_mul_of_nonneg_right ?_ hhi
  have := (abs_le.1 (C98_weights q).1).2
  linarith

/-- **C98** What the loop over the directions adds to J at a probe, where a buffer of zeros was allocated (see C97), is the quadrature
of the radiation field there. -/
theorem C98_J_partial (q : Fin 4) (c : RcCfg3) (s : Casc3) (b0 : List ℝ) (h : Sized s b0) (hz : ∀ x ∈ b0, x = 0)
    (f : Coord3 → (Fin 3 → ℝ) → ℝ) (la : Nat) (rc : Nat → List Nat) (j : Nat → List JIter3)
    (hrc : ∀ t, (rc t).Perm (List.range (s.np0 * s.np1 * s.np2)))
    (hj : ∀ t, (j t).Perm (jIters3 (s.np0 * s.np1 * s.np2) s.polar s.az)) (m : Mem ℝ)
    (hm : m.bufs[0]? = some b0) (J : Arr2 ℝ) (hr : la < J.rows) (hc : s.np0 * s.np1 * s.np2 ≤ J.cols) :
    ∃ m' J', directions c s (fun t x => f x (dir q t)) (weight q) la rc j (List.range (num q)) m J = .ok (m', J') ∧
      ∀ k, k < s.np0 * s.np1 * s.np2 → J'.get la k = J.get la k + quad q (f (probeAt s k)) :=
  C97_zeroed_partial c s b0 h hz _ _ la rc j hrc hj _ m hm J hr hc

/-- Non-vacuity: one probe, the default set. -/
example (c : RcCfg3) : ∃ (m m' : Mem ℝ) (J J' : Arr2 ℝ),
    directions c exCasc (fun t _ => cubic 1 0 0 0 (dir 3 t)) (weight 3) 0 (fun _ => List.range 1) (fun _ => jIters3 1 1 12)
      (List.range (num 3)) m J = .ok (m', J') ∧ |J'.get 0 0 - 1| ≤ 3 / 10 ^ 8 := by
  obtain ⟨m', J', e1, e2⟩ := C98_J_partial 3 c exCasc _ (exSized 0) (fun x hx => List.eq_of_mem_replicate hx)
    (fun _ => cubic 1 0 0 0) 0 (fun _ => List.range 1) (fun _ => jIters3 1 1 12) (fun _ => List.Perm.refl _)
    (fun _ => List.Perm.refl _) ⟨[List.replicate 12 0], none⟩ rfl ⟨1, 1, fun _ _ => 0⟩ (by decide) (by decide)
  refine ⟨_, m', _, J', e1, ?_⟩
  rw [e2 0 (by decide)]
  have := C98_cubic 3 1 0 0 0
  simp only [sphereMean, Pi.zero_apply, abs_zero, add_zero, zero_div, abs_one, mul_one] at this
  simpa using this

end DexRT.LcQuad
