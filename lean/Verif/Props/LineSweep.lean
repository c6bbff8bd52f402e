import Verif.Lemmas.LineSet
import Verif.Model.Dirs
import Mathlib.Analysis.Real.Pi.Bounds
/-!
C85: line sweeping. One direction of a cascade is solved along parallel lines one step apart; what probes get is interpolated
between two lines and two samples of each. Specification: Spec/LineSweep.lean.
-/
namespace DexRT.LineSweep
open DexRT
open DexRT.VelInterp (truncInt)

variable {b : Box} {d : Fin 2 → ℝ} {step : ℝ}

/-- The search for lines ends. The lines are one step apart; exactly the lines of the family through the corner that have at
least half a step inside the box are there. Each knows where it enters and leaves the box, has a sample at most half a step
after the entry, then one every step, and as many as fit. -/
theorem C85_lines (G : Geometry b d step) : ∃ ls, IsSet b d step ls ∧ ls.lines ≠ [] ∧ ls.d = d ∧ ls.step = step ∧
    (∀ i (h : i < ls.lines.length) (h0 : 0 < ls.lines.length), ls.lines[i].o = shifted (ls.lines[0]).o ls.axis step i) ∧
    (∀ l ∈ ls.lines, (∀ t, (l.t0 ≤ t ∧ t ≤ l.t1) ↔ 0 ≤ t ∧ InBox b (along l.o d t)) ∧ step / 2 ≤ l.t1 - l.t0 ∧
      1 ≤ l.num ∧ l.t0 ≤ l.first ∧ l.first ≤ l.t0 + step / 2 ∧ l.first + (l.num - 1) * step ≤ l.t1 ∧ l.t1 < l.first + l.num * step) ∧
    (∀ (k : ℤ) (u v : ℝ), 0 ≤ u → step / 2 ≤ v - u → (∀ t, u ≤ t → t ≤ v → InBox b (along (shifted ls.origin ls.axis step k) d t)) →
      ∃ l ∈ ls.lines, l.o = shifted ls.origin ls.axis step k) := by
  obtain ⟨ls, hls⟩ := exists_set G
  obtain ⟨n, a, ha, hk, rfl⟩ := set_form G ls hls
  have hs := G.two
  have hok : ∀ i : ℕ, i < n → LineOk b d step ((i : ℤ) - a) (famLine b d step ((i : ℤ) - a)) := fun i hi => famLine_ok G _ ((hk _).2 (by omega))
  refine ⟨_, hls, ?_, rfl, rfl, ?_, ?_, ?_⟩
  · simp; omega
  · intro i h h0
    have hi : i < n := by simpa using h
    simp only [List.getElem_map, List.getElem_range]
    rw [(hok i hi).o_eq, (hok 0 (by omega)).o_eq]
    funext j
    unfold shifted
    split
    · push_cast; ring
    · rfl
  · intro l hl
    obtain ⟨i, hi, rfl⟩ := List.mem_map.1 hl
    have K := hok i (List.mem_range.1 hi)
    exact ⟨K.inside, K.long, K.num_pos, K.first_lo, K.first_hi, K.last_in, K.last_out⟩
  · intro k u v hu huv hin
    simp only at hin ⊢
    have c1 : step / 2 ≤ chord b d step k := by
      have e := on_iff G (shifted (lineOrigin d b) (primaryAxis d) step k) (fun t => ext_bound G k t)
      have m1 := (e u).2 ⟨hu, hin u (le_refl _) (by linarith)⟩
      have m2 := (e v).2 ⟨by linarith, hin v (by linarith) (le_refl _)⟩
      unfold chord
      linarith [m1.1, m2.2]
    obtain ⟨k1, k2⟩ := (hk k).1 c1
    obtain ⟨i, hi⟩ : ∃ i : ℕ, (i : ℤ) = k + a := ⟨_, Int.toNat_of_nonneg (by omega)⟩
    refine ⟨famLine b d step ((i : ℤ) - a), List.mem_map.2 ⟨i, List.mem_range.2 (by omega), rfl⟩, ?_⟩
    rw [(hok i (by omega)).o_eq]
    congr 1; omega

/-- A box and a direction that meet the hypotheses. -/
theorem geo_example : Geometry ⟨fun _ => 0, fun _ => 64⟩ ![(3 / 5 : ℝ), 4 / 5] 4 := by
  refine ⟨by norm_num, ?_, by intro i; norm_num, by intro i; norm_num, by norm_num⟩
  intro i; fin_cases i <;> norm_num

/-- The samples of the lines are stored one line after the other without overlap: line `l` starts after all samples of the
lines before it. -/
theorem C85_storage (sets : List (List ℤ)) (hs : ∀ s ∈ sets, s ≠ []) (hne : sets ≠ []) :
    (storageStart sets).1.length = sets.flatten.length ∧ (storageStart sets).2.length = sets.length ∧
    (∀ l (h : l < (storageStart sets).1.length), (storageStart sets).1[l] = (sets.flatten.take l).sum) ∧
    (∀ k (h : k < (storageStart sets).2.length), (storageStart sets).2[k] = ((sets.take k).flatten.length : ℤ)) := by
  obtain ⟨e1, e2⟩ := storageStart_eq sets hs hne
  refine ⟨by rw [e1]; simp, by rw [e2]; simp, ?_, ?_⟩
  · intro l h; simp only [e1, List.getElem_map, List.getElem_range]; rfl
  · intro k h; simp only [e2, List.getElem_map, List.getElem_range]

example : storageStart [[3, 1], [2, 2, 5]] = ([0, 3, 4, 6, 8], [0, 2]) := by decide

/-- Every flat index of the march is one sample of one line of one direction: index `x` is sample `s` of line `l` of
direction `k`. -/
theorem C85_lookup (sets : List (List ℤ)) (hs : ∀ s ∈ sets, s ≠ []) (hn : ∀ s ∈ sets, ∀ m ∈ s, (1 : ℤ) ≤ m) (x : ℤ) (h0 : 0 ≤ x)
    (h1 : x < sets.flatten.sum) : ∃ (l k : ℕ) (s : ℤ) (hl : l < sets.flatten.length),
      lookup (storageStart sets).1 (storageStart sets).2 x = .ok (l, k, s) ∧ k < sets.length ∧
      0 ≤ s ∧ s < sets.flatten[l] ∧ x = (sets.flatten.take l).sum + s ∧
      (sets.take k).flatten.length ≤ l ∧ l < (sets.take (k + 1)).flatten.length := by
  obtain ⟨l, k, hl, hk, a1, a2, a3, a4, a5⟩ := lookup_eq sets hs hn x h0 h1
  have e := before_succ sets.flatten l
  rw [List.getD, List.getElem?_eq_getElem hl, Option.getD_some] at e
  refine ⟨l, k, _, hl, a5, hk, by omega, by omega, ?_, a1, a2⟩
  unfold before; omega

example : lookup (storageStart [[3, 1], [2, 2, 5]]).1 (storageStart [[3, 1], [2, 2, 5]]).2 7 = .ok (3, 1, 1) := by decide +kernel

/-- The stretches marched for the samples of a line follow each other: the first one begins ten voxels before the box (to pick
up the boundary), each next one begins where the one before ends, one step long. -/
theorem C85_pieces (l : Line) (hs : 0 ≤ step) : (piece l step 0).1 = l.t0 - 10 ∧ (piece l step 0).2 = l.first ∧
    ∀ i, (piece l step (i + 1)).1 = (piece l step i).2 ∧ (piece l step i).2 = l.first + i * step := by
  have e : ∀ i, (piece l step i).2 = l.first + i * step := by
    intro i
    cases i with
    | zero => simp [piece]
    | succ i =>
      have : l.first ≤ l.first + (i : ℝ) * step := by nlinarith [Nat.cast_nonneg (α := ℝ) i]
      unfold piece
      simp only [if_neg (Nat.succ_ne_zero i)]
      push_cast
      rw [show l.first + ((i : ℝ) + 1 - 1) * step = l.first + (i : ℝ) * step by ring, max_eq_left this]
      ring
  refine ⟨by simp [piece], by simp [piece], fun i => ⟨?_, e i⟩⟩
  rw [e i]
  have : l.first ≤ l.first + (i : ℝ) * step := by nlinarith [Nat.cast_nonneg (α := ℝ) i]
  unfold piece
  simp only [if_neg (Nat.succ_ne_zero i)]
  push_cast
  rw [show l.first + ((i : ℝ) + 1 - 1) * step = l.first + (i : ℝ) * step by ring, max_eq_left this]

/-- Extension. Suppose marching from `x` to `z` gives the same as marching to `y`, then on to `z`. Then in whatever order
the teams and their threads run, each sample holds after the extension what one march over the last `k` stretches (or all, if
there are fewer) would have given. -/
theorem C85_extend (k : ℤ) (hk : 1 ≤ k) (hs : 0 ≤ step) (march : ℕ → ℝ → ℝ → ℝ × ℝ)
    (comp : ∀ l x y z, x ≤ y → y ≤ z → march l x z = ((march l y z).1 + (march l x y).1 * (march l y z).2, (march l x y).2 * (march l y z).2))
    (line : ℕ → Line) (hfirst : ∀ l, (line l).t0 ≤ (line l).first) (start num : ℕ → ℕ) (hstart : ∀ l, start l + num l ≤ start (l + 1))
    (sched : ℕ → List ℕ) (order : List ℕ) (hnd : order.Nodup) (hsch : ∀ l ∈ order, (sched l).Perm (List.range (num l)))
    (st : ℕ → ℝ × ℝ) (hst : ∀ l ∈ order, ∀ t, t < num l → st (start l + t) = march l (piece (line l) step t).1 (piece (line l) step t).2) :
    ∀ l ∈ order, ∀ t, t < num l → extendAll k (order.map fun l : ℕ => (start l, sched l)) st (start l + t) =
      march l (if (t : ℤ) < k then (line l).t0 - 10 else (line l).first + ((t : ℝ) - k) * step) ((line l).first + t * step) := by
  intro l hl t ht
  rw [extendAll_eq k start num hstart sched order hnd hsch st l t ht, if_pos hl]
  unfold extendAt
  simp only
  obtain ⟨P0, P1, P⟩ := C85_pieces (line l) hs
  have le : ∀ i, (piece (line l) step i).1 ≤ (piece (line l) step i).2 := by
    intro i
    cases i with
    | zero => rw [P0, P1]; linarith [hfirst l]
    | succ i => rw [(P i).1, (P i).2, (P (i + 1)).2]; push_cast; nlinarith
  -- one march over the stretches `f` to `f + c`
  have gen : ∀ (c f : ℕ), f + c < num l → ∀ a : ℝ × ℝ,
      (List.range' f (c + 1)).foldl (fun acc i => ((st (start l + i)).1 + acc.1 * (st (start l + i)).2, acc.2 * (st (start l + i)).2)) a =
      ((march l (piece (line l) step f).1 (piece (line l) step (f + c)).2).1 + a.1 * (march l (piece (line l) step f).1 (piece (line l) step (f + c)).2).2,
        a.2 * (march l (piece (line l) step f).1 (piece (line l) step (f + c)).2).2) := by
    intro c
    induction c with
    | zero => intro f hf a; simp [hst l hl f (by omega)]
    | succ c ih =>
      intro f hf a
      have hmono : ∀ c, (piece (line l) step f).1 ≤ (piece (line l) step (f + c)).2 := by
        intro c
        have := le f
        rw [(P (f + c)).2]
        rw [(P f).2] at this
        push_cast
        nlinarith [Nat.cast_nonneg (α := ℝ) c]
      rw [List.range'_concat, List.foldl_append, ih f (by omega) a]
      simp only [List.foldl_cons, List.foldl_nil, one_mul]
      have hn := hst l hl (f + (c + 1)) (by omega)
      have hb := (P (f + c)).1
      rw [show f + c + 1 = f + (c + 1) by omega] at hb
      rw [hn, hb]
      have hc := comp l (piece (line l) step f).1 (piece (line l) step (f + c)).2 (piece (line l) step (f + (c + 1))).2 (hmono c)
        (by rw [← hb]; exact le _)
      rw [hc]
      simp only [Prod.mk.injEq]
      constructor <;> ring
  obtain ⟨f, hf⟩ : ∃ f : ℕ, f = (max ((t : ℤ) - (k - 1)) 0).toNat := ⟨_, rfl⟩
  have hft : f ≤ t := by omega
  rw [← hf, show t + 1 - f = (t - f) + 1 by omega, gen (t - f) f (by omega) (0, 1), show f + (t - f) = t by omega, (P t).2]
  simp only [zero_mul, add_zero, one_mul]
  suffices hE : (piece (line l) step f).1 = if (t : ℤ) < k then (line l).t0 - 10 else (line l).first + ((t : ℝ) - k) * step by
    rw [hE]
  by_cases hc : (t : ℤ) < k
  · rw [if_pos hc]
    have : f = 0 := by omega
    rw [this, P0]
  · rw [if_neg hc]
    obtain ⟨g, hg⟩ : ∃ g, f = g + 1 := ⟨f - 1, by omega⟩
    rw [hg, (P g).1, (P g).2]
    have : (g : ℤ) = t - k := by omega
    have e : (g : ℝ) = (t : ℝ) - k := by exact_mod_cast this
    rw [e]

/-- Uniform emission and absorption is a march that composes. -/
example (S χ : ℝ) (x y z : ℝ) : let m := fun x y : ℝ => (S * (1 - Real.exp (-χ * (y - x))), Real.exp (-χ * (y - x)))
    m x z = ((m y z).1 + (m x y).1 * (m y z).2, (m x y).2 * (m y z).2) := by
  intro m
  have : Real.exp (-χ * (z - x)) = Real.exp (-χ * (y - x)) * Real.exp (-χ * (z - y)) := by
    rw [← Real.exp_add]; congr 1; ring
  simp only [m, this, Prod.mk.injEq, and_true]
  ring

/-- The position of a probe with respect to the lines: `u` steps beside the first line and `v` steps along. -/
theorem C85_grid_pos (G : Geometry b d step) (ls : LineSet) (h : IsSet b d step ls) (l0 : Line) (h0 : ls.lines[0]? = some l0) (p : Fin 2 → ℝ) (u t : ℝ) :
    gridPos ls l0.o p = (u, t) ↔ ∀ i, p i = (if i = ls.axis then l0.o i + u * step else l0.o i) + t * step * d i := by
  obtain ⟨n, a, ha, hk, rfl⟩ := set_form G ls h
  have hl0 : l0 = famLine b d step (-(a : ℤ)) := by
    simp only at h0
    rw [List.getElem?_map, List.getElem?_range (by omega)] at h0
    simpa using h0.symm
  have K0 := famLine_ok G (-(a : ℤ)) ((hk _).2 (by omega))
  have ho : l0.o (other (primaryAxis d)) = lineOrigin d b (other (primaryAxis d)) := by
    rw [hl0, K0.o_eq]; simp [shifted, other_ne]
  have hst : step ≠ 0 := by linarith [G.two]
  constructor
  · intro e
    have := gridPos_inv ⟨lineOrigin d b, d, step, primaryAxis d, (List.range n).map fun i : ℕ => famLine b d step ((i : ℤ) - a)⟩ l0.o p
      (G.nz _) hst ho
    rw [e] at this
    exact this
  · intro e
    have := gridPos_on ⟨lineOrigin d b, d, step, primaryAxis d, (List.range n).map fun i : ℕ => famLine b d step ((i : ℤ) - a)⟩ l0.o p
      (G.nz _) hst ho (u * step) (t * step) e
    rw [this]
    simp only [Prod.mk.injEq]
    exact ⟨mul_div_cancel_right₀ _ hst, mul_div_cancel_right₀ _ hst⟩

/-- Interpolation to a probe in the box never leaves the storage. A uniform storage is reproduced. If the probe is not before
the first line, radiance and transmittance stay within the range of the samples and the optical depth is not negative. -/
theorem C85_interp_partial (G : Geometry b d step) (ls : LineSet) (h : IsSet b d step ls) (start : List ℤ) (st : List (ℝ × ℝ)) (hS : Stored ls start st)
    (p : Fin 2 → ℝ) (hp : InBox b p) (frm : ℝ) (hf0 : 0 ≤ frm) (hf1 : frm ≤ 2 ^ 28) :
    ∃ r, interpAt ls start st frm p = .ok r ∧ (∀ c, (∀ x ∈ st, x = c) → r = c) ∧
      (Behind ls p → ∀ m M : ℝ, (∀ x ∈ st, m ≤ x.1 ∧ x.1 ≤ M ∧ 0 ≤ x.2 ∧ x.2 ≤ 1) →
        m ≤ r.1 ∧ r.1 ≤ M ∧ 0 ≤ r.2 ∧ r.2 ≤ 1 ∧ 0 ≤ tauOf r.2 ∧ tauOf r.2 ≤ 1000) := by
  obtain ⟨l0, hl0, ho, hsm, hall⟩ := grid_small G ls h p hp frm hf0 hf1
  obtain ⟨li', htr, hnn⟩ := trunc_ok _ hsm
  obtain ⟨li, i1, i2, b1, b2, x1, y1, x2, y2, w, v1, v2, e1, e2, e3, hw, hv1, hv2, m1, m2, hr⟩ :=
    interp_ok ls start st frm p l0 hl0 hS.len
      (fun i hi => ⟨(hall i hi).1, hS.low _ (List.getElem_mem _), hS.high i hi (by rw [hS.len]; exact hi)⟩) ⟨li', htr⟩ (fun i hi => (hall i hi).2)
  have mx1 := List.mem_of_getElem? m1.2.1
  have my1 := List.mem_of_getElem? m1.2.2
  have mx2 := List.mem_of_getElem? m2.2.1
  have my2 := List.mem_of_getElem? m2.2.2
  refine ⟨_, hr, ?_, ?_⟩
  · intro c hc
    rw [hc _ mx1, hc _ my1, hc _ mx2, hc _ my2]
    apply Prod.ext <;> simp only <;> ring
  · intro hbeh m M hM
    have hli : li = li' := by rw [htr] at e1; injection e1 with e1; exact e1.symm
    have hge : 0 ≤ (gridPos ls l0.o p).1 := by
      obtain ⟨s, t, hs0, hp'⟩ := hbeh l0 hl0
      obtain ⟨n, a, ha, hk, rfl⟩ := set_form G ls h
      rw [gridPos_on _ l0.o p (G.nz _) (by simp only; linarith [G.two]) ho s t hp']
      exact div_nonneg hs0 (by simp only; linarith [G.two])
    rw [hli, hnn hge] at hw
    have f1 := Int.floor_le (gridPos ls l0.o p).1
    have f2 := Int.lt_floor_add_one (gridPos ls l0.o p).1
    push_cast at hw
    have w0 : 0 ≤ w := by linarith
    have w1 : w ≤ 1 := by linarith
    have mean : ∀ (v lo hi s t : ℝ), 0 ≤ v → v ≤ 1 → lo ≤ s → s ≤ hi → lo ≤ t → t ≤ hi → lo ≤ v * s + (1 - v) * t ∧ v * s + (1 - v) * t ≤ hi := by
      intro v lo hi s t hv0 hv1 a1 a2 a3 a4
      constructor <;> nlinarith
    obtain ⟨X1, X2, X3, X4⟩ := hM _ mx1
    obtain ⟨Y1, Y2, Y3, Y4⟩ := hM _ my1
    obtain ⟨Z1, Z2, Z3, Z4⟩ := hM _ mx2
    obtain ⟨U1, U2, U3, U4⟩ := hM _ my2
    obtain ⟨a1, a2⟩ := mean v1 m M x1.1 y1.1 hv1.1 hv1.2 X1 X2 Y1 Y2
    obtain ⟨a3, a4⟩ := mean v2 m M x2.1 y2.1 hv2.1 hv2.2 Z1 Z2 U1 U2
    obtain ⟨c1, c2⟩ := mean v1 0 1 x1.2 y1.2 hv1.1 hv1.2 X3 X4 Y3 Y4
    obtain ⟨c3, c4⟩ := mean v2 0 1 x2.2 y2.2 hv2.1 hv2.2 Z3 Z4 U3 U4
    obtain ⟨r1, r2⟩ := mean w m M _ _ w0 w1 a1 a2 a3 a4
    obtain ⟨r3, r4⟩ := mean w 0 1 _ _ w0 w1 c1 c2 c3 c4
    refine ⟨r1, r2, r3, r4, ?_, ?_⟩
    · unfold tauOf
      refine le_min ?_ (by norm_num)
      have : Real.log (max (w * (v1 * x1.2 + (1 - v1) * y1.2) + (1 - w) * (v2 * x2.2 + (1 - v2) * y2.2)) 1e-15) ≤ 0 :=
        Real.log_nonpos (le_trans (by norm_num) (le_max_right _ _)) (max_le r4 (by norm_num))
      linarith
    · unfold tauOf
      exact le_trans (min_le_right _ _) (by norm_num)

/-- A probe that lies on a line gets the linear interpolation between the two samples on either side of the start of its
interval; nothing of other lines. -/
theorem C85_on_line (G : Geometry b d step) (ls : LineSet) (h : IsSet b d step ls) (start : List ℤ) (st : List (ℝ × ℝ)) (hS : Stored ls start st)
    (p : Fin 2 → ℝ) (hp : InBox b p) (frm : ℝ) (hf0 : 0 ≤ frm) (hf1 : frm ≤ 2 ^ 28) (i : ℕ) (hi : i < ls.lines.length) (hi' : i < start.length)
    (j : ℕ) (f : ℝ) (hf : 0 ≤ f) (hf' : f < 1) (hj : (j : ℤ) + 1 < ls.lines[i].num)
    (hon : ∀ c, p c = along ls.lines[i].o d (frm + ls.lines[i].first + (j + f) * step) c) (x y : ℝ × ℝ)
    (hx : st[(start[i] + j).toNat]? = some x) (hy : st[(start[i] + j + 1).toNat]? = some y) :
    interpAt ls start st frm p = .ok ((1 - f) * x.1 + f * y.1, (1 - f) * x.2 + f * y.2) := by
  obtain ⟨l0, hl0, ho, hsm, hall⟩ := grid_small G ls h p hp frm hf0 hf1
  obtain ⟨li', htr, hnn⟩ := trunc_ok _ hsm
  obtain ⟨li, i1, i2, b1, b2, x1, y1, x2, y2, w, v1, v2, e1, e2, e3, hw, hv1, hv2, m1, m2, hr⟩ :=
    interp_ok ls start st frm p l0 hl0 hS.len
      (fun i hi => ⟨(hall i hi).1, hS.low _ (List.getElem_mem _), hS.high i hi (by rw [hS.len]; exact hi)⟩) ⟨li', htr⟩ (fun i hi => (hall i hi).2)
  have hli : li = li' := by rw [htr] at e1; injection e1 with e1; exact e1.symm
  have hg : gridPos ls l0.o p = ((i : ℝ), (frm + ls.lines[i].first + (j + f) * step) / step) := by
    obtain ⟨n, a, ha, hk, rfl⟩ := set_form G ls h
    have hstep : step ≠ 0 := by linarith [G.two]
    have hin : i < n := by simpa using hi
    have Ki := famLine_ok G ((i : ℤ) - a) ((hk _).2 (by omega))
    have K0 := famLine_ok G (-(a : ℤ)) ((hk _).2 (by omega))
    have hl0' : l0 = famLine b d step (-(a : ℤ)) := by
      simp only at hl0
      rw [List.getElem?_map, List.getElem?_range (by omega)] at hl0
      simpa using hl0.symm
    rw [gridPos_on _ l0.o p (G.nz _) (by simpa using hstep) ho (i * step) (frm + _ + (j + f) * step) (fun c => by
      rw [hon c]
      unfold along
      congr 1
      simp only [List.getElem_map, List.getElem_range]
      rw [Ki.o_eq, hl0', K0.o_eq]
      unfold shifted
      split
      · push_cast; ring
      · rfl)]
    simp only [Prod.mk.injEq, and_true]
    exact mul_div_cancel_right₀ _ hstep
  have hstep' : ls.step = step := by
    obtain ⟨n, a, ha, hk, rfl⟩ := set_form G ls h
    rfl
  have hsz : step ≠ 0 := by linarith [G.two]
  have hliv : li = i := by
    have : (0 : ℝ) ≤ (gridPos ls l0.o p).1 := by rw [hg]; positivity
    rw [hli, hnn this, hg]; simp
  have hi1 : i1 = i := by omega
  subst hi1
  have hw1 : w = 1 := by rw [hw, hg, hliv]; push_cast; ring
  have hs : (gridPos ls l0.o p).2 - frm * (1 / ls.step) - ls.lines[i1].first * (1 / ls.step) = j + f := by
    rw [hg, hstep']; field_simp; ring
  have hfl : ⌊(j : ℝ) + f⌋ = j := by
    rw [Int.floor_eq_iff]; push_cast; constructor <;> linarith
  simp only [hs, hfl] at m1
  obtain ⟨q1, q2, q3⟩ := m1
  have i1' : min (max (j : ℤ) 0) (ls.lines[i1].num - 1) = j := by omega
  have i2' : min (max ((j : ℤ) + 1) 0) (ls.lines[i1].num - 1) = j + 1 := by omega
  rw [i1', hx] at q2
  rw [i2', ← add_assoc, hy] at q3
  injection q2 with q2
  injection q3 with q3
  have hv : v1 = 1 - f := by rw [q1]; push_cast; ring
  rw [hr, hw1, hv, ← q2, ← q3]
  congr 1
  rw [Prod.mk.injEq]
  constructor <;> ring

end DexRT.LineSweep
