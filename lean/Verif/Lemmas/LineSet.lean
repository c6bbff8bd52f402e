import Verif.Lemmas.LineInterp
/-! What the interpolation needs to know about the lines of a set. -/
namespace DexRT.LineSweep
open DexRT
open DexRT.VelInterp (truncInt fits_iff)

variable {b : Box} {d : Fin 2 → ℝ} {step : ℝ}

theorem set_form (G : Geometry b d step) (ls : LineSet) (h : IsSet b d step ls) : ∃ (n a : ℕ), a < n ∧
    (∀ k : ℤ, step / 2 ≤ chord b d step k ↔ -(a : ℤ) ≤ k ∧ k < (n : ℤ) - a) ∧
    ls = ⟨lineOrigin d b, d, step, primaryAxis d, (List.range n).map fun i : ℕ => famLine b d step ((i : ℤ) - a)⟩ := by
  obtain ⟨F, n, a, h1, h2, h3⟩ := lineSet_eq G
  obtain ⟨F', h4⟩ := h
  have e1 := h3 (max F F') (le_max_left _ _)
  have e2 := h4 (max F F') (le_max_right _ _)
  rw [e1] at e2
  injection e2 with e2
  injection e2 with e2
  exact ⟨n, a, h1, h2, e2.symm⟩

theorem exists_set (G : Geometry b d step) : ∃ ls, IsSet b d step ls := by
  obtain ⟨F, n, a, h1, h2, h3⟩ := lineSet_eq G
  exact ⟨_, F, h3⟩

theorem on_iff (G : Geometry b d step) (o : Fin 2 → ℝ) (hT : ∀ t, t ≤ ext b o d 0 → t ≤ ext b o d 1 → t ≤ 1e24) (t : ℝ) :
    (T0 b o d ≤ t ∧ t ≤ T1 b o d) ↔ 0 ≤ t ∧ InBox b (along o d t) := by
  have s0 := slab_iff b o d 0 (G.nz 0) t
  have s1 := slab_iff b o d 1 (G.nz 1) t
  unfold T0 T1 InBox along
  rw [max_le_iff, max_le_iff, le_min_iff, le_min_iff]
  constructor
  · rintro ⟨⟨⟨a1, a2⟩, a3⟩, ⟨_, a5⟩, a6⟩
    refine ⟨a1, fun i => ?_⟩
    fin_cases i
    · exact s0.2 ⟨a2, a5⟩
    · exact s1.2 ⟨a3, a6⟩
  · rintro ⟨a1, a2⟩
    obtain ⟨c1, c2⟩ := s0.1 (a2 0)
    obtain ⟨c3, c4⟩ := s1.1 (a2 1)
    exact ⟨⟨⟨a1, c1⟩, c3⟩, ⟨hT t c2 c4, c2⟩, c4⟩

theorem ext_bound (G : Geometry b d step) (k : ℤ) (t : ℝ) (h0 : t ≤ ext b (shifted (lineOrigin d b) (primaryAxis d) step k) d 0)
    (h1 : t ≤ ext b (shifted (lineOrigin d b) (primaryAxis d) step k) d 1) : t ≤ 1e24 := by
  by_contra hc
  push Not at hc
  have hs := T1_small G k
  have : (2 : ℝ) ^ 30 ≤ T1 b (shifted (lineOrigin d b) (primaryAxis d) step k) d := by
    unfold T1
    rw [le_min_iff, le_min_iff]
    norm_num at hc ⊢
    refine ⟨by linarith, by linarith⟩
  linarith

/-- One line of the set. -/
structure LineOk (b : Box) (d : Fin 2 → ℝ) (step : ℝ) (k : ℤ) (l : Line) : Prop where
  o_eq : l.o = shifted (lineOrigin d b) (primaryAxis d) step k
  inside : ∀ t, (l.t0 ≤ t ∧ t ≤ l.t1) ↔ 0 ≤ t ∧ InBox b (along l.o d t)
  long : step / 2 ≤ l.t1 - l.t0
  num_pos : 1 ≤ l.num
  first_lo : l.t0 ≤ l.first
  first_hi : l.first ≤ l.t0 + step / 2
  last_in : l.first + (l.num - 1) * step ≤ l.t1
  last_out : l.t1 < l.first + l.num * step
  small : l.t1 < 2 ^ 30
  t0_nonneg : 0 ≤ l.t0

theorem famLine_ok (G : Geometry b d step) (k : ℤ) (h : step / 2 ≤ chord b d step k) : LineOk b d step k (famLine b d step k) := by
  have h2 := G.two
  obtain ⟨_, hc⟩ := famLine_spec G k (by linarith)
  have hch := famLine_chord G k (by linarith)
  refine ⟨hc.o_eq, ?_, by linarith, hc.num_pos, hc.first_lo, hc.first_hi, hc.last_in (by linarith [hc.first_hi]), hc.last_out, ?_, ?_⟩
  · intro t
    rw [hc.o_eq, hc.t0_eq, hc.t1_eq]
    exact on_iff G _ (fun t => ext_bound G k t) t
  · rw [hc.t1_eq]; exact T1_small G k
  · rw [hc.t0_eq]; exact T0_nonneg _ _ _

/-- The numbers the interpolation converts to `int` are small. -/
theorem grid_small (G : Geometry b d step) (ls : LineSet) (h : IsSet b d step ls) (p : Fin 2 → ℝ) (hp : InBox b p) (frm : ℝ) (hf0 : 0 ≤ frm)
    (hf1 : frm ≤ 2 ^ 28) : ∃ l0, ls.lines[0]? = some l0 ∧ l0.o (other ls.axis) = ls.origin (other ls.axis) ∧
      |(gridPos ls l0.o p).1| < 2 ^ 30 ∧
      ∀ i (h : i < ls.lines.length), 1 ≤ ls.lines[i].num ∧ 
        |(gridPos ls l0.o p).2 - frm * (1 / ls.step) - ls.lines[i].first * (1 / ls.step)| < 2 ^ 30 := by
  obtain ⟨n, a, ha, hk, rfl⟩ := set_form G ls h
  simp only
  have hstep := G.two
  have hsp : (0 : ℝ) < step := by linarith
  have K0 := famLine_ok G (-(a : ℤ)) ((hk _).2 (by omega))
  refine ⟨famLine b d step (-(a : ℤ)), ?_, ?_, ?_, ?_⟩
  · rw [List.getElem?_map, List.getElem?_range (by omega)]; simp
  · rw [K0.o_eq]; simp [shifted, other_ne]
  · -- across
    obtain ⟨P, hP⟩ : ∃ P, P = primaryAxis d := ⟨_, rfl⟩
    have hd1 := G.le_one P
    have hst := G.steep
    have hz : 0 < |d (other P)| := by rw [hP]; linarith
    have hin := ((K0.inside (famLine b d step (-(a : ℤ))).t0).1 ⟨le_refl _, by linarith [K0.long]⟩).2 P
    obtain ⟨q0, q1⟩ := hp P
    obtain ⟨r0, r1⟩ := hp (other P)
    have sz := G.size P
    have szo := G.size (other P)
    have lt0 : (famLine b d step (-(a : ℤ))).t0 < 2 ^ 30 := by linarith [K0.small, K0.long]
    have hdP := abs_le.1 hd1
    obtain ⟨T, hT⟩ : ∃ T, T = (famLine b d step (-(a : ℤ))).t0 := ⟨_, rfl⟩
    have hT0 : 0 ≤ T := by rw [hT]; exact K0.t0_nonneg
    rw [← hT] at lt0 hin
    have e1 : T * d P ≤ T := by nlinarith [hdP.2]
    have e2 : -T ≤ T * d P := by nlinarith [hdP.1]
    have os : lineOrigin d b (other P) = b.lo (other P) ∨ lineOrigin d b (other P) = b.hi (other P) := by
      rw [hP, origin_s G]; split
      · exact Or.inl rfl
      · exact Or.inr rfl
    have hbox : (b.lo (other P) : ℝ) < b.hi (other P) := by exact_mod_cast G.box (other P)
    have hq : |p (other P) - lineOrigin d b (other P)| ≤ 2 ^ 28 := by
      rw [abs_le]; norm_num at szo ⊢
      rcases os with o | o <;> rw [o] <;> constructor <;> linarith
    have hm : |d P / d (other P) * (p (other P) - lineOrigin d b (other P))| ≤ 2 ^ 29 := by
      rw [abs_mul, abs_div]
      have : |d P| / |d (other P)| ≤ 2 := by rw [div_le_iff₀ hz]; rw [hP] at hd1 ⊢; linarith
      have h0 : 0 ≤ |d P| / |d (other P)| := by positivity
      have h1 : 0 ≤ |p (other P) - lineOrigin d b (other P)| := abs_nonneg _
      norm_num at hq ⊢
      nlinarith
    have hm' := abs_le.1 hm
    have val : (gridPos ⟨lineOrigin d b, d, step, P, (List.range n).map fun i : ℕ => famLine b d step ((i : ℤ) - a)⟩
        (famLine b d step (-(a : ℤ))).o p).1 =
        (p P - (famLine b d step (-(a : ℤ))).o P - d P / d (other P) * (p (other P) - lineOrigin d b (other P))) / step := by
      unfold gridPos other
      simp only
      congr 1
      ring
    rw [← hP, val, abs_div, abs_of_pos hsp, div_lt_iff₀ hsp]
    have hfin : |p P - (famLine b d step (-(a : ℤ))).o P - d P / d (other P) * (p (other P) - lineOrigin d b (other P))| < 2 ^ 31 := by
      unfold along at hin
      rw [abs_lt]
      norm_num at sz lt0 hm' ⊢
      constructor <;> linarith
    norm_num at hfin ⊢
    linarith
  · intro i hi
    rw [List.length_map, List.length_range] at hi
    have Ki := famLine_ok G ((i : ℤ) - a) ((hk _).2 (by omega))
    simp only [List.getElem_map, List.getElem_range]
    refine ⟨Ki.num_pos, ?_⟩
    obtain ⟨P, hP⟩ : ∃ P, P = primaryAxis d := ⟨_, rfl⟩
    have hst := G.steep
    rw [← hP] at hst
    have hz : 0 < |d (other P)| := by linarith
    obtain ⟨r0, r1⟩ := hp (other P)
    have szo := G.size (other P)
    have os : lineOrigin d b (other P) = b.lo (other P) ∨ lineOrigin d b (other P) = b.hi (other P) := by
      rw [hP, origin_s G]; split
      · exact Or.inl rfl
      · exact Or.inr rfl
    have hbox : (b.lo (other P) : ℝ) < b.hi (other P) := by exact_mod_cast G.box (other P)
    have hq : |p (other P) - lineOrigin d b (other P)| ≤ 2 ^ 28 := by
      rw [abs_le]; norm_num at szo ⊢
      rcases os with o | o <;> rw [o] <;> constructor <;> linarith
    have hm : |(p (other P) - lineOrigin d b (other P)) / d (other P)| ≤ 2 ^ 29 := by
      rw [abs_div, div_le_iff₀ hz]
      norm_num at hq ⊢
      linarith
    have hm' := abs_le.1 hm
    have val : (gridPos ⟨lineOrigin d b, d, step, P, (List.range n).map fun i : ℕ => famLine b d step ((i : ℤ) - a)⟩
        (famLine b d step (-(a : ℤ))).o p).2 - frm * (1 / step) - (famLine b d step ((i : ℤ) - a)).first * (1 / step) =
        ((p (other P) - lineOrigin d b (other P)) / d (other P) - frm - (famLine b d step ((i : ℤ) - a)).first) / step := by
      unfold gridPos other
      simp only
      ring
    rw [← hP, val, abs_div, abs_of_pos hsp, div_lt_iff₀ hsp]
    have f0 : 0 ≤ (famLine b d step ((i : ℤ) - a)).first := by linarith [Ki.t0_nonneg, Ki.first_lo]
    have f1 : (famLine b d step ((i : ℤ) - a)).first < 2 ^ 30 := by linarith [Ki.small, Ki.long, Ki.first_hi]
    have hfin : |(p (other P) - lineOrigin d b (other P)) / d (other P) - frm - (famLine b d step ((i : ℤ) - a)).first| < 2 ^ 31 := by
      rw [abs_lt]
      norm_num at f1 hf1 hm' ⊢
      constructor <;> linarith
    norm_num at hfin ⊢
    linarith

end DexRT.LineSweep
