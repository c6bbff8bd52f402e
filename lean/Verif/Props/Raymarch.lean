import Verif.Lemmas.RaymarchEnd
/-!
C78: marching a whole ray solves the transfer equation along it.
-/
namespace DexRT
open Classical Set

variable {dim : DdaDim}

/-- The segment is usable: directions have components of at most 1 (they are unit vectors), and no component is a
negative zero with the origin exactly on the inner boundary of the grid (C38). -/
structure GoodSeg (a : RaymarchArgs dim) : Prop where
  unit : ∀ i, |a.seg.d i| ≤ 1
  zero : ∀ i, a.seg.d i = 0 → a.seg.negZero i = false ∨
    (a.seg.o i ≠ (0 : ℤ) + 1 / 10000 ∧ a.seg.o i ≠ (a.env.max i : ℝ) - 1 / 10000)

/-- The point of the segment at `t` is in the grid, at least 1e-4 from its surface. -/
def Inner (a : RaymarchArgs dim) (t : ℝ) : Prop := ∀ i, 1 / 10000 ≤ a.seg.pt t i ∧ a.seg.pt t i ≤ (a.env.max i : ℝ) - 1 / 10000

/-- Which rays are marched, in two and three dimensions and for every grid: exactly those of which a piece at least
1e-4 long is in the grid (1e-4 from its surface). The path that is marched is that piece, all of it and nothing else,
up to 3e-6 at its start. -/
theorem C78_starts (a : RaymarchArgs dim) (hb : 1 ≤ a.env.block) (hg : GoodSeg a) :
    match ddaStart a.env a.seg with
    | some (r, s) => ∃ t0, (∀ τ i, r.pt τ i = a.seg.pt (t0 + τ) i) ∧ 1e-4 ≤ r.t1 ∧
        (∀ τ, (0 ≤ τ ∧ τ ≤ r.t1) ↔ ((a.seg.t0 ≤ t0 + τ ∧ t0 + τ ≤ a.seg.t1) ∧ Inner a (t0 + τ))) ∧ 0 ≤ s.t ∧ s.t ≤ 3e-6
    | none => ∀ t t', a.seg.t0 ≤ t → t ≤ t' → t' ≤ a.seg.t1 → Inner a t → Inner a t' → t' - t < 1e-4 := by
  have hseg := C38_segment_partial (dim_pos dim).1 a.seg { min := fun _ => 0, max := a.env.max } (1 / 10000) hg.zero
  have hbox : ∀ t, innerBox { min := fun _ => 0, max := a.env.max } (1 / 10000) (a.seg.pt t) ↔ Inner a t := by
    intro t
    unfold innerBox Inner
    simp only [Int.cast_zero, zero_add]
  unfold ddaStart
  cases hc : a.seg.clip { min := fun _ => 0, max := a.env.max } (1 / 10000) with
  | none =>
    rw [hc] at hseg
    simp only at hseg ⊢
    intro t t' h0 h1 h2 i1 i2
    rcases hseg with ⟨i, hi⟩ | hno
    · exfalso
      have hm : (a.env.max i : ℝ) < 1 := by
        simp only [Int.cast_zero] at hi; linarith
      have hm' : a.env.max i < 1 := by exact_mod_cast hm
      have hm'' : (a.env.max i : ℝ) ≤ 0 := by exact_mod_cast (by omega : a.env.max i ≤ 0)
      obtain ⟨p, q⟩ := i1 i
      linarith
    · exact absurd ((hbox t).2 i1) (hno t h0 (by linarith))
  | some p =>
    obtain ⟨c, b⟩ := p
    rw [hc] at hseg
    simp only at hseg ⊢
    obtain ⟨hceq, h01, hin, -⟩ := hseg
    have hd : ∀ i, c.d i = a.seg.d i := fun i => by rw [hceq]
    have ho : ∀ i, c.o i = a.seg.o i := fun i => by rw [hceq]
    set r : DdaRay dim := { o := (c.updateOrigin c.t0).o, d := (c.updateOrigin c.t0).d, t1 := (c.updateOrigin c.t0).t1 } with hr
    have hpt : ∀ τ i, r.pt τ i = a.seg.pt (c.t0 + τ) i := by
      intro τ i
      simp only [hr, DdaRay.pt, RaySeg.pt, RaySeg.updateOrigin, hd, ho]
      ring
    have hr1 : r.t1 = c.t1 - c.t0 := by simp only [hr, RaySeg.updateOrigin]
    have hrange : ∀ τ, (0 ≤ τ ∧ τ ≤ r.t1) ↔ ((a.seg.t0 ≤ c.t0 + τ ∧ c.t0 + τ ≤ a.seg.t1) ∧ Inner a (c.t0 + τ)) := by
      intro τ
      rw [← hbox, ← hin, hr1]
      constructor <;> rintro ⟨p, q⟩ <;> constructor <;> linarith
    cases hi : ddaInit a.env r with
    | none =>
      simp only [Option.map_none]
      intro t t' h0 h1 h2 i1 i2
      obtain ⟨p1, p2⟩ := (hin t).2 ⟨⟨h0, by linarith⟩, (hbox t).2 i1⟩
      obtain ⟨q1, q2⟩ := (hin t').2 ⟨⟨by linarith, h2⟩, (hbox t').2 i2⟩
      by_contra hcon
      have hlen : 1e-4 ≤ r.t1 := by rw [hr1]; linarith
      have h0r := ((hrange 0).1 ⟨le_rfl, by linarith⟩).2
      obtain ⟨s, hs, -⟩ := ddaInit_succeeds a.env r hb hlen (fun i => by
          have : r.d i = a.seg.d i := by simp only [hr, RaySeg.updateOrigin, hd]
          rw [this]; exact hg.unit i)
        (fun i => by
          have e0 : r.o i = a.seg.pt (c.t0 + 0) i := by rw [← hpt]; simp [DdaRay.pt]
          rw [e0]
          obtain ⟨x, y⟩ := h0r i
          constructor
          · norm_num at x ⊢; linarith
          · norm_num at y ⊢; linarith)
      rw [hi] at hs
      exact absurd hs (by simp)
    | some s =>
      simp only [Option.map_some]
      have hlen : 1e-4 ≤ r.t1 := by
        have hlt := (start_lt a.env r hb s hi)
        unfold ddaInit at hi
        split at hi
        · simp at hi
        · rename_i hn
          rw [sub_zero, abs_of_nonneg (by linarith)] at hn
          exact not_lt.1 hn
      have h0r := ((hrange 0).1 ⟨le_rfl, by linarith⟩).2
      obtain ⟨s', hs', t0', t1'⟩ := ddaInit_succeeds a.env r hb hlen (fun i => by
          have : r.d i = a.seg.d i := by simp only [hr, RaySeg.updateOrigin, hd]
          rw [this]; exact hg.unit i)
        (fun i => by
          have e0 : r.o i = a.seg.pt (c.t0 + 0) i := by rw [← hpt]; simp [DdaRay.pt]
          rw [e0]
          obtain ⟨x, y⟩ := h0r i
          constructor
          · norm_num at x ⊢; linarith
          · norm_num at y ⊢; linarith)
      rw [hi] at hs'
      obtain rfl := Option.some.inj hs'
      exact ⟨c.t0, hpt, hlen, hrange, t0', t1'⟩

/-- The ray of a good segment as the march sees it. -/
theorem started (a : RaymarchArgs dim) (hb : 1 ≤ a.env.block) (hg : GoodSeg a) (r : DdaRay dim) (s : Dda dim)
    (hs : ddaStart a.env a.seg = some (r, s)) :
    ddaInit a.env r = some s ∧ 1e-4 ≤ r.t1 ∧ 0 ≤ s.t ∧ s.t ≤ 3e-6 ∧ (∀ i, |r.d i| ≤ 1) ∧
    (∀ τ, 0 ≤ τ → τ ≤ r.t1 → ∀ i, 1e-4 ≤ r.pt τ i ∧ r.pt τ i ≤ a.env.max i - 1e-4) ∧
    ∃ t0, ∀ τ i, r.pt τ i = a.seg.pt (t0 + τ) i := by
  have h := C78_starts a hb hg
  rw [hs] at h
  obtain ⟨t0, hpt, hlen, hrange, h0, h1⟩ := h
  obtain ⟨c, b, hc, hr, hi⟩ := ddaStart_some a.env a.seg r s hs
  have hseg := C38_segment_partial (dim_pos dim).1 a.seg { min := fun _ => 0, max := a.env.max } (1 / 10000) hg.zero
  rw [hc] at hseg
  refine ⟨hi, hlen, h0, h1, ?_, ?_, t0, hpt⟩
  · intro i
    have e : r.d i = a.seg.d i := by
      rw [hr]
      show c.d i = _
      rw [hseg.1]
    rw [e]; exact hg.unit i
  · intro τ p q i
    obtain ⟨x, y⟩ := ((hrange τ).1 ⟨p, q⟩).2 i
    rw [← hpt] at x y
    constructor
    · norm_num at x ⊢; linarith
    · norm_num at y ⊢; linarith

/-- A march that has started from a good start ends: some number of passes is enough, and any larger one gives the
same result. A ray that is not marched returns at once. -/
theorem C78_ends (a : RaymarchArgs dim) (hb : 1 ≤ a.env.block)
    (hstart : ∀ r s, ddaStart a.env a.seg = some (r, s) → GoodStart a.env r ∧ r.t1 ≤ 1e24) :
    ∃ N res, ∀ fuel, N ≤ fuel → raymarch a fuel = some res := by
  cases hs : ddaStart a.env a.seg with
  | none => exact ⟨0, _, fun fuel _ => by unfold raymarch; rw [hs]⟩
  | some p =>
    obtain ⟨r, s⟩ := p
    obtain ⟨hg, ht⟩ := hstart r s hs
    obtain ⟨c, b, hc, hr, hi⟩ := ddaStart_some a.env a.seg r s hs
    obtain ⟨N, h1, last, h2, h3⟩ := C39_terminates a.env r s hb hg ht hi
    refine ⟨N, marchInterval a.extraSafe a.scale a.invSin (startI a true) ((loopStates (visits a.env r N s)).map a.stepOf), ?_⟩
    intro fuel hf
    unfold raymarch
    rw [hs]
    simp only
    rw [visitsEnd_of a.env r fuel s last (by rw [h1 fuel hf]; exact h2) h3, h1 fuel hf]
    rfl

/-- What is computed, for every ray, level pattern, medium and number of steps: the value at the end of the path of
the solution of the transfer equation in which each visited interval has the emissivity and opacity of the cell
reported for it, and the rest of the path is empty; the optical depth is the integral of the same opacity. -/
theorem C78_transfer (a : RaymarchArgs dim) (hb : 1 ≤ a.env.block) (hchi : ∀ m c, 0 ≤ a.chi m c) (r : DdaRay dim) (s : Dda dim)
    (hs : ddaStart a.env a.seg = some (r, s)) (hg : GoodStart a.env r) (fuel : ℕ) (res : Interval) (h : raymarch a fuel = some res)
    (I τ : ℝ → ℝ) (hI0 : I s.t = startI a true) (hτ0 : τ s.t = 0)
    (hIc : ContinuousOn I (Icc s.t r.t1)) (hτc : ContinuousOn τ (Icc s.t r.t1))
    (hin : ∀ v ∈ visits a.env r fuel s, 0 ≤ v.mip → ∀ x ∈ Ioo v.t (v.t + v.dt),
      SolvesAt (a.scale * a.invSin) (a.eta v.mip v.coord) (a.chi v.mip v.coord + 1e-15) I x ∧
      HasDerivAt τ (a.scale * a.invSin * (a.chi v.mip v.coord + 1e-15)) x)
    (hout : ∀ x ∈ Ioo s.t r.t1, (∀ v ∈ visits a.env r fuel s, 0 ≤ v.mip → ¬ (v.t ≤ x ∧ x ≤ v.t + v.dt)) →
      HasDerivAt I 0 x ∧ HasDerivAt τ 0 x) :
    res.I = I r.t1 ∧ res.tau = τ r.t1 := by
  obtain ⟨c, b, hc, hr, hi⟩ := ddaStart_some a.env a.seg r s hs
  have hinv := goodStart_inv a.env r s hb hg hi
  obtain ⟨e1, e2⟩ := raymarch_I a fuel res r s hs h
  have hch := visits_chain_le a.env r hb fuel s hinv
  have hbd := visits_bound a.env r hb fuel s hinv
  obtain ⟨l, hl⟩ := visits_head a.env r fuel s
  rw [hl] at hch hbd e1 e2 hin hout
  have hlt := (start_lt a.env r hb s hi).2.le
  have hcu : ∀ m c, chiUsed a.extraSafe (a.chi m c) = a.chi m c + 1e-15 := by
    intro m c
    have := hchi m c
    unfold chiUsed
    have hn : ¬ |a.chi m c + 1e-15| < 1e-15 := by rw [abs_of_nonneg (by norm_num; linarith)]; push Not; linarith
    simp [hn]
  constructor
  · rw [e1, ← hI0]
    exact march_solves a hchi I r.t1 s l hch hbd hlt hIc (fun v hv hm x hx => by rw [hcu]; exact (hin v hv hm x hx).1)
      (fun x hx hno => (hout x hx hno).1)
  · rw [e2]
    exact march_tau_solves a hchi τ r.t1 s l hch hbd hlt hτ0 hτc (fun v hv hm x hx => by rw [hcu]; exact (hin v hv hm x hx).2)
      (fun x hx hno => (hout x hx hno).2) _

/-- The cell of level `m` that contains the point of the ray at `x`. -/
noncomputable def cellAt (r : DdaRay dim) (m : ℤ) (x : ℝ) : Fin dim.n → ℤ := fun i => ⌊r.pt x i⌋ / 2 ^ m.toNat * 2 ^ m.toNat

/-- The medium is solved exactly: in a grid whose cells are all at one level, for a ray that does not pass through an
edge or corner between cells and does not cross a face in its first 2e-6, the result is the value at the end of the path
of the solution of the transfer equation in the medium that has in each cell the emissivity and opacity of that cell,
over the whole of the path in the grid. -/
theorem C78_exact (a : RaymarchArgs dim) (hb : 1 ≤ a.env.block) (hgs : GoodSeg a) (hchi : ∀ m c, 0 ≤ a.chi m c)
    (m : ℤ) (hm : 0 ≤ m) (hlvl : ∀ c, a.env.inBounds c → a.env.sampleLevel c = m)
    (r : DdaRay dim) (s : Dda dim) (hs : ddaStart a.env a.seg = some (r, s)) (ht1 : r.t1 ≤ 1e24)
    (hface : ∀ x, 0 ≤ x → x ≤ 2e-6 → ∀ i, r.d i ≠ 0 → ¬ OnFace r 1 x i)
    (hcorner : ∀ x, 0 ≤ x → x ≤ r.t1 → ∀ i j, r.d i ≠ 0 → r.d j ≠ 0 → OnFace r (2 ^ m.toNat) x i → OnFace r (2 ^ m.toNat) x j → i = j)
    (fuel : ℕ) (res : Interval) (h : raymarch a fuel = some res)
    (I τ : ℝ → ℝ) (hI0 : I 0 = startI a true) (hτ0 : τ 0 = 0)
    (hIc : ContinuousOn I (Icc 0 r.t1)) (hτc : ContinuousOn τ (Icc 0 r.t1))
    (hI : ∀ x ∈ Ioo 0 r.t1, (∀ i, r.d i ≠ 0 → ¬ OnFace r (2 ^ m.toNat) x i) →
      SolvesAt (a.scale * a.invSin) (a.eta m (cellAt r m x)) (a.chi m (cellAt r m x) + 1e-15) I x ∧
      HasDerivAt τ (a.scale * a.invSin * (a.chi m (cellAt r m x) + 1e-15)) x) :
    res.I = I r.t1 ∧ res.tau = τ r.t1 := by
  obtain ⟨hi, hlen, -, -, hd, hins, -⟩ := started a hb hgs r s hs
  have hin : ∀ τ, 0 ≤ τ → τ ≤ r.t1 → ∀ i, 0 < r.pt τ i ∧ r.pt τ i < a.env.max i := fun τ p q i => by
    obtain ⟨x, y⟩ := hins τ p q i
    norm_num at x y
    constructor <;> linarith
  obtain ⟨s', hs', hst, hflat⟩ := flat_start hb hm hlvl ht1 hlen (fun i => by
    have := hins 0 le_rfl (by norm_num at hlen; linarith) i
    simpa [DdaRay.pt] using this) hd hface
  rw [hi] at hs'
  obtain rfl := Option.some.inj hs'
  have hall := visits_flat hb hm hlvl ht1 hin hcorner fuel s hflat
  have hgood : GoodStart a.env r := by
    by_cases hx : a.env.inBounds (startCell r)
    · left; rw [hlvl _ hx]; exact hm
    · exact Or.inr (Or.inl hx)
  obtain ⟨-, last, hl1, hl2⟩ := raymarch_some a fuel res r s hs h
  refine C78_transfer a hb hchi r s hs hgood fuel res h I τ (by rw [hst]; exact hI0) (by rw [hst]; exact hτ0)
    (by rw [hst]; exact hIc) (by rw [hst]; exact hτc) ?_ ?_
  · intro v hv _ x hx
    have hf := hall v hv
    have hcell : v.coord = cellAt r m x := hf.cell x hx
    have hmip : v.mip = m := hf.mip
    have hbd := visits_bound a.env r hb fuel s (goodStart_inv a.env r s hb hgood hi) v hv
    have hv0 := hf.inv.t0
    have hx1 : x < r.t1 := by
      rcases le_total v.t r.t1 with hle | hle
      · rw [max_eq_right hle] at hbd; linarith [hx.2, hbd.2]
      · rw [max_eq_left hle] at hbd; exfalso; linarith [hx.1, hx.2, hbd.2]
    rw [hmip, hcell]
    exact hI x ⟨by linarith [hx.1], hx1⟩ (fun i h0 => hf.noFace x hx i h0)
  · intro x hx hno
    exfalso
    obtain ⟨-, hlev, hcov⟩ := C39_uniform a.env r s hb ht1 hin m hm hlvl hi fuel
    obtain ⟨v, hv, p, q⟩ := hcov last hl1 hl2 x hx.1.le hx.2.le
    exact hno v hv (by rw [(hlev v hv).1]; exact hm) ⟨p, q⟩

/-- A uniform medium has the textbook answer, for every ray that is marched (edges and corners included): with `L` the
length of the path (short of the clipped length by at most 3e-6), the boundary intensity is attenuated by `exp(-k chi L)`
and the source function is added with weight `1 - exp(-k chi L)`. -/
theorem C78_uniform (a : RaymarchArgs dim) (hb : 1 ≤ a.env.block) (hgs : GoodSeg a)
    (m : ℤ) (hm : 0 ≤ m) (hlvl : ∀ c, a.env.inBounds c → a.env.sampleLevel c = m)
    (eta chi : ℝ) (hchi : 0 ≤ chi) (heta' : ∀ m c, a.eta m c = eta) (hchi' : ∀ m c, a.chi m c = chi)
    (r : DdaRay dim) (s : Dda dim) (hs : ddaStart a.env a.seg = some (r, s)) (ht1 : r.t1 ≤ 1e24)
    (fuel : ℕ) (res : Interval) (h : raymarch a fuel = some res) :
    ∃ L, r.t1 - 3e-6 ≤ L ∧ L ≤ r.t1 ∧ res.tau = a.scale * a.invSin * (chi + 1e-15) * L ∧
      res.I = startI a true * Real.exp (-res.tau) + eta / (chi + 1e-15) * (1 - Real.exp (-res.tau)) := by
  obtain ⟨hi, hlen, h0, h3, hd, hins, -⟩ := started a hb hgs r s hs
  have hin : ∀ τ, 0 ≤ τ → τ ≤ r.t1 → ∀ i, 0 < r.pt τ i ∧ r.pt τ i < a.env.max i := fun τ p q i => by
    obtain ⟨x, y⟩ := hins τ p q i
    norm_num at x y
    constructor <;> linarith
  have hgood : GoodStart a.env r := by
    by_cases hx : a.env.inBounds (startCell r)
    · left; rw [hlvl _ hx]; exact hm
    · exact Or.inr (Or.inl hx)
  obtain ⟨-, last, hl1, hl2⟩ := raymarch_some a fuel res r s hs h
  obtain ⟨-, hlev, hcov⟩ := C39_uniform a.env r s hb ht1 hin m hm hlvl hi fuel
  have hk : chi + 1e-15 ≠ 0 := by norm_num; linarith
  set k := a.scale * a.invSin with hkdef
  have hlin : ∀ x, HasDerivAt (fun x => k * (chi + 1e-15) * (x - s.t)) (k * (chi + 1e-15)) x := by
    intro x
    simpa using ((hasDerivAt_id x).sub_const s.t).const_mul (k * (chi + 1e-15))
  have hexp : ∀ x, HasDerivAt (fun x => Real.exp (-(k * (chi + 1e-15) * (x - s.t))))
      (Real.exp (-(k * (chi + 1e-15) * (x - s.t))) * -(k * (chi + 1e-15))) x := fun x => ((hlin x).fun_neg).exp
  have hIx : ∀ x, HasDerivAt (fun x => startI a true * Real.exp (-(k * (chi + 1e-15) * (x - s.t))) +
      eta / (chi + 1e-15) * (1 - Real.exp (-(k * (chi + 1e-15) * (x - s.t)))))
      (k * (eta - (chi + 1e-15) * (startI a true * Real.exp (-(k * (chi + 1e-15) * (x - s.t))) +
      eta / (chi + 1e-15) * (1 - Real.exp (-(k * (chi + 1e-15) * (x - s.t))))))) x := by
    intro x
    have h1 := ((hexp x).const_mul (startI a true)).fun_add (((hexp x).const_sub 1).const_mul (eta / (chi + 1e-15)))
    refine h1.congr_deriv ?_
    field_simp
    ring
  have key := C78_transfer a hb (fun m c => by rw [hchi']; exact hchi) r s hs hgood fuel res h
    (fun x => startI a true * Real.exp (-(k * (chi + 1e-15) * (x - s.t))) +
      eta / (chi + 1e-15) * (1 - Real.exp (-(k * (chi + 1e-15) * (x - s.t)))))
    (fun x => k * (chi + 1e-15) * (x - s.t)) (by simp) (by simp)
    (fun x _ => (hIx x).continuousAt.continuousWithinAt) (fun x _ => (hlin x).continuousAt.continuousWithinAt)
    (by
      intro v _ _ x _
      rw [heta', hchi']
      exact ⟨hIx x, hlin x⟩)
    (by
      intro x hx hno
      exfalso
      obtain ⟨v, hv, p, q⟩ := hcov last hl1 hl2 x hx.1.le hx.2.le
      exact hno v hv (by rw [(hlev v hv).1]; exact hm) ⟨p, q⟩)
  refine ⟨r.t1 - s.t, by linarith, by linarith, key.2, ?_⟩
  rw [key.2]; exact key.1

/-- Many levels, and regions without data: let the medium be the one of the reported cells where there are any, and
elsewhere (the pieces passed over) anything whose solution changes by at most `D` per unit of length. The result
differs from the solution at the end of the path by at most `D` times the length passed over. -/
theorem C78_error_partial (a : RaymarchArgs dim) (hb : 1 ≤ a.env.block) (hgs : GoodSeg a) (hchi : ∀ m c, 0 ≤ a.chi m c)
    (hk : 0 ≤ a.scale * a.invSin) (r : DdaRay dim) (s : Dda dim)
    (hs : ddaStart a.env a.seg = some (r, s)) (hg : GoodStart a.env r) (fuel : ℕ) (res : Interval) (h : raymarch a fuel = some res)
    (I : ℝ → ℝ) (D : ℝ) (hD : 0 ≤ D) (hI0 : I 0 = startI a true) (hIc : ContinuousOn I (Icc 0 r.t1))
    (hin : ∀ v ∈ visits a.env r fuel s, ∀ x ∈ Ioo v.t (v.t + v.dt),
      if 0 ≤ v.mip then SolvesAt (a.scale * a.invSin) (a.eta v.mip v.coord) (a.chi v.mip v.coord + 1e-15) I x else HasDerivAt I 0 x)
    (hout : ∀ x ∈ Ioo 0 r.t1, (∀ v ∈ visits a.env r fuel s, ¬ (v.t ≤ x ∧ x ≤ v.t + v.dt)) → ∃ g, HasDerivAt I g x ∧ |g| ≤ D) :
    |res.I - I r.t1| ≤ D * (r.t1 - ((visits a.env r fuel s).map (·.dt)).sum) := by
  obtain ⟨hi, hlen, h0, h3, hd, hins, -⟩ := started a hb hgs r s hs
  have hinv := goodStart_inv a.env r s hb hg hi
  obtain ⟨e1, -⟩ := raymarch_I a fuel res r s hs h
  have hch := visits_chain_le a.env r hb fuel s hinv
  have hbd := visits_bound a.env r hb fuel s hinv
  obtain ⟨l, hl⟩ := visits_head a.env r fuel s
  rw [hl] at hch hbd e1 hin hout ⊢
  have hlt := (start_lt a.env r hb s hi).2.le
  have hcu : ∀ m c, chiUsed a.extraSafe (a.chi m c) = a.chi m c + 1e-15 := by
    intro m c
    have := hchi m c
    unfold chiUsed
    have hn : ¬ |a.chi m c + 1e-15| < 1e-15 := by rw [abs_of_nonneg (by norm_num; linarith)]; push Not; linarith
    simp [hn]
  have herr := march_error a hchi hk I r.t1 D hD s l (startI a true) hch hbd hlt
    (hIc.mono (Icc_subset_Icc h0 le_rfl))
    (fun v hv hm x hx => by have := hin v hv x hx; rw [if_pos hm] at this; rw [hcu]; exact this)
    (fun v hv hm x hx => by have := hin v hv x hx; rw [if_neg hm] at this; exact this)
    (fun x hx hno => hout x ⟨by linarith [hx.1], hx.2⟩ hno)
  rw [e1]
  refine le_trans herr ?_
  have hstart : |startI a true - I s.t| ≤ D * s.t := by
    rw [← hI0]
    rcases h0.eq_or_lt with hz | hz
    · rw [← hz]; simp
    · have hlater := chain_later s l hch (fun v hv => (hbd v hv).1)
      have hx : ∀ x ∈ Ioo 0 s.t, ∃ g, HasDerivAt I g x ∧ |g| ≤ D := by
        intro x hx
        refine hout x ⟨hx.1, by linarith [hx.2]⟩ ?_
        intro v hv hcon
        have := hlater v hv
        linarith [hcon.1, hx.2]
      obtain ⟨c, hc1, hsl⟩ := exists_hasDerivAt_eq_slope I (fun z => deriv I z) hz
        (hIc.mono (Icc_subset_Icc le_rfl hlt))
        (fun z hz => by obtain ⟨g, g1, _⟩ := hx z hz; rw [g1.deriv]; exact g1)
      obtain ⟨g, g1, g2⟩ := hx c hc1
      simp only [g1.deriv, sub_zero] at hsl
      rw [eq_div_iff hz.ne'] at hsl
      rw [abs_sub_comm, ← hsl, abs_mul, abs_of_pos hz]
      exact mul_le_mul_of_nonneg_right g2 h0
  nlinarith

/-- The length passed over: at most 3e-6 at the start, 0.011 where the ray enters an empty region from a finer one, and
1e-3 at each other change of level. -/
theorem C78_passed_over (a : RaymarchArgs dim) (hb : 1 ≤ a.env.block) (hgs : GoodSeg a) (r : DdaRay dim) (s : Dda dim)
    (hs : ddaStart a.env a.seg = some (r, s)) (hg : GoodStart a.env r) (fuel : ℕ) (res : Interval) (h : raymarch a fuel = some res) :
    r.t1 - ((visits a.env r fuel s).map (·.dt)).sum ≤ 3e-6 +
      ((visits a.env r fuel s).map fun v =>
        if a.env.sampleLevel (entered r v) = v.mip ∧ 0 ≤ v.mip then (0 : ℝ)
        else if a.env.sampleLevel (entered r v) = -1 ∧ v.size ≠ a.env.block then 0.011 else 0.001).sum := by
  obtain ⟨hi, hlen, h0, h3, hd, hins, -⟩ := started a hb hgs r s hs
  have hinv := goodStart_inv a.env r s hb hg hi
  obtain ⟨-, last, hl1, hl2⟩ := raymarch_some a fuel res r s hs h
  have := chain_passed a.env r s _ last (visits_chain a.env r hb fuel s hinv) hl1 (by
    obtain ⟨l, hl⟩ := visits_head a.env r fuel s
    rw [hl]; rfl)
  have hlast := advance_none a.env r last (visits_inv a.env r hb fuel s hinv last (List.mem_of_getLast? hl1)).1 hl2
  have hmx := le_max_right last.t r.t1
  have hgap : (fun v => gapAfter a.env r v) = fun v =>
        if a.env.sampleLevel (entered r v) = v.mip ∧ 0 ≤ v.mip then (0 : ℝ)
        else if a.env.sampleLevel (entered r v) = -1 ∧ v.size ≠ a.env.block then 0.011 else 0.001 := by
    funext v
    unfold gapAfter
    simp only
    by_cases hc : a.env.sampleLevel (entered r v) = v.mip ∧ 0 ≤ v.mip
    · rw [if_pos hc, if_pos ⟨hc.1, by rw [hc.1]; exact hc.2⟩]
    · rw [if_neg hc, if_neg (fun hc' => hc ⟨hc'.1, by rw [← hc'.1]; exact hc'.2⟩)]
      split <;> norm_num
  rw [← hgap]
  linarith

/-- The length used per cell is the length in space: the direction in space with the inclination `incl` whose
projection is along the unit vector `d` of the plane covers one cell of the plane in the length `scale * invSin`
(`scale` metres to the cell). Without inclination, as in three dimensions, this is `scale`. -/
theorem C78_slant (a : RaymarchArgs dim) (hincl : |a.incl| < 1) (d : Fin 2 → ℝ) (hd : d 0 ^ 2 + d 1 ^ 2 = 1) :
    (∃ mu : Fin 3 → ℝ, mu 0 ^ 2 + mu 1 ^ 2 + mu 2 ^ 2 = 1 ∧ mu 1 = a.incl ∧
      a.scale * a.invSin * mu 0 = a.scale * d 0 ∧ a.scale * a.invSin * mu 2 = a.scale * d 1) ∧
    0 < a.invSin ∧ (a.incl = 0 → a.scale * a.invSin = a.scale) := by
  have h1 : 0 < 1 - a.incl ^ 2 := by
    have := (sq_lt_one_iff_abs_lt_one a.incl).2 hincl
    linarith
  have hs : 0 < Real.sqrt (1 - a.incl ^ 2) := Real.sqrt_pos.2 h1
  have hsq : Real.sqrt (1 - a.incl ^ 2) ^ 2 = 1 - a.incl ^ 2 := Real.sq_sqrt h1.le
  refine ⟨⟨![d 0 * Real.sqrt (1 - a.incl ^ 2), a.incl, d 1 * Real.sqrt (1 - a.incl ^ 2)], ?_, rfl, ?_, ?_⟩, ?_, ?_⟩
  · show (d 0 * Real.sqrt (1 - a.incl ^ 2)) ^ 2 + a.incl ^ 2 + (d 1 * Real.sqrt (1 - a.incl ^ 2)) ^ 2 = 1
    rw [mul_pow, mul_pow, hsq]
    linear_combination (1 - a.incl ^ 2) * hd
  · show a.scale * a.invSin * (d 0 * Real.sqrt (1 - a.incl ^ 2)) = _
    unfold RaymarchArgs.invSin; field_simp
  · show a.scale * a.invSin * (d 1 * Real.sqrt (1 - a.incl ^ 2)) = _
    unfold RaymarchArgs.invSin; field_simp
  · unfold RaymarchArgs.invSin; positivity
  · intro h0; simp [RaymarchArgs.invSin, h0]

/-! ### The boundary -/

/-- Where the boundary intensity enters: a ray that is not marched returns it, with no optical depth; a ray that is
marched starts from it if the segment starts outside the grid (within 1e-4), and always if `LAST_CASCADE_TO_INFTY` is set. In each
case only when the boundary is to be sampled, the ray goes up, and there is a wavelength. -/
theorem C78_boundary (a : RaymarchArgs dim) (hg : GoodSeg a) :
    (ddaStart a.env a.seg = none → ∀ fuel, raymarch a fuel =
      some ⟨if a.sampleBc = true ∧ 0 < a.up ∧ a.la ≠ -1 then a.bc else 0, 0, 0⟩) ∧
    ((ddaStart a.env a.seg).isSome → startI a true =
      if a.sampleBc = true ∧ (a.toInfty = true ∨ ¬ Inner a a.seg.t0) ∧ 0 < a.up ∧ a.la ≠ -1 then a.bc else 0) := by
  constructor
  · intro hn fuel
    unfold raymarch
    rw [hn]
    simp only [Option.some.injEq, Interval.mk.injEq, and_true]
    unfold startI
    cases a.sampleBc <;> cases a.toInfty <;> simp
  · intro hsome
    obtain ⟨⟨r, s⟩, hs⟩ := Option.isSome_iff_exists.1 hsome
    obtain ⟨c, b, hc, -, -⟩ := ddaStart_some a.env a.seg r s hs
    have hseg := C38_segment_partial (dim_pos dim).1 a.seg { min := fun _ => 0, max := a.env.max } (1 / 10000) hg.zero
    rw [hc] at hseg
    have hflag : startClipped a = true ↔ ¬ Inner a a.seg.t0 := by
      unfold startClipped
      rw [hc]
      simp only
      rw [hseg.2.2.2]
      unfold innerBox Inner
      simp only [Int.cast_zero, zero_add]
    unfold startI
    by_cases hi : Inner a a.seg.t0
    · have hf : startClipped a = false := by
        rw [← Bool.not_eq_true, hflag]; exact not_not.2 hi
      rw [hf]
      cases a.sampleBc <;> cases a.toInfty <;> simp [hi]
    · have hf : startClipped a = true := hflag.2 hi
      rw [hf]
      cases a.sampleBc <;> cases a.toInfty <;> simp [hi]

/-! ### The approximate operator -/

/-- The operator element of a marched ray: with `v` the last visited interval that holds data, it is the factor with
which the emissivity of `v` enters the intensity (the rest of the intensity is what the steps before `v` made of it,
attenuated by `v`). It is 0 if no interval holds data. -/
theorem C78_alo (a : RaymarchArgs dim) (hchi : ∀ m c, 0 ≤ a.chi m c) (hk : 0 ≤ a.scale * a.invSin) (r : DdaRay dim) (s : Dda dim)
    (hs : ddaStart a.env a.seg = some (r, s)) (fuel : ℕ) (res : Interval) (h : raymarch a fuel = some res) :
    (∀ before v after, visits a.env r fuel s = before ++ v :: after → 0 ≤ v.mip → (∀ w ∈ after, ¬ 0 ≤ w.mip) →
      res.psiStar = (1 - Real.exp (-(a.scale * a.invSin * (a.chi v.mip v.coord + 1e-15) * v.dt))) / (a.chi v.mip v.coord + 1e-15) ∧
      res.I = (march a.extraSafe a.scale a.invSin (startI a true) (before.map a.stepOf)).I *
          Real.exp (-(a.scale * a.invSin * (a.chi v.mip v.coord + 1e-15) * v.dt)) + res.psiStar * a.eta v.mip v.coord) ∧
    ((∀ v ∈ visits a.env r fuel s, ¬ 0 ≤ v.mip) → res.psiStar = 0) := by
  obtain ⟨hres, -⟩ := raymarch_some a fuel res r s hs h
  obtain ⟨hI, -⟩ := raymarch_I a fuel res r s hs h
  obtain ⟨c, b, hc, hr, hi⟩ := ddaStart_some a.env a.seg r s hs
  have hdt := C39_nonneg a.env r s hi fuel
  have hcu : ∀ m c, chiUsed a.extraSafe (a.chi m c) = a.chi m c + 1e-15 := by
    intro m c
    have := hchi m c
    unfold chiUsed
    have hn : ¬ |a.chi m c + 1e-15| < 1e-15 := by rw [abs_of_nonneg (by norm_num; linarith)]; push Not; linarith
    simp [hn]
  constructor
  · intro before v after hl hm haft
    have hfilt : after.filter (fun v => decide (0 ≤ v.mip)) = [] := by
      rw [List.filter_eq_nil_iff]; intro w hw; simpa using haft w hw
    have hls : ∃ pre, loopStates (visits a.env r fuel s) = pre ++ [v] := by
      rw [hl]
      cases before with
      | nil => exact ⟨[], by simp [loopStates, hfilt]⟩
      | cons b0 bs => exact ⟨b0 :: bs.filter (fun v => decide (0 ≤ v.mip)), by simp [loopStates, hfilt, hm]⟩
    obtain ⟨pre, hpre⟩ := hls
    have hpos : 0 < a.chi v.mip v.coord + 1e-15 := by have := hchi v.mip v.coord; norm_num; linarith
    have hv0 : 0 ≤ v.dt := hdt v (by rw [hl]; simp)
    have hstep : ∀ w : MarchVars, marchStep a.extraSafe a.scale a.invSin w (a.stepOf v) =
        ⟨w.I * Real.exp (-(a.scale * a.invSin * (a.chi v.mip v.coord + 1e-15) * v.dt)) + a.eta v.mip v.coord / (a.chi v.mip v.coord + 1e-15) *
            (1 - Real.exp (-(a.scale * a.invSin * (a.chi v.mip v.coord + 1e-15) * v.dt))),
          w.tau + a.scale * a.invSin * (a.chi v.mip v.coord + 1e-15) * v.dt, a.chi v.mip v.coord + 1e-15,
          1 - Real.exp (-(a.scale * a.invSin * (a.chi v.mip v.coord + 1e-15) * v.dt))⟩ := by
      intro w
      have e1 : (a.chi v.mip v.coord + 1e-15) * v.dt * a.scale * a.invSin = a.scale * a.invSin * (a.chi v.mip v.coord + 1e-15) * v.dt := by ring
      simp only [marchStep, RaymarchArgs.stepOf, hm, decide_true, if_true, hcu, e1, neg_sub]
    have hpsi : res.psiStar = (1 - Real.exp (-(a.scale * a.invSin * (a.chi v.mip v.coord + 1e-15) * v.dt))) / (a.chi v.mip v.coord + 1e-15) := by
      rw [hres, hpre, List.map_append, List.map_cons, List.map_nil]
      simp only [marchInterval, march_append, List.foldl_cons, List.foldl_nil, hstep]
      refine max_eq_left (div_nonneg ?_ hpos.le)
      rw [sub_nonneg, Real.exp_le_one_iff]
      have := mul_nonneg (mul_nonneg hk hpos.le) hv0
      linarith
    refine ⟨hpsi, ?_⟩
    rw [hpsi, hI, hl, List.map_append, List.map_cons, march_append, List.foldl_cons]
    have hzero : ∀ (l : List (Dda dim)) (w : MarchVars), (∀ x ∈ l, ¬ 0 ≤ x.mip) →
        ((l.map a.stepOf).foldl (marchStep a.extraSafe a.scale a.invSin) w).I = w.I := by
      intro l
      induction l with
      | nil => intro w _; rfl
      | cons x l ih =>
        intro w hx
        rw [List.map_cons, List.foldl_cons, ih _ (fun y hy => hx y (by simp [hy]))]
        simp [marchStep, RaymarchArgs.stepOf, hx x (by simp)]
    rw [hzero after _ haft, hstep]
    field_simp
  · intro hno
    have : loopStates (visits a.env r fuel s) = [s] := by
      obtain ⟨l, hl⟩ := visits_head a.env r fuel s
      rw [hl] at hno ⊢
      have : l.filter (fun v => decide (0 ≤ v.mip)) = [] := by
        rw [List.filter_eq_nil_iff]; intro w hw; simpa using hno w (by simp [hw])
      simp [loopStates, this]
    have hsm : ¬ 0 ≤ s.mip := by
      obtain ⟨l, hl⟩ := visits_head a.env r fuel s
      exact hno s (by rw [hl]; simp)
    rw [hres, this]
    simp [marchInterval, march, marchStep, RaymarchArgs.stepOf, hsm]

end DexRT
