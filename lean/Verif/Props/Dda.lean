import Verif.Lemmas.DdaUniform
/-!
C39: the grid traversal visits contiguous intervals that cover the ray.
-/
namespace DexRT
open Classical

variable {dim : DdaDim}

/-- The cell in which `init` looks for data. -/
noncomputable def startCell (r : DdaRay dim) : Fin dim.n → ℤ := fun i => ⌊r.pt (0 + 1e-6) i⌋

/-- A start that `init` handles well: the start cell holds data or is outside the grid, or it is in an empty block
and the ray does not leave that block within 1e-6. -/
def GoodStart (e : DdaEnv dim) (r : DdaRay dim) : Prop :=
  0 ≤ e.sampleLevel (startCell r) ∨ ¬ e.inBounds (startCell r) ∨
    ((∀ c, e.sampleLevel (fun i => maskCoord (c i) e.block) < 0 ↔ e.sampleLevel c < 0) ∧
      ¬ (computeAxisDt r (initState e r)).dt < 1e-6)

theorem goodStart_inv (e : DdaEnv dim) (r : DdaRay dim) (s : Dda dim) (hb : 1 ≤ e.block) (hg : GoodStart e r)
    (h : ddaInit e r = some s) : DdaInv r s := by
  refine ddaInit_inv e r s hb h ?_
  have hsz : (initState e r).size = if e.inBounds (startCell r) ∧ e.sampleLevel (startCell r) < 0 then e.block else 1 := rfl
  have hco : (initState e r).coord = fun i => maskCoord (startCell r i) (initState e r).size := rfl
  by_cases hc : e.inBounds (startCell r) ∧ e.sampleLevel (startCell r) < 0
  · rw [if_pos hc] at hsz
    rcases hg with hg | hg | ⟨h1, h2⟩
    · omega
    · exact absurd hc.1 hg
    · refine Or.inr ⟨hsz, ?_, ?_, h2⟩
      · rw [hco, hsz]; exact (h1 _).2 hc.2
      · rw [hco, hsz]
        intro i
        obtain ⟨a, b⟩ := maskCoord_bounds (startCell r i) e.block hb
        have := hc.1 i
        refine ⟨?_, lt_of_le_of_lt a this.2⟩
        show 0 ≤ startCell r i / e.block * e.block
        exact Int.mul_nonneg (Int.ediv_nonneg this.1 (by omega)) (by omega)
  · rw [if_neg hc] at hsz
    exact Or.inl hsz

/-- Step lengths are never negative, for every ray, level pattern and start. -/
theorem C39_nonneg (e : DdaEnv dim) (r : DdaRay dim) (s : Dda dim) (h : ddaInit e r = some s) (fuel : ℕ) :
    ∀ v ∈ visits e r fuel s, 0 ≤ v.dt := by
  refine visits_dt e r fuel s ?_
  unfold ddaInit at h
  split at h
  · simp at h
  · obtain ⟨w, _, hs⟩ := Option.map_eq_some_iff.1 h
    rw [← hs]
    exact computeAxisDt_dt r _

/-- From a good start each step begins where the last ended, except that 1e-3 is passed over whenever the next cell
is not at the level being marched (0.011 when it is in an empty region entered from a finer one); no step goes past
the end of the ray. In two and three dimensions, for every ray, level pattern and number of steps. -/
theorem C39_contiguous_partial (e : DdaEnv dim) (r : DdaRay dim) (s : Dda dim) (hb : 1 ≤ e.block) (hg : GoodStart e r)
    (h : ddaInit e r = some s) (fuel : ℕ) :
    (visits e r fuel s).IsChain (fun a b => b.t = a.t + a.dt +
      (if e.sampleLevel (entered r a) = a.mip ∧ 0 ≤ e.sampleLevel (entered r a) then 0
       else if e.sampleLevel (entered r a) = -1 ∧ a.size ≠ e.block then 0.011 else 0.001)) ∧
    ∀ v ∈ visits e r fuel s, 0 ≤ v.t ∧ v.t + v.dt ≤ max v.t r.t1 := by
  have hi := goodStart_inv e r s hb hg h
  constructor
  · refine (visits_chain e r hb fuel s hi).imp ?_
    intro a b hab
    rw [hab]
    unfold gapAfter
    simp only
    congr 1
    split_ifs <;> norm_num
  · intro v hv
    have hv' := (visits_inv e r hb fuel s hi v hv).1
    refine ⟨hv'.t0, ?_⟩
    rw [hv'.dteq]
    have : (if r.t1 < v.nextHit v.axis then r.t1 else v.nextHit v.axis) ≤ r.t1 := by
      split
      · exact le_rfl
      · rename_i h; exact not_lt.1 h
    rcases max_cases ((if r.t1 < v.nextHit v.axis then r.t1 else v.nextHit v.axis) - v.t) 0 with ⟨hx, _⟩ | ⟨hx, _⟩ <;> rw [hx]
    · exact le_trans (by linarith) (le_max_right _ _)
    · rw [add_zero]; exact le_max_left _ _

/-- The traversal stops: after finitely many steps nothing more is visited. -/
theorem C39_terminates (e : DdaEnv dim) (r : DdaRay dim) (s : Dda dim) (hb : 1 ≤ e.block) (hg : GoodStart e r)
    (ht1 : r.t1 ≤ 1e24) (h : ddaInit e r = some s) :
    ∃ N, (∀ fuel, N ≤ fuel → visits e r fuel s = visits e r N s) ∧
      ∃ last, (visits e r N s).getLast? = some last ∧ advance e r last = none := by
  obtain ⟨N, last, h1, h2, h3⟩ := visits_terminate e r hb ht1 s (goodStart_inv e r s hb hg h)
  exact ⟨N, h3, last, h1, h2⟩

/-- When it has stopped, every point of the ray from the first state to the end is in a visited interval or less
than 0.011 (inclusive) behind the end of one after which the level changed. -/
theorem C39_cover_partial (e : DdaEnv dim) (r : DdaRay dim) (s : Dda dim) (hb : 1 ≤ e.block) (hg : GoodStart e r)
    (h : ddaInit e r = some s) (N : ℕ) (last : Dda dim) (hl : (visits e r N s).getLast? = some last)
    (hn : advance e r last = none) (τ : ℝ) (h0 : s.t ≤ τ) (h1 : τ ≤ r.t1) :
    ∃ v ∈ visits e r N s, v.t ≤ τ ∧
      (τ ≤ v.t + v.dt ∨
        (τ ≤ v.t + v.dt + 0.011 ∧ ¬ (e.sampleLevel (entered r v) = v.mip ∧ 0 ≤ v.mip))) := by
  obtain ⟨v, hv, hv1, hv2, _⟩ := visits_cover e r hb N s (goodStart_inv e r s hb hg h) last hl hn τ h0 h1
  refine ⟨v, hv, hv1, ?_⟩
  by_cases hm : e.sampleLevel (entered r v) = v.mip ∧ 0 ≤ v.mip
  · left
    have : gapAfter e r v = 0 := by
      unfold gapAfter
      simp only
      rw [if_pos ⟨hm.1, by rw [hm.1]; exact hm.2⟩]
    linarith
  · right
    refine ⟨le_trans hv2 ?_, hm⟩
    have : gapAfter e r v ≤ 0.011 := by
      unfold gapAfter; simp only; split_ifs <;> norm_num
    linarith

/-- In a grid where every cell is at the same level nothing is passed over, for every ray inside the grid: the
visited intervals cover the ray, each starts exactly where the last ended, and no cell outside the grid is visited. -/
theorem C39_uniform (e : DdaEnv dim) (r : DdaRay dim) (s : Dda dim) (hb : 1 ≤ e.block) (ht1 : r.t1 ≤ 1e24)
    (hin : ∀ τ, 0 ≤ τ → τ ≤ r.t1 → ∀ i, 0 < r.pt τ i ∧ r.pt τ i < e.max i)
    (m : ℤ) (hm : 0 ≤ m) (hlvl : ∀ c, e.inBounds c → e.sampleLevel c = m) (h : ddaInit e r = some s) (N : ℕ) :
    (visits e r N s).IsChain (fun a b => b.t = a.t + a.dt) ∧
    (∀ v ∈ visits e r N s, v.mip = m ∧ e.inBounds v.coord) ∧
    ∀ last, (visits e r N s).getLast? = some last → advance e r last = none →
      ∀ τ, s.t ≤ τ → τ ≤ r.t1 → ∃ v ∈ visits e r N s, v.t ≤ τ ∧ τ ≤ v.t + v.dt := by
  have hu := uni_start hb hm hlvl s h
  obtain ⟨hall, hch⟩ := visits_uni hb ht1 hin hm hlvl N s hu
  refine ⟨hch, fun v hv => ⟨(hall v hv).mip, (hall v hv).inb⟩, ?_⟩
  intro last hl hn τ h0 h1
  obtain ⟨v, hv, hv1, hv2, hv3⟩ := visits_cover e r hb N s hu.inv last hl hn τ h0 h1
  refine ⟨v, hv, hv1, ?_⟩
  cases ha : advance e r v with
  | none => exact hv3 ha
  | some w =>
    obtain ⟨-, -, hg, -, -⟩ := (hall v hv).next hb ht1 hin hm hlvl ha
    rw [hg, add_zero] at hv2
    exact hv2

/-- From a good start in its own cell, as long as no two faces are reached at the same moment, the whole of each
step lies in the cell that the traversal reports for it. -/
theorem C39_cell_partial (e : DdaEnv dim) (r : DdaRay dim) (s : Dda dim) (hb : 1 ≤ e.block) (hg : GoodStart e r)
    (ht1 : r.t1 ≤ 1e24) (h : ddaInit e r = some s) (hc : InCell r s s.t) (fuel : ℕ)
    (hn : ∀ v ∈ visits e r fuel s, NoTie r v) :
    ∀ v ∈ visits e r fuel s, ∀ τ, v.t ≤ τ → τ ≤ v.t + v.dt → InCell r v τ := by
  have hi := goodStart_inv e r s hb hg h
  have hx : DdaExact r s := by
    unfold ddaInit at h
    split at h
    · simp at h
    · obtain ⟨w, hw, hs⟩ := Option.map_eq_some_iff.1 h
      obtain ⟨hf0, hp0⟩ := initState_faces e r hb
      obtain ⟨hwi, _⟩ := walkIn_spec e r 32 _ w (computeAxisDt_inv r _ hp0) hf0 hw
      have hns : NoTie r s := hn s (by obtain ⟨l, hl⟩ := visits_head e r fuel s; rw [hl]; simp)
      have heq : updateMip e r true w = computeAxisDt r
        { w with
          mip := e.sampleLevel w.coord,
          size := e.stepSize (e.sampleLevel w.coord),
          coord := fun i => maskCoord (w.coord i) (e.stepSize (e.sampleLevel w.coord)),
          nextHit := hitsFrom r w.t (fun i => maskCoord (w.coord i) (e.stepSize (e.sampleLevel w.coord)))
            (e.stepSize (e.sampleLevel w.coord)) w.nextHit } := rfl
      rw [← hs] at hns hc ⊢
      rw [heq] at hns hc ⊢
      refine computeAxisDt_exact r _ ht1 ⟨hwi.t0, fun i => ?_, fun i hi' => ?_, stepSize_pos e hb _⟩ ?_ hc hns
      · simp only [hitsFrom_eq]
        split
        · exact hwi.nh i
        · rename_i h0
          have h1 := hns i h0
          have h2 := hwi.t0
          have h3 : w.t < exitTime r (fun i => maskCoord (w.coord i) (e.stepSize (e.sampleLevel w.coord)))
            (e.stepSize (e.sampleLevel w.coord)) i := h1
          linarith
      · simp only [hitsFrom_eq, hi', if_true]
        exact hwi.still i hi'
      · intro i h0
        simp only [hitsFrom_eq, h0, if_false]
  intro v hv τ h0 h1
  exact (visits_exact e r hb ht1 fuel s hi hx hn v hv).segment τ h0 h1

/-- When levels are constant on the cells of each level (they are constant on blocks), each state marches at the
level, capped as requested, of the cell it reports, with that level's step. -/
theorem C39_level (e : DdaEnv dim) (r : DdaRay dim) (s : Dda dim)
    (hblk : ∀ c m, (m < 0 ∨ m ≤ e.maxMip) → e.lvl (fun i => maskCoord (c i) (e.stepSize m)) = e.lvl c)
    (h : ddaInit e r = some s) (fuel : ℕ) :
    ∀ v ∈ visits e r fuel s, v.mip = min (e.lvl v.coord) e.maxMip ∧ v.size = (if v.mip < 0 then e.block else 2 ^ v.mip.toNat) := by
  refine visits_level e r hblk fuel s ?_
  unfold ddaInit at h
  split at h
  · simp at h
  · obtain ⟨w, _, hs⟩ := Option.map_eq_some_iff.1 h
    rw [← hs]
    exact updateMip_level e r true w hblk

/-! ### Concrete rays -/

/-- A 2D state whose hits are explicit. -/
theorem compute2 (r : DdaRay .two) (ax : Fin 2) (mip : ℤ) (t dt : ℝ) (size : ℤ) (c : Fin 2 → ℤ) (a b : ℝ) :
    computeAxisDt r ⟨ax, mip, t, dt, size, c, ![a, b]⟩ =
      if b < a then
        (if b ≤ t then ⟨1, mip, t, max (if r.t1 < t + 1e-6 * (b + 1) then r.t1 - t else t + 1e-6 * (b + 1) - t) 0, size, c, ![a, t + 1e-6 * (b + 1)]⟩
         else ⟨1, mip, t, max (if r.t1 < b then r.t1 - t else b - t) 0, size, c, ![a, b]⟩)
      else
        (if a ≤ t then ⟨0, mip, t, max (if r.t1 < t + 1e-6 * (a + 1) then r.t1 - t else t + 1e-6 * (a + 1) - t) 0, size, c, ![t + 1e-6 * (a + 1), b]⟩
         else ⟨0, mip, t, max (if r.t1 < a then r.t1 - t else a - t) 0, size, c, ![a, b]⟩) := by
  have hp : pickAxis .two ![a, b] = if b < a then 1 else 0 := rfl
  have u0 : ∀ x, Function.update ![a, b] (0 : Fin 2) x = ![x, b] := by
    intro x; funext i; fin_cases i <;> simp [Function.update]
  have u1 : ∀ x, Function.update ![a, b] (1 : Fin 2) x = ![a, x] := by
    intro x; funext i; fin_cases i <;> simp [Function.update]
  unfold computeAxisDt
  simp only [hp]
  by_cases h : b < a
  · simp only [h, if_true]
    have e1 : (![a, b] : Fin 2 → ℝ) 1 = b := rfl
    simp only [e1, u1, pushHit_eq]
    by_cases h2 : b ≤ t
    · simp only [h2, if_true]; rfl
    · simp only [h2, if_false]; rfl
  · simp only [h, if_false]
    have e1 : (![a, b] : Fin 2 → ℝ) 0 = a := rfl
    simp only [e1, u0, pushHit_eq]
    by_cases h2 : a ≤ t
    · simp only [h2, if_true]; rfl
    · simp only [h2, if_false]; rfl

theorem next2_0 (r : DdaRay .two) (mip : ℤ) (t dt : ℝ) (size c d : ℤ) (a b : ℝ) :
    nextIntersection r ⟨(0 : Fin 2), mip, t, dt, size, ![c, d], ![a, b]⟩ =
      computeAxisDt r ⟨(0 : Fin 2), mip, a, dt, size, ![c + size * r.stepDir (0 : Fin 2), d], ![a + (size : ℝ) * r.deltaOf (0 : Fin 2), b]⟩ := by
  have u0 : ∀ (α : Type) (x y z : α), Function.update ![x, y] (0 : Fin 2) z = ![z, y] := by
    intro α x y z; funext i; fin_cases i <;> simp [Function.update]
  have e : nextIntersection r ⟨(0 : Fin 2), mip, t, dt, size, ![c, d], ![a, b]⟩ =
    computeAxisDt r ⟨(0 : Fin 2), mip, a, dt, size, Function.update ![c, d] (0 : Fin 2) (c + size * r.stepDir (0 : Fin 2)),
      Function.update ![a, b] (0 : Fin 2) (a + (size : ℝ) * r.deltaOf (0 : Fin 2))⟩ := rfl
  rw [e, u0, u0]

theorem next2_1 (r : DdaRay .two) (mip : ℤ) (t dt : ℝ) (size c d : ℤ) (a b : ℝ) :
    nextIntersection r ⟨(1 : Fin 2), mip, t, dt, size, ![c, d], ![a, b]⟩ =
      computeAxisDt r ⟨(1 : Fin 2), mip, b, dt, size, ![c, d + size * r.stepDir (1 : Fin 2)], ![a, b + (size : ℝ) * r.deltaOf (1 : Fin 2)]⟩ := by
  have u1 : ∀ (α : Type) (x y z : α), Function.update ![x, y] (1 : Fin 2) z = ![x, z] := by
    intro α x y z; funext i; fin_cases i <;> simp [Function.update]
  have e : nextIntersection r ⟨(1 : Fin 2), mip, t, dt, size, ![c, d], ![a, b]⟩ =
    computeAxisDt r ⟨(1 : Fin 2), mip, b, dt, size, Function.update ![c, d] (1 : Fin 2) (d + size * r.stepDir (1 : Fin 2)),
      Function.update ![a, b] (1 : Fin 2) (b + (size : ℝ) * r.deltaOf (1 : Fin 2))⟩ := rfl
  rw [e, u1, u1]

/-- A grid of 64 x 64 cells in blocks of 16: level 0 for x < 16, level 1 beyond. -/
def twoLevels : DdaEnv .two := { lvl := fun c => if c 0 < 0 ∨ 64 ≤ c 0 ∨ c 1 < 0 ∨ 64 ≤ c 1 then -1 else if c 0 < 16 then 0 else 1, maxMip := 1, block := 16, max := ![64, 64] }

/-- A ray along x that crosses from the fine to the coarse half at parameter 0.5. -/
noncomputable def rayX : DdaRay .two := { o := ![15.5, 8.5], d := ![1, 0], t1 := 10 }

/-- The state after `init` for `rayX` in a grid whose level at (15, 8) is 0. -/
noncomputable def rayXStart : Dda .two := ⟨0, 0, 0, 0.5, 1, ![15, 8], ![0.5, 1e24]⟩

theorem rayX_init_of (e : DdaEnv .two) (hl : e.sampleLevel ![15, 8] = 0) (hin : e.inBounds ![15, 8]) :
    ddaInit e rayX = some rayXStart := by
  have hc0 : (fun i => ⌊rayX.pt (0 + 1e-6) i⌋) = ![15, 8] := by
    funext i
    fin_cases i
    · show ⌊rayX.pt (0 + 1e-6) 0⌋ = 15
      rw [Int.floor_eq_iff]; simp [DdaRay.pt, rayX]; norm_num
    · show ⌊rayX.pt (0 + 1e-6) 1⌋ = 8
      rw [Int.floor_eq_iff]; simp [DdaRay.pt, rayX]; norm_num
  have hi : initState e rayX = ⟨0, 0, 0, 0, 1, ![15, 8], ![0.499999, 1e24]⟩ := by
    have hnh : (initState e rayX).nextHit = ![0.499999, 1e24] := by
      funext i
      have hsz : (initState e rayX).size = 1 := by
        simp only [initState, hc0, hl]; simp
      have hco : (initState e rayX).coord = ![15, 8] := by
        show (fun i => maskCoord ((fun i => ⌊rayX.pt (0 + 1e-6) i⌋) i) (initState e rayX).size) = _
        rw [hc0, hsz]; funext i; exact mask_one _
      show (if rayX.d i = 0 then (1e24 : ℝ) else if 0 < 1 / rayX.d i then 0 + (((initState e rayX).coord i : ℝ) + ((initState e rayX).size : ℝ) - rayX.pt (0 + 1e-6) i) * (1 / rayX.d i)
          else 0 + (((initState e rayX).coord i : ℝ) - rayX.pt (0 + 1e-6) i) * (1 / rayX.d i)) = _
      rw [hco, hsz]
      fin_cases i <;> simp [rayX, DdaRay.pt] <;> norm_num
    have hsz : (initState e rayX).size = 1 := by
      simp only [initState, hc0, hl]; simp
    have hco : (initState e rayX).coord = ![15, 8] := by
      show (fun i => maskCoord ((fun i => ⌊rayX.pt (0 + 1e-6) i⌋) i) (initState e rayX).size) = _
      rw [hc0, hsz]; funext i; exact mask_one _
    have hax : (initState e rayX).axis = 0 := by
      show pickAxis .two (initState e rayX).nextHit = 0
      rw [hnh]
      show (if (1e24 : ℝ) < 0.499999 then (1 : Fin 2) else 0) = 0
      rw [if_neg (by norm_num)]
    have : initState e rayX = ⟨(initState e rayX).axis, 0, 0, 0, (initState e rayX).size,
      (initState e rayX).coord, (initState e rayX).nextHit⟩ := rfl
    rw [this, hax, hsz, hco, hnh]
  have ht1 : rayX.t1 = 10 := rfl
  have hc : computeAxisDt rayX (initState e rayX) = ⟨0, 0, 0, 0.499999, 1, ![15, 8], ![0.499999, 1e24]⟩ := by
    rw [hi, compute2, ht1]
    norm_num
  unfold ddaInit
  rw [if_neg (by rw [ht1]; norm_num), hc]
  have hw : walkIn e rayX 32 ⟨0, 0, 0, 0.499999, 1, ![15, 8], ![0.499999, 1e24]⟩ =
      some ⟨0, 0, 0, 0.499999, 1, ![15, 8], ![0.499999, 1e24]⟩ := by
    unfold walkIn
    rw [if_neg]
    push Not
    exact ⟨hin, fun _ => by norm_num⟩
  rw [hw]
  simp only [Option.map_some]
  congr 1
  have hst : e.stepSize 0 = 1 := by simp [DdaEnv.stepSize]
  have hh : hitsFrom rayX 0 ![15, 8] 1 ![0.499999, 1e24] = ![0.5, 1e24] := by
    funext i
    rw [hitsFrom_eq]
    fin_cases i <;> simp [rayX, exitTime] <;> norm_num
  have hup : updateMip e rayX true ⟨0, 0, 0, 0.499999, 1, ![15, 8], ![0.499999, 1e24]⟩ =
      computeAxisDt rayX ⟨0, e.sampleLevel ![15, 8], 0, 0.499999, e.stepSize (e.sampleLevel ![15, 8]),
        fun i => maskCoord (![15, 8] i) (e.stepSize (e.sampleLevel ![15, 8])),
        hitsFrom rayX 0 (fun i => maskCoord (![15, 8] i) (e.stepSize (e.sampleLevel ![15, 8])))
          (e.stepSize (e.sampleLevel ![15, 8])) ![0.499999, 1e24]⟩ := rfl
  rw [hup, hl, hst]
  simp only [mask_one]
  rw [hh, compute2, ht1]
  unfold rayXStart
  norm_num

theorem rayX_init : ddaInit twoLevels rayX = some rayXStart :=
  rayX_init_of twoLevels (by simp [DdaEnv.sampleLevel, twoLevels]) (by intro i; fin_cases i <;> simp [twoLevels])

theorem rayX_startCell : startCell rayX = ![15, 8] := by
  funext i
  fin_cases i
  · show ⌊rayX.pt (0 + 1e-6) 0⌋ = 15
    rw [Int.floor_eq_iff]; simp [DdaRay.pt, rayX]; norm_num
  · show ⌊rayX.pt (0 + 1e-6) 1⌋ = 8
    rw [Int.floor_eq_iff]; simp [DdaRay.pt, rayX]; norm_num

theorem rayX_entered : twoLevels.sampleLevel (entered rayX rayXStart) = 1 := by
  have h0 : entered rayX rayXStart 0 = 16 := by simp [entered, rayXStart, rayX, DdaRay.stepDir]
  have h1 : entered rayX rayXStart 1 = 8 := by simp [entered, rayXStart, rayX, DdaRay.stepDir]
  simp only [DdaEnv.sampleLevel, twoLevels]
  rw [h0, h1]; norm_num

/-- Non-vacuity: the two-level grid and the ray meet the hypotheses of the theorems above. -/
example : GoodStart twoLevels rayX ∧ 1 ≤ twoLevels.block ∧ rayX.t1 ≤ 1e24 ∧ (ddaInit twoLevels rayX).isSome ∧
    InCell rayX rayXStart rayXStart.t := by
  refine ⟨Or.inl ?_, by decide, ?_, by rw [rayX_init]; rfl, ?_⟩
  · rw [rayX_startCell]; simp [DdaEnv.sampleLevel, twoLevels]
  · show (10 : ℝ) ≤ 1e24; norm_num
  · intro i
    fin_cases i <;> simp [rayXStart, rayX, DdaRay.pt] <;> norm_num

/-- Non-vacuity of `C39_cell_partial`: no ties in the first two states of that traversal, across the change of
level. -/
example : ∀ v ∈ visits twoLevels rayX 1 rayXStart, NoTie rayX v := by
  have h1 : advance twoLevels rayX rayXStart = some (updateMip twoLevels rayX false (nudge twoLevels 1 (nextIntersection rayX rayXStart))) := by
    have hm := rayX_entered
    rw [advance_eq, hm, if_pos (by show (0.5 : ℝ) < 10; norm_num), if_neg (by simp [rayXStart])]
  intro v hv
  simp only [visits, h1, List.mem_cons, List.not_mem_nil, or_false] at hv
  rcases hv with rfl | rfl
  · intro i h0
    fin_cases i
    · simp [rayXStart, rayX, exitTime]; norm_num
    · simp [rayX] at h0
  · intro i h0
    fin_cases i
    · have ht : (nudge twoLevels 1 (nextIntersection rayX rayXStart)).t + 1e-3 = 0.501 := by
        have : nudge twoLevels 1 (nextIntersection rayX rayXStart) = nextIntersection rayX rayXStart := by
          unfold nudge; simp
        rw [this]
        show (0.5 : ℝ) + 1e-3 = 0.501
        norm_num
      have hf : ⌊rayX.pt 0.501 0⌋ = 16 := by
        rw [Int.floor_eq_iff]; simp [DdaRay.pt, rayX]; norm_num
      have hl : twoLevels.sampleLevel (fun i => ⌊rayX.pt 0.501 i⌋) = 1 := by
        have hf1 : ⌊rayX.pt 0.501 1⌋ = 8 := by
          rw [Int.floor_eq_iff]; simp [DdaRay.pt, rayX]; norm_num
        simp only [DdaEnv.sampleLevel, twoLevels, hf, hf1]; norm_num
      show (nudge twoLevels 1 (nextIntersection rayX rayXStart)).t + 1e-3 < exitTime rayX
        (fun i => maskCoord ⌊rayX.pt ((nudge twoLevels 1 (nextIntersection rayX rayXStart)).t + 1e-3) i⌋
          (twoLevels.stepSize (twoLevels.sampleLevel fun i => ⌊rayX.pt ((nudge twoLevels 1 (nextIntersection rayX rayXStart)).t + 1e-3) i⌋)))
        (twoLevels.stepSize (twoLevels.sampleLevel fun i => ⌊rayX.pt ((nudge twoLevels 1 (nextIntersection rayX rayXStart)).t + 1e-3) i⌋)) 0
      rw [ht, hl]
      unfold exitTime
      simp only [hf]
      simp [DdaEnv.stepSize, maskCoord, rayX]
      norm_num
    · simp [rayX] at h0

/-- Non-vacuity of `C39_level`: levels constant on blocks meet its hypothesis. -/
example : ∀ c m, (m < 0 ∨ m ≤ twoLevels.maxMip) →
    twoLevels.lvl (fun i => maskCoord (c i) (twoLevels.stepSize m)) = twoLevels.lvl c := by
  intro c m hm
  have hs : twoLevels.stepSize m = 16 ∨ twoLevels.stepSize m = 1 ∨ twoLevels.stepSize m = 2 := by
    by_cases h : m < 0
    · left; simp [DdaEnv.stepSize, h, twoLevels]
    · have : m = 0 ∨ m = 1 := by
        rcases hm with hm | hm
        · exact absurd hm h
        · simp [twoLevels] at hm; omega
      rcases this with rfl | rfl <;> simp [DdaEnv.stepSize]
  have hkey : maskCoord (c 0) (twoLevels.stepSize m) < 16 ↔ c 0 < 16 := by
    unfold maskCoord
    rcases hs with h | h | h <;> rw [h] <;> omega
  have hkey2 : ∀ x : ℤ, (maskCoord x (twoLevels.stepSize m) < 0 ↔ x < 0) ∧ (64 ≤ maskCoord x (twoLevels.stepSize m) ↔ 64 ≤ x) := by
    intro x
    unfold maskCoord
    rcases hs with h | h | h <;> rw [h] <;> omega
  have hkey2a := fun x => (hkey2 x).1
  have hkey2b := fun x => (hkey2 x).2
  simp only [twoLevels] at hkey hkey2a hkey2b ⊢
  simp only [hkey, hkey2a, hkey2b]

/-- REFUTED in full, 1: at a change of level a piece of the ray is in no visited interval, although the grid holds
data on both sides. -/
theorem C39_gap_refuted :
    (∀ c, twoLevels.inBounds c → 0 ≤ twoLevels.sampleLevel c) ∧ ddaInit twoLevels rayX = some rayXStart ∧
    ∀ fuel, ∀ v ∈ visits twoLevels rayX fuel rayXStart, ¬ (v.t ≤ 0.5005 ∧ 0.5005 ≤ v.t + v.dt) := by
  refine ⟨fun c hc => ?_, rayX_init, ?_⟩
  · have h0 := hc 0
    have h1 := hc 1
    simp only [twoLevels, Matrix.cons_val_zero, Matrix.cons_val_one] at h0 h1
    simp only [DdaEnv.sampleLevel, twoLevels]
    rw [if_neg (by omega)]
    split <;> norm_num
  · have hg : GoodStart twoLevels rayX := Or.inl (by
      rw [rayX_startCell]; simp [DdaEnv.sampleLevel, twoLevels])
    have hi := goodStart_inv twoLevels rayX rayXStart (by decide) hg rayX_init
    have hfirst : ¬ (rayXStart.t ≤ 0.5005 ∧ 0.5005 ≤ rayXStart.t + rayXStart.dt) := by
      simp only [rayXStart]; norm_num
    intro fuel v hv
    cases fuel with
    | zero =>
      simp only [visits, List.mem_singleton] at hv
      subst hv; exact hfirst
    | succ f =>
      simp only [visits] at hv
      cases ha : advance twoLevels rayX rayXStart with
      | none =>
        rw [ha] at hv
        simp only [List.mem_singleton] at hv
        subst hv; exact hfirst
      | some s' =>
        rw [ha] at hv
        rcases List.mem_cons.1 hv with rfl | hv
        · exact hfirst
        · obtain ⟨h1, h2, _⟩ := advance_some twoLevels rayX rayXStart s' (by decide) hi ha
          have hv2 := (visits_inv twoLevels rayX (by decide) f s' h1 v hv).2
          have hm := rayX_entered
          have hgap : gapAfter twoLevels rayX rayXStart = 1e-3 := by
            unfold gapAfter
            simp only [hm]
            simp [rayXStart]
          have e1 : rayXStart.t + rayXStart.dt = 0.5 := by simp only [rayXStart]; norm_num
          rw [h2, e1, hgap] at hv2
          rintro ⟨hc, _⟩
          norm_num at hv2 hc
          linarith

/-! A ray that starts in an empty block, less than 1e-6 before a block that holds data. -/

/-- Blocks with z < 16 are empty, the others are at level 0. -/
def halfEmpty : DdaEnv .two := { lvl := fun c => if c 0 < 0 ∨ 64 ≤ c 0 ∨ c 1 < 0 ∨ 64 ≤ c 1 then -1 else if c 1 < 16 then -1 else 0, maxMip := 0, block := 16, max := ![64, 64] }

/-- The ray starts at (13.5, 16 - 1.5e-6) and goes up and right. -/
noncomputable def rayCorner : DdaRay .two := { o := ![13.5, 16 - 1.5e-6], d := ![0.6, 0.8], t1 := 10 }

/-- The state after `init`. -/
noncomputable def cornerStart : Dda .two :=
  ⟨0, 0, 8.75e-7, 0, 1, ![0, 16], ![8.75e-7 + 1e-6 * (-125 / 6 + 1), 1.250001875]⟩

theorem corner_init : ddaInit halfEmpty rayCorner = some cornerStart := by
  have hc0 : (fun i => ⌊rayCorner.pt (0 + 1e-6) i⌋) = ![13, 15] := by
    funext i
    fin_cases i
    · show ⌊rayCorner.pt (0 + 1e-6) 0⌋ = 13
      rw [Int.floor_eq_iff]; simp [DdaRay.pt, rayCorner]; norm_num
    · show ⌊rayCorner.pt (0 + 1e-6) 1⌋ = 15
      rw [Int.floor_eq_iff]; simp [DdaRay.pt, rayCorner]; norm_num
  have hl0 : halfEmpty.sampleLevel ![13, 15] = -1 := by simp [DdaEnv.sampleLevel, halfEmpty]
  have hin0 : halfEmpty.inBounds ![13, 15] := by intro i; fin_cases i <;> simp [halfEmpty]
  have ht1 : rayCorner.t1 = 10 := rfl
  have hsz : (initState halfEmpty rayCorner).size = 16 := by
    simp only [initState, hc0, hl0, hin0]; simp [halfEmpty]
  have hco : (initState halfEmpty rayCorner).coord = ![0, 0] := by
    show (fun i => maskCoord ((fun i => ⌊rayCorner.pt (0 + 1e-6) i⌋) i) (initState halfEmpty rayCorner).size) = _
    rw [hc0, hsz]; funext i; fin_cases i <;> simp [maskCoord]
  have hnh : (initState halfEmpty rayCorner).nextHit = ![(16 - 13.5 - 6e-7) / 0.6, 8.75e-7] := by
    funext i
    show (if rayCorner.d i = 0 then (1e24 : ℝ) else if 0 < 1 / rayCorner.d i then 0 + (((initState halfEmpty rayCorner).coord i : ℝ) + ((initState halfEmpty rayCorner).size : ℝ) - rayCorner.pt (0 + 1e-6) i) * (1 / rayCorner.d i)
        else 0 + (((initState halfEmpty rayCorner).coord i : ℝ) - rayCorner.pt (0 + 1e-6) i) * (1 / rayCorner.d i)) = _
    rw [hco, hsz]
    fin_cases i <;> simp [rayCorner, DdaRay.pt] <;> norm_num
  have hi : initState halfEmpty rayCorner = ⟨(initState halfEmpty rayCorner).axis, 0, 0, 0, 16, ![0, 0], ![(16 - 13.5 - 6e-7) / 0.6, 8.75e-7]⟩ := by
    have : initState halfEmpty rayCorner = ⟨(initState halfEmpty rayCorner).axis, 0, 0, 0, (initState halfEmpty rayCorner).size,
      (initState halfEmpty rayCorner).coord, (initState halfEmpty rayCorner).nextHit⟩ := rfl
    rw [hsz, hco, hnh] at this
    exact this
  have hc : computeAxisDt rayCorner (initState halfEmpty rayCorner) =
      ⟨1, 0, 0, 8.75e-7, 16, ![0, 0], ![(16 - 13.5 - 6e-7) / 0.6, 8.75e-7]⟩ := by
    rw [hi, compute2, ht1]
    norm_num
  have hn : nextIntersection rayCorner ⟨1, 0, 0, 8.75e-7, 16, ![0, 0], ![(16 - 13.5 - 6e-7) / 0.6, 8.75e-7]⟩ =
      ⟨0, 0, 8.75e-7, (16 - 13.5 - 6e-7) / 0.6 - 8.75e-7, 16, ![0, 16], ![(16 - 13.5 - 6e-7) / 0.6, 8.75e-7 + 20]⟩ := by
    have hs : rayCorner.stepDir (1 : Fin 2) = 1 := by simp [rayCorner, DdaRay.stepDir]; norm_num
    have hd : rayCorner.deltaOf (1 : Fin 2) = 1.25 := by simp [rayCorner, DdaRay.deltaOf]; norm_num
    rw [next2_1, hs, hd, compute2, ht1]
    norm_num
  have hin1 : halfEmpty.inBounds ![0, 16] := by intro i; fin_cases i <;> simp [halfEmpty]
  have hw : walkIn halfEmpty rayCorner 32 (computeAxisDt rayCorner (initState halfEmpty rayCorner)) =
      some ⟨0, 0, 8.75e-7, (16 - 13.5 - 6e-7) / 0.6 - 8.75e-7, 16, ![0, 16], ![(16 - 13.5 - 6e-7) / 0.6, 8.75e-7 + 20]⟩ := by
    rw [hc]
    unfold walkIn
    rw [if_pos]
    · simp only
      rw [hn]
      unfold walkIn
      rw [if_neg]
      push Not
      exact ⟨hin1, fun _ => by norm_num⟩
    · by_cases hb : halfEmpty.inBounds ![0, 0]
      · exact Or.inr ⟨hb, by norm_num⟩
      · exact Or.inl hb
  unfold ddaInit
  rw [if_neg (by rw [ht1]; norm_num), hw]
  simp only [Option.map_some]
  congr 1
  have hl1 : halfEmpty.sampleLevel ![0, 16] = 0 := by simp [DdaEnv.sampleLevel, halfEmpty]
  have hst : halfEmpty.stepSize 0 = 1 := by simp [DdaEnv.stepSize]
  have hh : ∀ old : Fin 2 → ℝ, hitsFrom rayCorner 8.75e-7 ![0, 16] 1 old = ![-125 / 6, 1.250001875] := by
    intro old
    funext i
    rw [hitsFrom_eq]
    fin_cases i <;> simp [rayCorner, exitTime] <;> norm_num
  have hup : updateMip halfEmpty rayCorner true ⟨0, 0, 8.75e-7, (16 - 13.5 - 6e-7) / 0.6 - 8.75e-7, 16, ![0, 16], ![(16 - 13.5 - 6e-7) / 0.6, 8.75e-7 + 20]⟩ =
      computeAxisDt rayCorner ⟨0, halfEmpty.sampleLevel ![0, 16], 8.75e-7, (16 - 13.5 - 6e-7) / 0.6 - 8.75e-7, halfEmpty.stepSize (halfEmpty.sampleLevel ![0, 16]),
        fun i => maskCoord (![0, 16] i) (halfEmpty.stepSize (halfEmpty.sampleLevel ![0, 16])),
        hitsFrom rayCorner 8.75e-7 (fun i => maskCoord (![0, 16] i) (halfEmpty.stepSize (halfEmpty.sampleLevel ![0, 16])))
          (halfEmpty.stepSize (halfEmpty.sampleLevel ![0, 16])) ![(16 - 13.5 - 6e-7) / 0.6, 8.75e-7 + 20]⟩ := rfl
  rw [hup, hl1, hst]
  simp only [mask_one]
  rw [hh, compute2, ht1]
  unfold cornerStart
  norm_num

/-- The second state of that traversal. -/
noncomputable def cornerNext : Dda .two :=
  ⟨1, 0, 8.75e-7 + 1e-6 * (-125 / 6 + 1), 1.250001875 - (8.75e-7 + 1e-6 * (-125 / 6 + 1)), 1, ![1, 16],
    ![8.75e-7 + 1e-6 * (-125 / 6 + 1) + 5 / 3, 1.250001875]⟩

theorem corner_next : advance halfEmpty rayCorner cornerStart = some cornerNext := by
  have ht1 : rayCorner.t1 = 10 := rfl
  have hn : nextIntersection rayCorner cornerStart = cornerNext := by
    have hs : rayCorner.stepDir (0 : Fin 2) = 1 := by simp [rayCorner, DdaRay.stepDir]; norm_num
    have hd : rayCorner.deltaOf (0 : Fin 2) = 5 / 3 := by simp [rayCorner, DdaRay.deltaOf]; norm_num
    unfold cornerStart
    rw [next2_0, hs, hd, compute2, ht1]
    unfold cornerNext
    norm_num
  have hlt : cornerStart.nextHit cornerStart.axis < rayCorner.t1 := by
    rw [ht1]
    show (8.75e-7 + 1e-6 * (-125 / 6 + 1) : ℝ) < 10
    norm_num
  have he : entered rayCorner cornerStart = ![1, 16] := by
    unfold entered cornerStart
    funext i; fin_cases i <;> simp [Function.update, rayCorner, DdaRay.stepDir]
    norm_num
  have hl : halfEmpty.sampleLevel ![1, 16] = 0 := by simp [DdaEnv.sampleLevel, halfEmpty]
  rw [advance_eq, if_pos hlt, he, hl, if_pos ⟨rfl, le_rfl⟩, hn]

/-- REFUTED in full, 2: a ray that starts in an empty block less than 1e-6 before a block with data is marched
through the wrong cells: the cell reported for a step longer than one cell is more than 11 cells away from the ray,
and that step starts before the first one (and before the start of the ray). The grid here is as regular as can be,
empty below z = 16 and full above. -/
theorem C39_walk_in_refuted :
    ddaInit halfEmpty rayCorner = some cornerStart ∧ cornerNext ∈ visits halfEmpty rayCorner 1 cornerStart ∧
      0 ≤ cornerNext.mip ∧ 1 < cornerNext.dt ∧ cornerNext.t < cornerStart.t ∧ cornerNext.t < 0 ∧
      ∀ τ, cornerNext.t ≤ τ → (cornerNext.coord 0 : ℝ) + cornerNext.size + 11 < rayCorner.pt τ 0 := by
  refine ⟨corner_init, ?_, le_rfl, ?_, ?_, ?_, ?_⟩
  · simp only [visits, corner_next]; simp
  · simp only [cornerNext]; norm_num
  · simp only [cornerNext, cornerStart]; norm_num
  · simp only [cornerNext]; norm_num
  · intro τ hτ
    simp only [cornerNext] at hτ ⊢
    simp [rayCorner, DdaRay.pt]
    norm_num at hτ ⊢
    linarith

/-! A ray through a corner of the cells. -/

/-- A uniform grid at level 0. -/
def flatGrid : DdaEnv .two := { lvl := fun c => if c 0 < 0 ∨ 64 ≤ c 0 ∨ c 1 < 0 ∨ 64 ≤ c 1 then -1 else 0, maxMip := 0, block := 16, max := ![64, 64] }

/-- A diagonal ray and the state just before it reaches the corner (1, 1). -/
noncomputable def rayDiag : DdaRay .two := { o := ![0.5, 0.5], d := ![1, 1], t1 := 10 }

/-- The state after `init`. -/
noncomputable def diagStart : Dda .two := ⟨0, 0, 0, 0.5, 1, ![0, 0], ![0.5, 0.5]⟩

theorem diag_init : ddaInit flatGrid rayDiag = some diagStart := by
  have hc0 : (fun i => ⌊rayDiag.pt (0 + 1e-6) i⌋) = ![0, 0] := by
    funext i
    fin_cases i
    · show ⌊rayDiag.pt (0 + 1e-6) 0⌋ = 0
      rw [Int.floor_eq_iff]; simp [DdaRay.pt, rayDiag]; norm_num
    · show ⌊rayDiag.pt (0 + 1e-6) 1⌋ = 0
      rw [Int.floor_eq_iff]; simp [DdaRay.pt, rayDiag]; norm_num
  have hl : flatGrid.sampleLevel ![0, 0] = 0 := by simp [DdaEnv.sampleLevel, flatGrid]
  have hin : flatGrid.inBounds ![0, 0] := by intro i; fin_cases i <;> simp [flatGrid]
  have ht1 : rayDiag.t1 = 10 := rfl
  have hsz : (initState flatGrid rayDiag).size = 1 := by simp only [initState, hc0, hl]; simp
  have hco : (initState flatGrid rayDiag).coord = ![0, 0] := by
    show (fun i => maskCoord ((fun i => ⌊rayDiag.pt (0 + 1e-6) i⌋) i) (initState flatGrid rayDiag).size) = _
    rw [hc0, hsz]; funext i; exact mask_one _
  have hnh : (initState flatGrid rayDiag).nextHit = ![0.499999, 0.499999] := by
    funext i
    show (if rayDiag.d i = 0 then (1e24 : ℝ) else if 0 < 1 / rayDiag.d i then 0 + (((initState flatGrid rayDiag).coord i : ℝ) + ((initState flatGrid rayDiag).size : ℝ) - rayDiag.pt (0 + 1e-6) i) * (1 / rayDiag.d i)
        else 0 + (((initState flatGrid rayDiag).coord i : ℝ) - rayDiag.pt (0 + 1e-6) i) * (1 / rayDiag.d i)) = _
    rw [hco, hsz]
    fin_cases i <;> simp [rayDiag, DdaRay.pt] <;> norm_num
  have hi : initState flatGrid rayDiag = ⟨(initState flatGrid rayDiag).axis, 0, 0, 0, 1, ![0, 0], ![0.499999, 0.499999]⟩ := by
    have : initState flatGrid rayDiag = ⟨(initState flatGrid rayDiag).axis, 0, 0, 0, (initState flatGrid rayDiag).size,
      (initState flatGrid rayDiag).coord, (initState flatGrid rayDiag).nextHit⟩ := rfl
    rw [hsz, hco, hnh] at this
    exact this
  have hc : computeAxisDt rayDiag (initState flatGrid rayDiag) = ⟨0, 0, 0, 0.499999, 1, ![0, 0], ![0.499999, 0.499999]⟩ := by
    rw [hi, compute2, ht1]
    norm_num
  have hw : walkIn flatGrid rayDiag 32 ⟨0, 0, 0, 0.499999, 1, ![0, 0], ![0.499999, 0.499999]⟩ =
      some ⟨0, 0, 0, 0.499999, 1, ![0, 0], ![0.499999, 0.499999]⟩ := by
    unfold walkIn
    rw [if_neg]
    push Not
    exact ⟨hin, fun _ => by norm_num⟩
  unfold ddaInit
  rw [if_neg (by rw [ht1]; norm_num), hc, hw]
  simp only [Option.map_some]
  congr 1
  have hst : flatGrid.stepSize 0 = 1 := by simp [DdaEnv.stepSize]
  have hh : ∀ old : Fin 2 → ℝ, hitsFrom rayDiag 0 ![0, 0] 1 old = ![0.5, 0.5] := by
    intro old
    funext i
    rw [hitsFrom_eq]
    fin_cases i <;> simp [rayDiag, exitTime] <;> norm_num
  have hup : updateMip flatGrid rayDiag true ⟨0, 0, 0, 0.499999, 1, ![0, 0], ![0.499999, 0.499999]⟩ =
      computeAxisDt rayDiag ⟨0, flatGrid.sampleLevel ![0, 0], 0, 0.499999, flatGrid.stepSize (flatGrid.sampleLevel ![0, 0]),
        fun i => maskCoord (![0, 0] i) (flatGrid.stepSize (flatGrid.sampleLevel ![0, 0])),
        hitsFrom rayDiag 0 (fun i => maskCoord (![0, 0] i) (flatGrid.stepSize (flatGrid.sampleLevel ![0, 0])))
          (flatGrid.stepSize (flatGrid.sampleLevel ![0, 0])) ![0.499999, 0.499999]⟩ := rfl
  rw [hup, hl, hst]
  simp only [mask_one]
  rw [hh, compute2, ht1]
  unfold diagStart
  norm_num

/-- The state after the corner. -/
noncomputable def diagNext : Dda .two := ⟨1, 0, 0.5, 1.5e-6, 1, ![1, 0], ![1.5, 0.5 + 1.5e-6]⟩

/-- REFUTED in full, 3: when the ray goes through a corner a sliver of it (1.5e-6 here) is attributed to a cell that
it only touches; the hypothesis that no two faces are reached together cannot be dropped from `C39_cell_partial`. -/
theorem C39_corner_refuted :
    ddaInit flatGrid rayDiag = some diagStart ∧ advance flatGrid rayDiag diagStart = some diagNext ∧
      0 < diagNext.dt ∧ ∀ τ, diagNext.t < τ → ¬ InCell rayDiag diagNext τ := by
  have ht1 : rayDiag.t1 = 10 := rfl
  refine ⟨diag_init, ?_, ?_, ?_⟩
  · have hn : nextIntersection rayDiag diagStart = diagNext := by
      have hs : rayDiag.stepDir (0 : Fin 2) = 1 := by simp [rayDiag, DdaRay.stepDir]
      have hd : rayDiag.deltaOf (0 : Fin 2) = 1 := by simp [rayDiag, DdaRay.deltaOf]
      unfold diagStart
      rw [next2_0, hs, hd, compute2, ht1]
      unfold diagNext
      norm_num
    have hl : flatGrid.sampleLevel (entered rayDiag diagStart) = 0 := by
      have e0 : entered rayDiag diagStart = ![1, 0] := by
        funext i; fin_cases i <;> simp [entered, diagStart, rayDiag, DdaRay.stepDir]
      rw [e0]; simp [DdaEnv.sampleLevel, flatGrid]
    have hlt : diagStart.nextHit diagStart.axis < rayDiag.t1 := by
      rw [ht1]
      show (0.5 : ℝ) < 10
      norm_num
    rw [advance_eq, if_pos hlt, hl, if_pos ⟨rfl, le_rfl⟩, hn]
  · simp only [diagNext]; norm_num
  · intro τ hτ hc
    have := (hc 1).2
    simp only [diagNext] at hτ
    simp [diagNext, rayDiag, DdaRay.pt] at this
    norm_num at this hτ
    linarith

/-- Non-vacuity of `C39_uniform`. -/
example : 1 ≤ flatGrid.block ∧ rayDiag.t1 ≤ 1e24 ∧ (∀ τ, 0 ≤ τ → τ ≤ rayDiag.t1 → ∀ i, 0 < rayDiag.pt τ i ∧ rayDiag.pt τ i < flatGrid.max i) ∧
    (∀ c, flatGrid.inBounds c → flatGrid.sampleLevel c = 0) ∧ ddaInit flatGrid rayDiag = some diagStart := by
  refine ⟨by decide, by show (10 : ℝ) ≤ 1e24; norm_num, ?_, ?_, diag_init⟩
  · intro τ h0 h1
    have h1 : τ ≤ 10 := h1
    intro i
    fin_cases i <;> simp [rayDiag, DdaRay.pt, flatGrid] <;> constructor <;> linarith
  · intro c hc
    have h0 := hc 0
    have h1 := hc 1
    simp only [flatGrid, Matrix.cons_val_zero, Matrix.cons_val_one] at h0 h1
    simp only [DdaEnv.sampleLevel, flatGrid]
    rw [if_neg (by omega)]; rfl

end DexRT
