import Verif.Model.World
import Verif.Lemmas.FormalBounds
import Verif.Props.Raymarch
import Verif.Props.RaySeg
/-!
Lemmas for C79.
-/
namespace DexRT
open Classical

variable {dim : DdaDim}

theorem invSin_nonneg (a : RaymarchArgs dim) : 0 ≤ a.invSin := by unfold RaymarchArgs.invSin; positivity

/-- what the traversal visits does not depend on how long it is watched -/
theorem visitsEnd_unique (e : DdaEnv dim) (r : DdaRay dim) : ∀ (f1 f2 : ℕ) (s : Dda dim) (l1 l2 : List (Dda dim)),
    visitsEnd e r f1 s = some l1 → visitsEnd e r f2 s = some l2 → l1 = l2 := by
  intro f1
  induction f1 with
  | zero =>
    intro f2 s l1 l2 h1 h2
    unfold visitsEnd at h1
    cases ha : advance e r s with
    | none =>
      rw [ha] at h1
      cases f2 <;> (unfold visitsEnd at h2; rw [ha] at h2; simp_all)
    | some s' => rw [ha] at h1; simp at h1
  | succ f1 ih =>
    intro f2 s l1 l2 h1 h2
    unfold visitsEnd at h1
    cases ha : advance e r s with
    | none =>
      rw [ha] at h1
      cases f2 <;> (unfold visitsEnd at h2; rw [ha] at h2; simp_all)
    | some s' =>
      rw [ha] at h1
      cases f2 with
      | zero => unfold visitsEnd at h2; rw [ha] at h2; simp at h2
      | succ f2 =>
        unfold visitsEnd at h2
        rw [ha] at h2
        simp only [Option.map_eq_some_iff] at h1 h2
        obtain ⟨a, a1, rfl⟩ := h1
        obtain ⟨b, b1, rfl⟩ := h2
        rw [ih f2 s' a b a1 b1]

/-- the steps of a march, the same for every medium: either the ray was not marched, or these states were visited -/
theorem raymarch_cases (a : RaymarchArgs dim) (fuel : ℕ) (res : Interval) (h : raymarch a fuel = some res) :
    (ddaStart a.env a.seg = none ∧ res = ⟨startI a false, 0, 0⟩) ∨
    ∃ r s l, ddaStart a.env a.seg = some (r, s) ∧ visitsEnd a.env r fuel s = some l ∧ (∀ v ∈ l, 0 ≤ v.dt) ∧
      res = marchInterval a.extraSafe a.scale a.invSin (startI a true) ((loopStates l).map a.stepOf) := by
  unfold raymarch at h
  cases hs : ddaStart a.env a.seg with
  | none => rw [hs] at h; left; exact ⟨rfl, (Option.some.inj h).symm⟩
  | some p =>
    obtain ⟨r, s⟩ := p
    rw [hs] at h
    right
    obtain ⟨l, h1, h2⟩ := Option.map_eq_some_iff.1 h
    obtain ⟨c, b, hc, hr, hi⟩ := ddaStart_some a.env a.seg r s hs
    refine ⟨r, s, l, rfl, h1, ?_, h2.symm⟩
    obtain ⟨h3, -⟩ := visitsEnd_some a.env r fuel s l h1
    rw [← h3]
    exact C39_nonneg a.env r s hi fuel

theorem mem_loopStates {l : List (Dda dim)} {v : Dda dim} (h : v ∈ loopStates l) : v ∈ l := by
  cases l with
  | nil => exact h
  | cons s l =>
    unfold loopStates at h
    rcases List.mem_cons.1 h with rfl | h
    · simp
    · exact List.mem_cons_of_mem _ (List.mem_filter.1 h).1

theorem stepOf_in (a : RaymarchArgs dim) {lo hi : ℝ} (hmed : ∀ m c, 0 ≤ a.chi m c ∧
      lo * (a.chi m c + 1e-15) ≤ a.eta m c ∧ a.eta m c ≤ hi * (a.chi m c + 1e-15))
    (l : List (Dda dim)) (hl : ∀ v ∈ l, 0 ≤ v.dt) : ∀ s ∈ (loopStates l).map a.stepOf, StepIn a.extraSafe lo hi s := by
  intro s hs
  obtain ⟨v, hv, rfl⟩ := List.mem_map.1 hs
  obtain ⟨h1, h2, h3⟩ := hmed v.mip v.coord
  refine ⟨h1, hl v (mem_loopStates hv), fun _ => ?_⟩
  show lo ≤ a.eta v.mip v.coord / chiUsed a.extraSafe (a.chi v.mip v.coord) ∧ _ ≤ hi
  rw [C24_chi _ h1]
  have hp : (0 : ℝ) < a.chi v.mip v.coord + 1e-15 := by
    have : (0 : ℝ) < 1e-15 := by norm_num
    linarith
  rw [le_div_iff₀ hp]
  exact ⟨h2, by show a.eta v.mip v.coord / chiUsed a.extraSafe (a.chi v.mip v.coord) ≤ hi; rw [C24_chi _ h1, div_le_iff₀ hp]; exact h3⟩

theorem startI_false (a : RaymarchArgs dim) (b : Bool) (h : a.sampleBc = false) : startI a b = 0 := by
  unfold startI; rw [h]; simp

theorem startI_in (a : RaymarchArgs dim) (b : Bool) {lo hi : ℝ} (h0 : lo ≤ 0 ∧ 0 ≤ hi) (h1 : lo ≤ a.bc ∧ a.bc ≤ hi) :
    lo ≤ startI a b ∧ startI a b ≤ hi := by
  unfold startI
  split
  · split
    · exact h1
    · exact h0
  · exact h0

theorem startI_up (a : RaymarchArgs dim) (b : Bool) (hs : a.sampleBc = true) (ht : a.toInfty = true) (hu : 0 < a.up)
    (hl : a.la ≠ -1) : startI a b = a.bc := by
  unfold startI; rw [hs, ht]; simp [hu, hl]

/-- An interval below the last cascade emits within the bounds of the sources on the ray. -/
theorem raymarch_segIn (a : RaymarchArgs dim) (hsc : 0 ≤ a.scale) {lo hi : ℝ} (hmed : ∀ m c, 0 ≤ a.chi m c ∧
      lo * (a.chi m c + 1e-15) ≤ a.eta m c ∧ a.eta m c ≤ hi * (a.chi m c + 1e-15)) (hbc : a.sampleBc = false)
    (fuel : ℕ) (res : Interval) (h : raymarch a fuel = some res) : Fs.SegIn lo hi (Fs.segOf res) := by
  rcases raymarch_cases a fuel res h with ⟨-, rfl⟩ | ⟨r, s, l, -, -, hl, rfl⟩
  · rw [startI_false a _ hbc]
    refine ⟨?_, ?_, ?_, ?_⟩ <;> simp [Fs.segOf]
  · rw [startI_false a _ hbc]
    exact Fs.realSeg_in a.extraSafe hsc (invSin_nonneg a) _ (stepOf_in a hmed l hl)

/-- The intensity of a ray lies between the bounds of its sources and of what it starts from. -/
theorem raymarch_between (a : RaymarchArgs dim) (hsc : 0 ≤ a.scale) {lo hi : ℝ} (hmed : ∀ m c, 0 ≤ a.chi m c ∧
      lo * (a.chi m c + 1e-15) ≤ a.eta m c ∧ a.eta m c ≤ hi * (a.chi m c + 1e-15))
    (hst : ∀ b, lo ≤ startI a b ∧ startI a b ≤ hi)
    (fuel : ℕ) (res : Interval) (h : raymarch a fuel = some res) : lo ≤ res.I ∧ res.I ≤ hi := by
  rcases raymarch_cases a fuel res h with ⟨-, rfl⟩ | ⟨r, s, l, -, -, hl, rfl⟩
  · exact hst false
  · exact C24_between a.extraSafe hsc (invSin_nonneg a) _ (stepOf_in a hmed l hl) (hst true).1 (hst true).2

/-- two marches of the same ray through media with the same opacity -/
theorem fold_pair (es : Bool) (sc is : ℝ) (f f1 : Dda dim → Step)
    (h1 : ∀ v, (f1 v).sample = (f v).sample ∧ (f1 v).chi = (f v).chi ∧ (f1 v).dt = (f v).dt) :
    ∀ (l : List (Dda dim)) (v v1 : MarchVars), v1.tau = v.tau →
      ((l.map f1).foldl (marchStep es sc is) v1).tau = ((l.map f).foldl (marchStep es sc is) v).tau := by
  intro l
  induction l with
  | nil => intro v v1 h; exact h
  | cons s l ih =>
    intro v v1 h
    simp only [List.map_cons, List.foldl_cons]
    apply ih
    obtain ⟨a, b, c⟩ := h1 s
    unfold marchStep
    rw [a]
    split
    · simp only [b, c, h]
    · exact h

theorem fold_add (es : Bool) (sc is : ℝ) (f f1 f2 : Dda dim → Step)
    (h1 : ∀ v, (f1 v).sample = (f v).sample ∧ (f1 v).chi = (f v).chi ∧ (f1 v).dt = (f v).dt)
    (h2 : ∀ v, (f2 v).sample = (f v).sample ∧ (f2 v).chi = (f v).chi ∧ (f2 v).dt = (f v).dt)
    (he : ∀ v, (f v).eta = (f1 v).eta + (f2 v).eta) :
    ∀ (l : List (Dda dim)) (v v1 v2 : MarchVars), v.I = v1.I + v2.I →
      ((l.map f).foldl (marchStep es sc is) v).I =
        ((l.map f1).foldl (marchStep es sc is) v1).I + ((l.map f2).foldl (marchStep es sc is) v2).I := by
  intro l
  induction l with
  | nil => intro v v1 v2 h; exact h
  | cons s l ih =>
    intro v v1 v2 h
    simp only [List.map_cons, List.foldl_cons]
    apply ih
    obtain ⟨a, b, c⟩ := h1 s
    obtain ⟨a', b', c'⟩ := h2 s
    unfold marchStep
    rw [a, a']
    split
    · simp only [b, c, b', c', h, he]; ring
    · exact h

theorem fold_mono (es : Bool) {sc is : ℝ} (hsc : 0 ≤ sc) (his : 0 ≤ is) (f f1 : Dda dim → Step)
    (h1 : ∀ v, (f1 v).sample = (f v).sample ∧ (f1 v).chi = (f v).chi ∧ (f1 v).dt = (f v).dt)
    (hc : ∀ v, 0 ≤ (f v).chi) (he : ∀ v, (f v).eta ≤ (f1 v).eta) :
    ∀ (l : List (Dda dim)) (v v1 : MarchVars), (∀ s ∈ l, 0 ≤ (f s).dt) → v.I ≤ v1.I →
      ((l.map f).foldl (marchStep es sc is) v).I ≤ ((l.map f1).foldl (marchStep es sc is) v1).I := by
  intro l
  induction l with
  | nil => intro v v1 _ h; exact h
  | cons s l ih =>
    intro v v1 hd h
    simp only [List.map_cons, List.foldl_cons]
    apply ih _ _ (fun t ht => hd t (by simp [ht]))
    obtain ⟨a, b, c⟩ := h1 s
    have hpos := chiUsed_pos es (hc s)
    have hp : (0 : ℝ) < chiUsed es (f s).chi := by
      have : (0 : ℝ) < 1e-15 := by norm_num
      linarith
    have hdt := hd s (by simp)
    unfold marchStep
    rw [a]
    split
    · simp only [b, c]
      have htau : 0 ≤ chiUsed es (f s).chi * (f s).dt * sc * is := by positivity
      have hexp : Real.exp (-(chiUsed es (f s).chi * (f s).dt * sc * is)) ≤ 1 := Real.exp_le_one_iff.2 (by linarith)
      have e0 := Real.exp_pos (-(chiUsed es (f s).chi * (f s).dt * sc * is))
      have hS : (f s).eta / chiUsed es (f s).chi ≤ (f1 s).eta / chiUsed es (f s).chi := div_le_div_of_nonneg_right (he s) hp.le
      refine add_le_add (mul_le_mul_of_nonneg_right h e0.le) (mul_le_mul_of_nonneg_right hS (by linarith))
    · exact h

end DexRT

namespace DexRT.Fs
open DexRT DexRT.Dir Classical

variable {K : Type} [Field K]

/-- the specified radiance only depends on the rays that are reached -/
theorem radiance2_congr (m1 m2 : Bool → Nat → ProbeIdx2 → Seg K) (Nx Nz : Nat) (b : Nat → Nat) (num : Nat)
    (V : Nat → ProbeIdx2 → Prop)
    (hV : ∀ n p U W r, n < num → V n p → U < probesOn Nx (n + 1) → W < probesOn Nz (n + 1) → r < b n →
      V (n + 1) { p with u := U, v := W, dir := p.dir * b n + r })
    (hf : ∀ n p, n < num → V n p → (m1 false n p).I = (m2 false n p).I ∧ (m1 false n p).T = (m2 false n p).T)
    (ht : ∀ p, V num p → (m1 true num p).I = (m2 true num p).I)
    (m : Nat) (hm : m ≤ num) (p : ProbeIdx2) (hp : V (num - m) p) :
    radiance2 m1 Nx Nz b num m p = radiance2 m2 Nx Nz b num m p := by
  induction m generalizing p with
  | zero => unfold radiance2; rw [ht p hp]
  | succ m ih =>
    unfold radiance2
    simp only
    rw [(hf _ p (by omega) hp).1, (hf _ p (by omega) hp).2]
    congr 2
    refine Finset.sum_congr rfl fun U hU => Finset.sum_congr rfl fun W hW => ?_
    congr 2
    refine Finset.sum_congr rfl fun r hr => ?_
    apply ih (by omega)
    have hn : num - (m + 1) + 1 = num - m := by omega
    have := hV (num - (m + 1)) p U W r (by omega) hp (Finset.mem_range.1 hU) (Finset.mem_range.1 hW) (Finset.mem_range.1 hr)
    rwa [hn] at this

theorem radiance3_congr (m1 m2 : Bool → Nat → ProbeIdx3 → Seg K) (Nx Ny Nz ba bp num : Nat)
    (V : Nat → ProbeIdx3 → Prop)
    (hV : ∀ n p U W X i j, n < num → V n p → U < probesOn Nx (n + 1) → W < probesOn Ny (n + 1) → X < probesOn Nz (n + 1) →
      i < bp → j < ba → V (n + 1) { u := U, v := W, w := X, polar := p.polar * bp + i, az := p.az * ba + j })
    (hf : ∀ n p, n < num → V n p → (m1 false n p).I = (m2 false n p).I ∧ (m1 false n p).T = (m2 false n p).T)
    (ht : ∀ p, V num p → (m1 true num p).I = (m2 true num p).I)
    (m : Nat) (hm : m ≤ num) (p : ProbeIdx3) (hp : V (num - m) p) :
    radiance3 m1 Nx Ny Nz ba bp num m p = radiance3 m2 Nx Ny Nz ba bp num m p := by
  induction m generalizing p with
  | zero => unfold radiance3; rw [ht p hp]
  | succ m ih =>
    unfold radiance3
    simp only
    rw [(hf _ p (by omega) hp).1, (hf _ p (by omega) hp).2]
    congr 2
    refine Finset.sum_congr rfl fun U hU => Finset.sum_congr rfl fun W hW => Finset.sum_congr rfl fun X hX => ?_
    congr 2
    refine Finset.sum_congr rfl fun i hi => Finset.sum_congr rfl fun j hj => ?_
    apply ih (by omega)
    have hn : num - (m + 1) + 1 = num - m := by omega
    have := hV (num - (m + 1)) p U W X i j (by omega) hp (Finset.mem_range.1 hU) (Finset.mem_range.1 hW)
      (Finset.mem_range.1 hX) (Finset.mem_range.1 hi) (Finset.mem_range.1 hj)
    rwa [hn] at this

/-- `m` where `V` holds, elsewhere an interval that does nothing (and the boundary value `x`). -/
noncomputable def restrict {P : Type} (V : Nat → P → Prop) (x : K) (m : Bool → Nat → P → Seg K) : Bool → Nat → P → Seg K :=
  fun bc n p => if V n p then m bc n p else ⟨if bc then x else 0, 1, 0⟩

/-- bounds, for the rays that are reached only -/
theorem radiance2_inV {K : Type} [Field K] [LinearOrder K] [IsStrictOrderedRing K] (march : Bool → Nat → ProbeIdx2 → Seg K)
    (Nx Nz : Nat) (b : Nat → Nat) (hb : ∀ n, 0 < b n) (num : Nat) (V : Nat → ProbeIdx2 → Prop)
    (hV : ∀ n p U W r, n < num → V n p → U < probesOn Nx (n + 1) → W < probesOn Nz (n + 1) → r < b n →
      V (n + 1) { p with u := U, v := W, dir := p.dir * b n + r })
    (hVr : ∀ n p, V n p → p.u < probesOn Nx n ∧ p.v < probesOn Nz n) {lo hi : K} (hlh : lo ≤ hi)
    (hseg : ∀ n p, n < num → V n p → SegIn lo hi (march false n p))
    (htop : ∀ p, V num p → lo ≤ (march true num p).I ∧ (march true num p).I ≤ hi) (p : ProbeIdx2) (hp : V 0 p) :
    lo ≤ radiance2 march Nx Nz b num num p ∧ radiance2 march Nx Nz b num num p ≤ hi := by
  rw [radiance2_congr march (restrict V lo march) Nx Nz b num V hV
    (fun n q _ hq => by unfold restrict; rw [if_pos hq]; exact ⟨rfl, rfl⟩)
    (fun q hq => by unfold restrict; rw [if_pos hq]) num le_rfl p (by rw [Nat.sub_self]; exact hp)]
  refine radiance2_in _ Nx Nz b hb num ?_ ?_ num le_rfl p ?_ ?_
  · intro n q hn
    unfold restrict
    split
    · exact hseg n q hn ‹_›
    · refine ⟨?_, ?_, ?_, ?_⟩ <;> simp
  · intro q
    unfold restrict
    split
    · exact htop q ‹_›
    · simpa using hlh
  · rw [Nat.sub_self]; exact (hVr 0 p hp).1
  · rw [Nat.sub_self]; exact (hVr 0 p hp).2

theorem radiance3_inV {K : Type} [Field K] [LinearOrder K] [IsStrictOrderedRing K] (march : Bool → Nat → ProbeIdx3 → Seg K)
    (Nx Ny Nz ba bp : Nat) (ha : 0 < ba) (hbp : 0 < bp) (num : Nat) (V : Nat → ProbeIdx3 → Prop)
    (hV : ∀ n p U W X i j, n < num → V n p → U < probesOn Nx (n + 1) → W < probesOn Ny (n + 1) → X < probesOn Nz (n + 1) →
      i < bp → j < ba → V (n + 1) { u := U, v := W, w := X, polar := p.polar * bp + i, az := p.az * ba + j })
    (hVr : ∀ n p, V n p → p.u < probesOn Nx n ∧ p.v < probesOn Ny n ∧ p.w < probesOn Nz n) {lo hi : K} (hlh : lo ≤ hi)
    (hseg : ∀ n p, n < num → V n p → SegIn lo hi (march false n p))
    (htop : ∀ p, V num p → lo ≤ (march true num p).I ∧ (march true num p).I ≤ hi) (p : ProbeIdx3) (hp : V 0 p) :
    lo ≤ radiance3 march Nx Ny Nz ba bp num num p ∧ radiance3 march Nx Ny Nz ba bp num num p ≤ hi := by
  rw [radiance3_congr march (restrict V lo march) Nx Ny Nz ba bp num V hV
    (fun n q _ hq => by unfold restrict; rw [if_pos hq]; exact ⟨rfl, rfl⟩)
    (fun q hq => by unfold restrict; rw [if_pos hq]) num le_rfl p (by rw [Nat.sub_self]; exact hp)]
  refine radiance3_in _ Nx Ny Nz ba bp ha hbp num ?_ ?_ num le_rfl p ?_ ?_ ?_
  · intro n q hn
    unfold restrict
    split
    · exact hseg n q hn ‹_›
    · refine ⟨?_, ?_, ?_, ?_⟩ <;> simp
  · intro q
    unfold restrict
    split
    · exact htop q ‹_›
    · simpa using hlh
  · rw [Nat.sub_self]; exact (hVr 0 p hp).1
  · rw [Nat.sub_self]; exact (hVr 0 p hp).2.1
  · rw [Nat.sub_self]; exact (hVr 0 p hp).2.2

/-- additivity and monotonicity, for the rays that are reached only -/
theorem radiance2_addV (m0 m1 m2 : Bool → Nat → ProbeIdx2 → Seg K) (Nx Nz : Nat) (b : Nat → Nat) (num : Nat)
    (V : Nat → ProbeIdx2 → Prop)
    (hV : ∀ n p U W r, n < num → V n p → U < probesOn Nx (n + 1) → W < probesOn Nz (n + 1) → r < b n →
      V (n + 1) { p with u := U, v := W, dir := p.dir * b n + r })
    (hf : ∀ n p, n < num → V n p → (m0 false n p).I = (m1 false n p).I + (m2 false n p).I ∧
      (m1 false n p).T = (m0 false n p).T ∧ (m2 false n p).T = (m0 false n p).T)
    (ht : ∀ p, V num p → (m0 true num p).I = (m1 true num p).I + (m2 true num p).I)
    (m : Nat) (hm : m ≤ num) (p : ProbeIdx2) (hp : V (num - m) p) :
    radiance2 m0 Nx Nz b num m p = radiance2 m1 Nx Nz b num m p + radiance2 m2 Nx Nz b num m p := by
  induction m generalizing p with
  | zero => unfold radiance2; rw [ht p hp]
  | succ m ih =>
    unfold radiance2
    simp only
    obtain ⟨h1, h2, h3⟩ := hf _ p (by omega : num - (m + 1) < num) hp
    rw [h1, h2, h3]
    have hn : num - (m + 1) + 1 = num - m := by omega
    have hsum : ∀ U ∈ Finset.range (probesOn Nx (num - (m + 1) + 1)), ∀ W ∈ Finset.range (probesOn Nz (num - (m + 1) + 1)),
        ∑ r ∈ Finset.range (b (num - (m + 1))), radiance2 m0 Nx Nz b num m { p with u := U, v := W, dir := p.dir * b (num - (m + 1)) + r } =
        ∑ r ∈ Finset.range (b (num - (m + 1))), radiance2 m1 Nx Nz b num m { p with u := U, v := W, dir := p.dir * b (num - (m + 1)) + r } +
        ∑ r ∈ Finset.range (b (num - (m + 1))), radiance2 m2 Nx Nz b num m { p with u := U, v := W, dir := p.dir * b (num - (m + 1)) + r } := by
      intro U hU W hW
      rw [← Finset.sum_add_distrib]
      refine Finset.sum_congr rfl fun r hr => ih (by omega) _ ?_
      have := hV (num - (m + 1)) p U W r (by omega) hp (Finset.mem_range.1 hU) (Finset.mem_range.1 hW) (Finset.mem_range.1 hr)
      rwa [hn] at this
    rw [Finset.sum_congr rfl fun U hU => Finset.sum_congr rfl fun W hW => by rw [hsum U hU W hW, add_div, mul_add]]
    simp only [Finset.sum_add_distrib]
    ring

theorem radiance3_addV (m0 m1 m2 : Bool → Nat → ProbeIdx3 → Seg K) (Nx Ny Nz ba bp num : Nat)
    (V : Nat → ProbeIdx3 → Prop)
    (hV : ∀ n p U W X i j, n < num → V n p → U < probesOn Nx (n + 1) → W < probesOn Ny (n + 1) → X < probesOn Nz (n + 1) →
      i < bp → j < ba → V (n + 1) { u := U, v := W, w := X, polar := p.polar * bp + i, az := p.az * ba + j })
    (hf : ∀ n p, n < num → V n p → (m0 false n p).I = (m1 false n p).I + (m2 false n p).I ∧
      (m1 false n p).T = (m0 false n p).T ∧ (m2 false n p).T = (m0 false n p).T)
    (ht : ∀ p, V num p → (m0 true num p).I = (m1 true num p).I + (m2 true num p).I)
    (m : Nat) (hm : m ≤ num) (p : ProbeIdx3) (hp : V (num - m) p) :
    radiance3 m0 Nx Ny Nz ba bp num m p = radiance3 m1 Nx Ny Nz ba bp num m p + radiance3 m2 Nx Ny Nz ba bp num m p := by
  induction m generalizing p with
  | zero => unfold radiance3; rw [ht p hp]
  | succ m ih =>
    unfold radiance3
    simp only
    obtain ⟨h1, h2, h3⟩ := hf _ p (by omega : num - (m + 1) < num) hp
    rw [h1, h2, h3]
    have hn : num - (m + 1) + 1 = num - m := by omega
    have hsum : ∀ U ∈ Finset.range (probesOn Nx (num - (m + 1) + 1)), ∀ W ∈ Finset.range (probesOn Ny (num - (m + 1) + 1)),
        ∀ X ∈ Finset.range (probesOn Nz (num - (m + 1) + 1)),
        ∑ i ∈ Finset.range bp, ∑ j ∈ Finset.range ba, radiance3 m0 Nx Ny Nz ba bp num m { u := U, v := W, w := X, polar := p.polar * bp + i, az := p.az * ba + j } =
        ∑ i ∈ Finset.range bp, ∑ j ∈ Finset.range ba, radiance3 m1 Nx Ny Nz ba bp num m { u := U, v := W, w := X, polar := p.polar * bp + i, az := p.az * ba + j } +
        ∑ i ∈ Finset.range bp, ∑ j ∈ Finset.range ba, radiance3 m2 Nx Ny Nz ba bp num m { u := U, v := W, w := X, polar := p.polar * bp + i, az := p.az * ba + j } := by
      intro U hU W hW X hX
      rw [← Finset.sum_add_distrib]
      refine Finset.sum_congr rfl fun i hi => ?_
      rw [← Finset.sum_add_distrib]
      refine Finset.sum_congr rfl fun j hj => ih (by omega) _ ?_
      have := hV (num - (m + 1)) p U W X i j (by omega) hp (Finset.mem_range.1 hU) (Finset.mem_range.1 hW)
        (Finset.mem_range.1 hX) (Finset.mem_range.1 hi) (Finset.mem_range.1 hj)
      rwa [hn] at this
    rw [Finset.sum_congr rfl fun U hU => Finset.sum_congr rfl fun W hW => Finset.sum_congr rfl fun X hX => by
      rw [hsum U hU W hW X hX, add_div, mul_add]]
    simp only [Finset.sum_add_distrib]
    ring

theorem radiance2_monoV {K : Type} [Field K] [LinearOrder K] [IsStrictOrderedRing K] (m1 m2 : Bool → Nat → ProbeIdx2 → Seg K)
    (Nx Nz : Nat) (b : Nat → Nat) (num : Nat) (V : Nat → ProbeIdx2 → Prop)
    (hV : ∀ n p U W r, n < num → V n p → U < probesOn Nx (n + 1) → W < probesOn Nz (n + 1) → r < b n →
      V (n + 1) { p with u := U, v := W, dir := p.dir * b n + r })
    (hf : ∀ n p, n < num → V n p → (m1 false n p).I ≤ (m2 false n p).I ∧ (m2 false n p).T = (m1 false n p).T ∧ 0 ≤ (m1 false n p).T)
    (ht : ∀ p, V num p → (m1 true num p).I ≤ (m2 true num p).I)
    (m : Nat) (hm : m ≤ num) (p : ProbeIdx2) (hp : V (num - m) p) :
    radiance2 m1 Nx Nz b num m p ≤ radiance2 m2 Nx Nz b num m p := by
  induction m generalizing p with
  | zero => exact ht p hp
  | succ m ih =>
    unfold radiance2
    simp only
    obtain ⟨h1, h2, h3⟩ := hf _ p (by omega : num - (m + 1) < num) hp
    rw [h2]
    have hn : num - (m + 1) + 1 = num - m := by omega
    refine add_le_add h1 (mul_le_mul_of_nonneg_left ?_ h3)
    refine Finset.sum_le_sum fun U hU => Finset.sum_le_sum fun W hW => mul_le_mul_of_nonneg_left ?_ ?_
    · refine div_le_div_of_nonneg_right (Finset.sum_le_sum fun r hr => ih (by omega) _ ?_) (Nat.cast_nonneg _)
      have := hV (num - (m + 1)) p U W r (by omega) hp (Finset.mem_range.1 hU) (Finset.mem_range.1 hW) (Finset.mem_range.1 hr)
      rwa [hn] at this
    · exact Rat.cast_nonneg.2 (mul_nonneg (axisWeight_nonneg _ _ _) (axisWeight_nonneg _ _ _))

theorem radiance3_monoV {K : Type} [Field K] [LinearOrder K] [IsStrictOrderedRing K] (m1 m2 : Bool → Nat → ProbeIdx3 → Seg K)
    (Nx Ny Nz ba bp num : Nat) (V : Nat → ProbeIdx3 → Prop)
    (hV : ∀ n p U W X i j, n < num → V n p → U < probesOn Nx (n + 1) → W < probesOn Ny (n + 1) → X < probesOn Nz (n + 1) →
      i < bp → j < ba → V (n + 1) { u := U, v := W, w := X, polar := p.polar * bp + i, az := p.az * ba + j })
    (hf : ∀ n p, n < num → V n p → (m1 false n p).I ≤ (m2 false n p).I ∧ (m2 false n p).T = (m1 false n p).T ∧ 0 ≤ (m1 false n p).T)
    (ht : ∀ p, V num p → (m1 true num p).I ≤ (m2 true num p).I)
    (m : Nat) (hm : m ≤ num) (p : ProbeIdx3) (hp : V (num - m) p) :
    radiance3 m1 Nx Ny Nz ba bp num m p ≤ radiance3 m2 Nx Ny Nz ba bp num m p := by
  induction m generalizing p with
  | zero => exact ht p hp
  | succ m ih =>
    unfold radiance3
    simp only
    obtain ⟨h1, h2, h3⟩ := hf _ p (by omega : num - (m + 1) < num) hp
    rw [h2]
    have hn : num - (m + 1) + 1 = num - m := by omega
    refine add_le_add h1 (mul_le_mul_of_nonneg_left ?_ h3)
    refine Finset.sum_le_sum fun U hU => Finset.sum_le_sum fun W hW => Finset.sum_le_sum fun X hX =>
      mul_le_mul_of_nonneg_left ?_ ?_
    · refine div_le_div_of_nonneg_right (Finset.sum_le_sum fun i hi => Finset.sum_le_sum fun j hj => ih (by omega) _ ?_) (Nat.cast_nonneg _)
      have := hV (num - (m + 1)) p U W X i j (by omega) hp (Finset.mem_range.1 hU) (Finset.mem_range.1 hW)
        (Finset.mem_range.1 hX) (Finset.mem_range.1 hi) (Finset.mem_range.1 hj)
      rwa [hn] at this
    · exact Rat.cast_nonneg.2 (mul_nonneg (mul_nonneg (axisWeight_nonneg _ _ _) (axisWeight_nonneg _ _ _)) (axisWeight_nonneg _ _ _))

end DexRT.Fs

namespace DexRT
open Classical
variable {dim : DdaDim}

/-- One ray through the sum of two media: the same ray, opacity and switches. -/
structure SumArgs (a a1 a2 : RaymarchArgs dim) : Prop where
  one : ∃ eta bc, a1 = { a with eta := eta, bc := bc }
  two : ∃ eta bc, a2 = { a with eta := eta, bc := bc }
  eta : ∀ m c, a.eta m c = a1.eta m c + a2.eta m c
  bc : a.bc = a1.bc + a2.bc

theorem startClipped_with (a : RaymarchArgs dim) (eta : ℤ → (Fin dim.n → ℤ) → ℝ) (bc : ℝ) :
    startClipped { a with eta := eta, bc := bc } = startClipped a := rfl

/-- where the boundary enters does not depend on the medium -/
theorem startI_with (a : RaymarchArgs dim) (b : Bool) : ∃ P : Prop, (∀ e1 b1, startI { a with eta := e1, bc := b1 } b = if P then b1 else 0) ∧
    startI a b = if P then a.bc else 0 := by
  by_cases h1 : ((a.sampleBc && a.toInfty) || (a.sampleBc && (!b || startClipped a))) = true
  · refine ⟨0 < a.up ∧ a.la ≠ -1, fun e1 b1 => ?_, ?_⟩
    · unfold startI; rw [startClipped_with]; rw [if_pos h1]; congr
    · unfold startI; rw [if_pos h1]; congr
  · refine ⟨False, fun e1 b1 => ?_, ?_⟩
    · unfold startI; rw [startClipped_with, if_neg h1]; simp
    · unfold startI; rw [if_neg h1]; simp

theorem startI_sum (a : RaymarchArgs dim) (e1 e2 : ℤ → (Fin dim.n → ℤ) → ℝ) (b1 b2 : ℝ) (b : Bool) (h : a.bc = b1 + b2) :
    startI a b = startI { a with eta := e1, bc := b1 } b + startI { a with eta := e2, bc := b2 } b := by
  obtain ⟨P, h1, h2⟩ := startI_with a b
  rw [h2, h1 e1 b1, h1 e2 b2, h]
  split <;> simp

theorem startI_le (a : RaymarchArgs dim) (e1 : ℤ → (Fin dim.n → ℤ) → ℝ) (b1 : ℝ) (b : Bool) (h : a.bc ≤ b1) :
    startI a b ≤ startI { a with eta := e1, bc := b1 } b := by
  obtain ⟨P, h1, h2⟩ := startI_with a b
  rw [h2, h1 e1 b1]
  split
  · exact h
  · exact le_rfl

/-- The same ray through two media of the same opacity: visited alike. -/
theorem raymarch_pair (a : RaymarchArgs dim) (e1 : ℤ → (Fin dim.n → ℤ) → ℝ) (b1 : ℝ) (f f1 : ℕ) (res res1 : Interval)
    (h : raymarch a f = some res) (h1 : raymarch { a with eta := e1, bc := b1 } f1 = some res1) :
    (res = ⟨startI a false, 0, 0⟩ ∧ res1 = ⟨startI { a with eta := e1, bc := b1 } false, 0, 0⟩ ∧ ddaStart a.env a.seg = none) ∨
    ∃ r s l, ddaStart a.env a.seg = some (r, s) ∧ visitsEnd a.env r f s = some l ∧ (∀ v ∈ l, 0 ≤ v.dt) ∧
      res = marchInterval a.extraSafe a.scale a.invSin (startI a true) ((loopStates l).map a.stepOf) ∧
      res1 = marchInterval a.extraSafe a.scale a.invSin (startI { a with eta := e1, bc := b1 } true)
        ((loopStates l).map ({ a with eta := e1, bc := b1 } : RaymarchArgs dim).stepOf) := by
  rcases raymarch_cases a f res h with ⟨hn, hr⟩ | ⟨r, s, l, hs, hv, hd, hr⟩ <;>
    rcases raymarch_cases _ f1 res1 h1 with ⟨hn1, hr1⟩ | ⟨r1, s1, l1, hs1, hv1, hd1, hr1⟩
  · exact Or.inl ⟨hr, hr1, hn⟩
  · exact absurd (hn.symm.trans hs1) (by simp)
  · exact absurd (hs.symm.trans hn1) (by simp)
  · right
    have e0 : (r, s) = (r1, s1) := Option.some.inj (hs.symm.trans hs1)
    obtain ⟨rfl, rfl⟩ := Prod.mk.inj e0
    have hl : l = l1 := visitsEnd_unique a.env r f f1 s l l1 hv hv1
    subst hl
    exact ⟨r, s, l, hs, hv, hd, hr, hr1⟩

theorem raymarch_add (a a1 a2 : RaymarchArgs dim) (hs : SumArgs a a1 a2) (f f1 f2 : ℕ) (res res1 res2 : Interval)
    (h : raymarch a f = some res) (h1 : raymarch a1 f1 = some res1) (h2 : raymarch a2 f2 = some res2) :
    res.I = res1.I + res2.I ∧ res1.tau = res.tau ∧ res2.tau = res.tau := by
  obtain ⟨⟨e1, b1, rfl⟩, ⟨e2, b2, rfl⟩, heta, hbc⟩ := hs
  have hst := fun b => startI_sum a e1 e2 b1 b2 b hbc
  rcases raymarch_pair a e1 b1 f f1 res res1 h h1 with ⟨hr, hr1, hn⟩ | ⟨r, s, l, hs, hv, hd, hr, hr1⟩
  · rcases raymarch_pair a e2 b2 f f2 res res2 h h2 with ⟨-, hr2, -⟩ | ⟨r, s, l, hs, -⟩
    · rw [hr, hr1, hr2]; exact ⟨hst false, rfl, rfl⟩
    · rw [hn] at hs; simp at hs
  · rcases raymarch_pair a e2 b2 f f2 res res2 h h2 with ⟨-, -, hn⟩ | ⟨r', s', l', hs', hv', -, hr', hr2⟩
    · rw [hn] at hs; simp at hs
    · have e0 : (r, s) = (r', s') := Option.some.inj (hs.symm.trans hs')
      obtain ⟨rfl, rfl⟩ := Prod.mk.inj e0
      have hl : l = l' := Option.some.inj (hv.symm.trans hv')
      subst hl
      rw [hr, hr1, hr2]
      refine ⟨?_, ?_, ?_⟩
      · exact fold_add a.extraSafe a.scale a.invSin a.stepOf ({ a with eta := e1, bc := b1 } : RaymarchArgs dim).stepOf
          ({ a with eta := e2, bc := b2 } : RaymarchArgs dim).stepOf (fun v => ⟨rfl, rfl, rfl⟩) (fun v => ⟨rfl, rfl, rfl⟩)
          (fun v => heta v.mip v.coord) (loopStates l) _ _ _ (hst true)
      · exact fold_pair a.extraSafe a.scale a.invSin a.stepOf ({ a with eta := e1, bc := b1 } : RaymarchArgs dim).stepOf (fun v => ⟨rfl, rfl, rfl⟩) (loopStates l) _ _ rfl
      · exact fold_pair a.extraSafe a.scale a.invSin a.stepOf ({ a with eta := e2, bc := b2 } : RaymarchArgs dim).stepOf (fun v => ⟨rfl, rfl, rfl⟩) (loopStates l) _ _ rfl

theorem raymarch_mono (a : RaymarchArgs dim) (e1 : ℤ → (Fin dim.n → ℤ) → ℝ) (b1 : ℝ) (hsc : 0 ≤ a.scale)
    (hchi : ∀ m c, 0 ≤ a.chi m c) (heta : ∀ m c, a.eta m c ≤ e1 m c) (hbc : a.bc ≤ b1) (f f1 : ℕ) (res res1 : Interval)
    (h : raymarch a f = some res) (h1 : raymarch { a with eta := e1, bc := b1 } f1 = some res1) :
    res.I ≤ res1.I ∧ res1.tau = res.tau := by
  rcases raymarch_pair a e1 b1 f f1 res res1 h h1 with ⟨hr, hr1, hn⟩ | ⟨r, s, l, hs, hv, hd, hr, hr1⟩
  · rw [hr, hr1]; exact ⟨startI_le a e1 b1 false hbc, rfl⟩
  · rw [hr, hr1]
    refine ⟨?_, ?_⟩
    · exact fold_mono a.extraSafe hsc (invSin_nonneg a) a.stepOf ({ a with eta := e1, bc := b1 } : RaymarchArgs dim).stepOf (fun v => ⟨rfl, rfl, rfl⟩)
          (fun v => hchi v.mip v.coord) (fun v => heta v.mip v.coord) (loopStates l) _ _
          (fun v hv => hd v (mem_loopStates hv)) (startI_le a e1 b1 true hbc)
    · exact fold_pair a.extraSafe a.scale a.invSin a.stepOf ({ a with eta := e1, bc := b1 } : RaymarchArgs dim).stepOf (fun v => ⟨rfl, rfl, rfl⟩) (loopStates l) _ _ rfl

theorem raymarch_unique (a : RaymarchArgs dim) (f f1 : ℕ) (res res1 : Interval) (h : raymarch a f = some res)
    (h1 : raymarch a f1 = some res1) : res = res1 := by
  rcases raymarch_cases a f res h with ⟨hn, hr⟩ | ⟨r, s, l, hs, hv, hd, hr⟩ <;>
    rcases raymarch_cases a f1 res1 h1 with ⟨hn1, hr1⟩ | ⟨r1, s1, l1, hs1, hv1, hd1, hr1⟩
  · rw [hr, hr1]
  · exact absurd (hn.symm.trans hs1) (by simp)
  · exact absurd (hs.symm.trans hn1) (by simp)
  · have e0 : (r, s) = (r1, s1) := Option.some.inj (hs.symm.trans hs1)
    obtain ⟨rfl, rfl⟩ := Prod.mk.inj e0
    rw [hr, hr1, visitsEnd_unique a.env r f f1 s l l1 hv hv1]

/-- The march of a ray in a grid that has data everywhere always ends. -/
theorem dense_ends (a : RaymarchArgs dim) (hb : 1 ≤ a.env.block) (hg : GoodSeg a)
    (hdense : ∀ c, a.env.inBounds c → 0 ≤ a.env.sampleLevel c) (hlen : a.seg.t1 - a.seg.t0 ≤ 1e24) :
    ∃ N res, ∀ fuel, N ≤ fuel → raymarch a fuel = some res := by
  refine C78_ends a hb fun r s hs => ⟨?_, ?_⟩
  · by_cases hi : a.env.inBounds (startCell r)
    · exact Or.inl (hdense _ hi)
    · exact Or.inr (Or.inl hi)
  · have h := C78_starts a hb hg
    rw [hs] at h
    obtain ⟨t0, -, h1, hr, -⟩ := h
    have h1' : 0 ≤ r.t1 := le_trans (by norm_num) h1
    obtain ⟨⟨x, -⟩, -⟩ := (hr 0).1 ⟨le_rfl, h1'⟩
    obtain ⟨⟨-, y⟩, -⟩ := (hr r.t1).1 ⟨h1', le_rfl⟩
    linarith

end DexRT
