import Verif.Model.Merges
import Verif.Lemmas.FormalSol2
/-! Helper lemmas for the selectable merges. -/
namespace DexRT.Merges
open DexRT DexRT.Fs DexRT.Dir

theorem sumLoop_between {ι : Type} (f : ι → Outcome ℝ) (a b : ι → ℝ) : ∀ (l : List ι) (acc : ℝ),
    (∀ i ∈ l, ∃ y, f i = .ok y ∧ a i ≤ y ∧ y ≤ b i) →
    ∃ s, sumLoop f l acc = .ok s ∧ acc + (l.map a).sum ≤ s ∧ s ≤ acc + (l.map b).sum
  | [], acc, _ => ⟨acc, rfl, by simp, by simp⟩
  | i :: is, acc, h => by
    obtain ⟨y, h1, h2, h3⟩ := h i List.mem_cons_self
    obtain ⟨s, s1, s2, s3⟩ := sumLoop_between f a b is (acc + y) fun j hj => h j (List.mem_cons_of_mem _ hj)
    refine ⟨s, by simp only [sumLoop, h1, Outcome.ok_bind]; exact s1, ?_, ?_⟩
    · rw [List.map_cons, List.sum_cons]; linarith
    · rw [List.map_cons, List.sum_cons]; linarith

/-- a mean over `T` terms -/
theorem mean_between (f : Nat → Outcome ℝ) (T : Nat) (hT : 0 < T) (m M : ℝ)
    (h : ∀ r, r < T → ∃ y, f r = .ok y ∧ m ≤ y ∧ y ≤ M) :
    ∃ s, sumLoop (fun r => do let x ← f r; .ok (1 / (T : ℝ) * x)) (List.range T) 0 = .ok s ∧ m ≤ s ∧ s ≤ M := by
  have hT' : (0 : ℝ) < T := by exact_mod_cast hT
  obtain ⟨s, s1, s2, s3⟩ := sumLoop_between (fun r => do let x ← f r; .ok (1 / (T : ℝ) * x))
    (fun _ => 1 / (T : ℝ) * m) (fun _ => 1 / (T : ℝ) * M) (List.range T) 0 (by
      intro r hr
      obtain ⟨y, y1, y2, y3⟩ := h r (List.mem_range.mp hr)
      refine ⟨1 / (T : ℝ) * y, ?_, ?_, ?_⟩
      · show (f r >>= fun x => .ok (1 / (T : ℝ) * x)) = _
        rw [y1]; rfl
      · exact mul_le_mul_of_nonneg_left y2 (by positivity)
      · exact mul_le_mul_of_nonneg_left y3 (by positivity))
  refine ⟨s, s1, ?_, ?_⟩
  · simp only [List.map_const', List.sum_replicate, List.length_range, nsmul_eq_mul] at s2
    rw [zero_add] at s2; rwa [← mul_assoc, mul_one_div_cancel hT'.ne', one_mul] at s2
  · simp only [List.map_const', List.sum_replicate, List.length_range, nsmul_eq_mul] at s3
    rw [zero_add] at s3; rwa [← mul_assoc, mul_one_div_cancel hT'.ne', one_mul] at s3

/-- the four samples of a probe of cascade `n` -/
theorem sample_ok {Nx Nz n u v : Nat} (hu : u < probesOn Nx n) (hv : v < probesOn Nz n) :
    (∀ k, ∃ U V : Nat, U < probesOn Nx (n + 1) ∧ V < probesOn Nz (n + 1) ∧
      (bilinearSample (u : Int) (v : Int) (probesOn Nx (n + 1) : Nat) (probesOn Nz (n + 1) : Nat) k).1 = ((U : Int), (V : Int)) ∧
      0 ≤ (bilinearSample (u : Int) (v : Int) (probesOn Nx (n + 1) : Nat) (probesOn Nz (n + 1) : Nat) k).2) ∧
    ((List.range 4).map fun k =>
      (((bilinearSample (u : Int) (v : Int) (probesOn Nx (n + 1) : Nat) (probesOn Nz (n + 1) : Nat) k).2 : ℚ) : ℝ)).sum = 1 := by
  have cu := cornerN_lt hu
  have cv := cornerN_lt hv
  have fu := frac_pos u
  have fv := frac_pos v
  have du := corner2_lt cu
  have dv := corner2_lt cv
  have key := bilinear_nat u v _ _ cu cv
  constructor
  · intro k
    rw [key k]
    have a1 : 0 ≤ 1 - fracN u := by linarith
    have a2 : 0 ≤ 1 - fracN v := by linarith
    match k with
    | 0 => exact ⟨_, _, cu, cv, rfl, mul_nonneg fu.1.le fv.1.le⟩
    | 1 => exact ⟨_, _, du, cv, rfl, mul_nonneg a1 fv.1.le⟩
    | 2 => exact ⟨_, _, cu, dv, rfl, mul_nonneg fu.1.le a2⟩
    | k + 3 => exact ⟨_, _, du, dv, rfl, mul_nonneg a1 a2⟩
  · simp only [key, List.range_succ, List.range_zero, List.nil_append, List.cons_append, List.map_cons, List.map_nil,
      List.sum_cons, List.sum_nil]
    push_cast; ring

theorem corners_between (e : Env) {n : Nat} {p : ProbeIdx2} (hu : p.u < probesOn e.c0.np0 n) (hv : p.v < probesOn e.c0.np1 n)
    (f : Nat → Nat → Outcome ℝ) (m M : ℝ)
    (h : ∀ U V, U < probesOn e.c0.np0 (n + 1) → V < probesOn e.c0.np1 (n + 1) → ∃ y, f U V = .ok y ∧ m ≤ y ∧ y ≤ M) :
    ∃ s, corners e n p f = .ok s ∧ m ≤ s ∧ s ≤ M := by
  obtain ⟨h1, h2⟩ := sample_ok hu hv
  obtain ⟨d0, d1⟩ := np_probesOn e.cfg e.c0 (n + 1)
  unfold corners
  rw [d0, d1]
  obtain ⟨W, hW⟩ : ∃ W, W = fun k => (((bilinearSample (p.u : Int) (p.v : Int) (probesOn e.c0.np0 (n + 1) : Nat)
    (probesOn e.c0.np1 (n + 1) : Nat) k).2 : ℚ) : ℝ) := ⟨_, rfl⟩
  obtain ⟨s, s1, s2, s3⟩ := sumLoop_between (fun k =>
    let s := bilinearSample (p.u : Int) (p.v : Int) (probesOn e.c0.np0 (n + 1) : Nat) (probesOn e.c0.np1 (n + 1) : Nat) k
    if 0 ≤ s.1.1 ∧ 0 ≤ s.1.2 then do
      let x ← f s.1.1.toNat s.1.2.toNat
      .ok ((s.2 : ℝ) * x)
    else .ub) (fun k => W k * m) (fun k => W k * M) (List.range 4) 0 (by
      intro k _
      obtain ⟨U, V, hU, hV, hs, hw⟩ := h1 k
      obtain ⟨y, y1, y2, y3⟩ := h U V hU hV
      have hw' : 0 ≤ W k := by simp only [hW]; exact_mod_cast hw
      refine ⟨W k * y, ?_, mul_le_mul_of_nonneg_left y2 hw', mul_le_mul_of_nonneg_left y3 hw'⟩
      simp only [hs]
      rw [if_pos ⟨by omega, by omega⟩, Int.toNat_natCast, Int.toNat_natCast, y1, hW]
      rfl)
  refine ⟨s, s1, ?_, ?_⟩
  · rw [List.sum_map_mul_right, hW, h2] at s2; linarith
  · rw [List.sum_map_mul_right, hW, h2] at s3; linarith

/-- the index of a direction -/
theorem frac_range (nd : Nat) (hnd : 0 < nd) (z x : ℝ) :
    0 ≤ ⌊fracDirIdx nd (atan2 z x)⌋ + (nd : Int) := by
  have h1 := Complex.neg_pi_lt_arg (⟨x, z⟩ : ℂ)
  have hpi := Real.pi_pos
  have hn : (1 : ℝ) ≤ nd := by exact_mod_cast hnd
  have : -(nd : ℝ) ≤ fracDirIdx nd (atan2 z x) := by
    unfold fracDirIdx atan2
    have : -(1 / 2 : ℝ) ≤ Complex.arg ⟨x, z⟩ / (2 * Real.pi) := by
      rw [le_div_iff₀ (by positivity)]; nlinarith
    nlinarith
  have h2 : -(nd : Int) ≤ ⌊fracDirIdx nd (atan2 z x)⌋ := by
    rw [Int.le_floor]; push_cast; exact this
  omega

/-- the two directions and the weight are those of the index alone -/
theorem interpDir_form (cfg : RcCfg) (s : Casc2) (p : ProbeIdx2) (z x : ℝ) (hd : 0 < s.dirs) :
    ∃ d0 d1 w, d0 < s.dirs ∧ d1 < s.dirs ∧ 0 ≤ w ∧ w ≤ 1 ∧ ∀ (g : ℝ → ℝ) (buf : List ℝ) (y0 y1 : ℝ),
      buf[probeLinearIndex cfg s { p with dir := d0 }]? = some y0 →
      buf[probeLinearIndex cfg s { p with dir := d1 }]? = some y1 →
      interpDir cfg s g buf p (fracDirIdx s.dirs (atan2 z x)) = .ok ((1 - w) * g y0 + w * g y1) := by
  have hr := frac_range s.dirs hd z x
  generalize fracDirIdx s.dirs (atan2 z x) = F at *
  have hlt : ∀ b : Int, 0 ≤ b → 0 ≤ b.tmod s.dirs ∧ (b.tmod s.dirs).toNat < s.dirs := by
    intro b hb
    have a := Int.tmod_nonneg (s.dirs : Int) hb
    have c := Int.tmod_lt_of_pos b (by exact_mod_cast hd : (0 : Int) < s.dirs)
    exact ⟨a, by omega⟩
  obtain ⟨a0, a1⟩ := hlt (⌊F⌋ + s.dirs) hr
  obtain ⟨b0, b1⟩ := hlt (⌊F⌋ + 1 + s.dirs) (by omega)
  have f0 := Int.floor_le F
  have f1 := Int.lt_floor_add_one F
  refine ⟨_, _, F - ⌊F⌋, a1, b1, by linarith, by linarith, fun g buf y0 y1 p0 p1 => ?_⟩
  unfold interpDir
  simp only [if_pos (And.intro a0 b0), readAt, p0, p1, Outcome.ok_bind]

theorem interpDir_between (cfg : RcCfg) (s : Casc2) (g : ℝ → ℝ) (buf : List ℝ) (p : ProbeIdx2) (z x : ℝ) (hd : 0 < s.dirs)
    (m M : ℝ) (h : ∀ d, d < s.dirs → ∃ y, buf[probeLinearIndex cfg s { p with dir := d }]? = some y ∧ m ≤ g y ∧ g y ≤ M) :
    ∃ y, interpDir cfg s g buf p (fracDirIdx s.dirs (atan2 z x)) = .ok y ∧ m ≤ y ∧ y ≤ M := by
  obtain ⟨d0, d1, w, a0, a1, w0, w1, hf⟩ := interpDir_form cfg s p z x hd
  obtain ⟨y0, p0, q0, r0⟩ := h _ a0
  obtain ⟨y1, p1, q1, r1⟩ := h _ a1
  exact ⟨_, hf g buf y0 y1 p0 p1, by nlinarith, by nlinarith⟩

/-- the sum of the weights of the default merge -/
theorem pairs_sum (w : Nat → ℝ) (T : Nat) (c : ℝ) : ∀ l : List Nat,
    ((l.flatMap fun k => (List.range T).map fun r => (k, r)).map fun kr => w kr.1 * c).sum = T * c * (l.map w).sum
  | [] => by simp
  | k :: ks => by
    rw [List.flatMap_cons, List.map_append, List.sum_append, pairs_sum w T c ks, List.map_cons, List.sum_cons]
    simp [List.map_map, Function.comp_def, List.map_const']
    ring

end DexRT.Merges
