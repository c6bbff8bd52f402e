import Verif.Lemmas.MeanJ3
import Verif.Props.BlockMap
import Mathlib.Tactic.FieldSimp
import Mathlib.Algebra.Order.BigOperators.Group.Finset
/-!
# C62: the mean intensity J
-/
namespace DexRT

variable {K : Type} [Field K] [CharZero K]

private theorem passes2 {e : MergeEnv K} {k nx nz : Nat} {Active : Coord2 → Prop} (h : Run2 e k nx nz Active)
    (f : Nat → Coord2)
    (hf : ∀ i : Nat, (i : Int) < jCols2 e k nx nz → e.P.coord i = .ok (f i) ∧ e.ks (f i) = .ok (i : Int) ∧
        Computed2 e k nx nz Active (f i) ∧ JAddr2 e (f i) i ∧
        0 ≤ (f i).x ∧ (f i).x < ((nx * 2 ^ k : Nat) : Int) ∧ 0 ≤ (f i).z ∧ (f i).z < ((nz * 2 ^ k : Nat) : Int))
    (n : Nat) (hn : (n : Int) = jCols2 e k nx nz)
    (I : ProbeIdx2 → K) (waves laStart : Nat) (hw : waves ≤ e.s.wave)
    (c0 : Nat → List K) (hc0 : ∀ t, t < subsetTasks e.cfg → CascadeHolds2 e k nx nz Active waves I t (c0 t))
    (sched : Nat → List JIter) (hsched : ∀ t, (sched t).Perm (jIters n e.s.dirs waves e.s.incl)) :
    ∀ (ts : List Nat) (_ : ∀ t ∈ ts, t < subsetTasks e.cfg) (J : Arr2 K) (_ : J.cols = n)
      (_ : J.rows = e.s.wave ∨ laStart + waves ≤ J.rows),
    ∃ J', formalSolJ e laStart c0 sched ts J = .ok J' ∧ J'.rows = J.rows ∧ J'.cols = J.cols ∧
      ∀ r a, J'.get r a = J.get r a +
        if a < n ∧ jFirstRow e.s J.rows laStart ≤ r ∧ r < jFirstRow e.s J.rows laStart + waves then
          (ts.map fun t => ∑ p ∈ Finset.range e.s.dirs, ∑ th ∈ Finset.range e.s.incl,
            1 / (e.cfg.p0rays : K) * e.wmuy.getD th 0 *
              I ⟨(f a).x.toNat, (f a).z.toNat, (nthRaysSubset e.cfg (storageToRays e.cfg e.s) t).1 + p, th,
                r - jFirstRow e.s J.rows laStart⟩).sum
        else 0
  | [], _, J, _, _ => ⟨J, rfl, rfl, rfl, fun r a => by simp⟩
  | t :: ts, hts, J, hc, hr => by
    obtain ⟨J1, e1, e2, e3, e4⟩ := merge_pass2 h f hf n hn I t (hts t List.mem_cons_self) waves laStart hw (c0 t)
      (hc0 t (hts t List.mem_cons_self)) (sched t) (hsched t) J hc hr
    obtain ⟨J2, g1, g2, g3, g4⟩ := passes2 h f hf n hn I waves laStart hw c0 hc0 sched hsched ts
      (fun u hu => hts u (List.mem_cons_of_mem _ hu)) J1 (by omega) (by rw [e2]; exact hr)
    refine ⟨J2, ?_, by omega, by omega, fun r a => ?_⟩
    · unfold formalSolJ; rw [e1]; exact g1
    · rw [g4, e4, e2]
      split
      · simp only [List.map_cons, List.sum_cons]; ring
      · ring

/-- **C62** 2D, every grid, dense or sparse, every quadrature, every order of the parallel iterations of
every pass: given cascade 0 of each pass, the formal solution of a wavelength batch performs no invalid
access and adds to J exactly the angular average of the intensity, once, for every computed cell and every
wavelength of the batch, in the cell's column and the wavelength's row (row `wave` when J is a plane of one
batch, row `laStart + wave` when it holds all wavelengths); every other row is untouched. -/
theorem C62_mean_intensity2 (e : MergeEnv K) (k nx nz : Nat) (Active : Coord2 → Prop)
    (h : Run2 e k nx nz Active) (I : ProbeIdx2 → K) (waves laStart : Nat) (hw : waves ≤ e.s.wave)
    (c0 : Nat → List K) (hc0 : ∀ t, t < subsetTasks e.cfg → CascadeHolds2 e k nx nz Active waves I t (c0 t))
    (sched : Nat → List JIter)
    (hsched : ∀ t n, e.P.num = .ok n → (sched t).Perm (jIters n.toNat e.s.dirs waves e.s.incl))
    (J : Arr2 K) (hcols : (J.cols : Int) = jCols2 e k nx nz)
    (hrows : J.rows = e.s.wave ∨ laStart + waves ≤ J.rows) :
    let row := fun wave => if J.rows = e.s.wave then wave else laStart + wave
    ∃ J', formalSolJ e laStart c0 sched (List.range (subsetTasks e.cfg)) J = .ok J' ∧
      J'.rows = J.rows ∧ J'.cols = J.cols ∧
      (∀ c, Computed2 e k nx nz Active c → ∃ a, a < J.cols ∧ (∀ a', JAddr2 e c a' ↔ a' = a) ∧
        ∀ wave, wave < waves → J'.get (row wave) a = J.get (row wave) a +
          meanIntensity2 e.cfg.p0rays e.s.incl e.wmuy I c.x.toNat c.z.toNat wave) ∧
      (∀ r a, (∀ wave, wave < waves → r ≠ row wave) → J'.get r a = J.get r a) := by
  intro row
  obtain ⟨f, hnum, hpos, hf, hback⟩ := run2_probes h
  obtain ⟨n, hn⟩ := Int.eq_ofNat_of_zero_le hpos
  have hn' : (n : Int) = jCols2 e k nx nz := hn.symm
  have hcn : J.cols = n := by omega
  obtain ⟨J', e1, e2, e3, e4⟩ := passes2 h f hf n hn' I waves laStart hw c0 hc0 sched
    (fun t => by have := hsched t _ hnum; rw [hn] at this; simpa using this)
    (List.range (subsetTasks e.cfg)) (fun t ht => List.mem_range.1 ht) J hcn hrows
  have hrow : ∀ wave, row wave = jFirstRow e.s J.rows laStart + wave := by
    intro wave; simp only [row, jFirstRow]
    by_cases hh : J.rows = e.s.wave
    · rw [if_pos hh, if_pos hh.symm]; omega
    · rw [if_neg hh, if_neg (fun h' => hh h'.symm)]
  refine ⟨J', e1, e2, e3, fun c hc => ?_, fun r a hra => ?_⟩
  · obtain ⟨a, ha, hfa, hjaddr⟩ := hback c hc
    refine ⟨a, by omega, hjaddr, fun wave hwv => ?_⟩
    rw [e4, hrow]
    congr 1
    rw [if_pos ⟨by omega, by omega, by omega⟩, hfa, Nat.add_sub_cancel_left]
    unfold meanIntensity2
    rw [sum_range_list, Finset.sum_div]
    obtain ⟨wv, inc, hst⟩ := h.storage
    have hp0 := h.valid.1
    have hmode := h.mode
    have step : ∀ d, ∑ th ∈ Finset.range e.s.incl, 1 / (e.cfg.p0rays : K) * e.wmuy.getD th 0 *
        I ⟨c.x.toNat, c.z.toNat, d, th, wave⟩ =
        (∑ th ∈ Finset.range e.s.incl, e.wmuy.getD th 0 * I ⟨c.x.toNat, c.z.toNat, d, th, wave⟩) /
          (e.cfg.p0rays : K) := by
      intro d
      rw [Finset.sum_div]
      refine Finset.sum_congr rfl fun th _ => ?_
      ring
    simp only [step]
    cases hm : e.cfg.mode with
    | preaverage => contradiction
    | all =>
      have hd : e.s.dirs = e.cfg.p0rays := by rw [hst]; simp [raysToStorage, hm]
      simp [subsetTasks, nthRaysSubset, hm, hd]
    | dirByDir =>
      have hd : e.s.dirs = 1 := by rw [hst]; simp [raysToStorage, hm, Nat.div_self hp0]
      simp [subsetTasks, nthRaysSubset, storageToRays, hm, hd, Nat.div_self hp0]
  · rw [e4, if_neg, add_zero]
    rintro ⟨-, h2, h3⟩
    refine hra (r - jFirstRow e.s J.rows laStart) (by omega) ?_
    rw [hrow]; omega

private theorem passes3 {e : MergeEnv3} {k nx ny nz : Nat} {Active : Coord3 → Prop}
    (h : Run3 e k nx ny nz Active)
    (f : Nat → Coord3)
    (hf : ∀ i : Nat, (i : Int) < jCols3 e k nx ny nz → e.P.coord i = .ok (f i) ∧ e.ks (f i) = .ok (i : Int) ∧
        Computed3 e k nx ny nz Active (f i) ∧ JAddr3 e (f i) i ∧
        0 ≤ (f i).x ∧ (f i).x < ((nx * 2 ^ k : Nat) : Int) ∧ 0 ≤ (f i).y ∧ (f i).y < ((ny * 2 ^ k : Nat) : Int) ∧
        0 ≤ (f i).z ∧ (f i).z < ((nz * 2 ^ k : Nat) : Int))
    (n : Nat) (hn : (n : Int) = jCols3 e k nx ny nz)
    (I : ProbeIdx3 → K) (la : Nat)
    (c0 : Nat → List K) (hc0 : ∀ t, t < subsetTasks3 e.cfg → CascadeHolds3 e k nx ny nz Active I t (c0 t))
    (sched : Nat → List JIter3) (hsched : ∀ t, (sched t).Perm (jIters3 n e.s.polar e.s.az)) :
    ∀ (ts : List Nat) (_ : ∀ t ∈ ts, t < subsetTasks3 e.cfg) (J : Arr2 K) (_ : J.cols = n)
      (_ : J.rows = 1 ∨ la < J.rows),
    ∃ J', formalSolJ3 e la c0 sched ts J = .ok J' ∧ J'.rows = J.rows ∧ J'.cols = J.cols ∧
      ∀ r a, J'.get r a = J.get r a +
        if a < n ∧ r = (if J.rows = 1 then 0 else la) then
          (ts.map fun t => ∑ p ∈ Finset.range e.s.polar, ∑ q ∈ Finset.range e.s.az,
            1 / ((e.cfg.c0az * e.cfg.c0polar : Nat) : K) *
              I ⟨(f a).x.toNat, (f a).y.toNat, (f a).z.toNat,
                (nthRaysSubset3 e.cfg (storageToRays3 e.cfg e.s) t).startPolar + p,
                (nthRaysSubset3 e.cfg (storageToRays3 e.cfg e.s) t).startAz + q⟩).sum
        else 0
  | [], _, J, _, _ => ⟨J, rfl, rfl, rfl, fun r a => by simp⟩
  | t :: ts, hts, J, hc, hr => by
    obtain ⟨J1, e1, e2, e3, e4⟩ := merge_pass3 h f hf n hn I t la (c0 t)
      (hc0 t (hts t List.mem_cons_self)) (sched t) (hsched t) J hc hr
    obtain ⟨J2, g1, g2, g3, g4⟩ := passes3 h f hf n hn I la c0 hc0 sched hsched ts
      (fun u hu => hts u (List.mem_cons_of_mem _ hu)) J1 (by omega) (by rw [e2]; exact hr)
    refine ⟨J2, ?_, by omega, by omega, fun r a => ?_⟩
    · unfold formalSolJ3; rw [e1]; exact g1
    · rw [g4, e4, e2]
      by_cases hq : a < n ∧ r = (if J.rows = 1 then 0 else la)
      · rw [if_pos hq, if_pos hq, if_pos hq]; simp only [List.map_cons, List.sum_cons]; ring
      · rw [if_neg hq, if_neg hq, if_neg hq]; ring

/-- **C62** 3D, every grid within the `int` cell count, dense or sparse, with or without direction-by-direction
passes, every order of the iterations: a wavelength's formal solution adds to J exactly the mean over all
directions of the intensity for every computed cell, in the cell's column and the wavelength's row (row 0
when J is a single plane), and touches no other row. -/
theorem C62_mean_intensity3 (e : MergeEnv3) (k nx ny nz : Nat) (Active : Coord3 → Prop)
    (h : Run3 e k nx ny nz Active) (I : ProbeIdx3 → K) (la : Nat)
    (c0 : Nat → List K) (hc0 : ∀ t, t < subsetTasks3 e.cfg → CascadeHolds3 e k nx ny nz Active I t (c0 t))
    (sched : Nat → List JIter3)
    (hsched : ∀ t n, e.P.num = .ok n → (sched t).Perm (jIters3 n.toNat e.s.polar e.s.az))
    (J : Arr2 K) (hcols : (J.cols : Int) = jCols3 e k nx ny nz) (hrows : J.rows = 1 ∨ la < J.rows) :
    let row := if J.rows = 1 then 0 else la
    ∃ J', formalSolJ3 e la c0 sched (List.range (subsetTasks3 e.cfg)) J = .ok J' ∧
      J'.rows = J.rows ∧ J'.cols = J.cols ∧
      (∀ c, Computed3 e k nx ny nz Active c → ∃ a, a < J.cols ∧ (∀ a', JAddr3 e c a' ↔ a' = a) ∧
        J'.get row a = J.get row a +
          meanIntensity3 e.cfg.c0az e.cfg.c0polar I c.x.toNat c.y.toNat c.z.toNat) ∧
      (∀ r a, r ≠ row → J'.get r a = J.get r a) := by
  intro row
  obtain ⟨f, hnum, hpos, hf, hback⟩ := run3_probes h
  obtain ⟨n, hn⟩ := Int.eq_ofNat_of_zero_le hpos
  have hn' : (n : Int) = jCols3 e k nx ny nz := hn.symm
  have hcn : J.cols = n := by omega
  obtain ⟨J', e1, e2, e3, e4⟩ := passes3 h f hf n hn' I la c0 hc0 sched
    (fun t => by have := hsched t _ hnum; rw [hn] at this; simpa using this)
    (List.range (subsetTasks3 e.cfg)) (fun t ht => List.mem_range.1 ht) J hcn hrows
  refine ⟨J', e1, e2, e3, fun c hc => ?_, fun r a hra => ?_⟩
  · obtain ⟨a, ha, hfa, hjaddr⟩ := hback c hc
    refine ⟨a, by omega, hjaddr, ?_⟩
    rw [e4]
    congr 1
    rw [if_pos ⟨by omega, rfl⟩, hfa]
    unfold meanIntensity3
    rw [sum_range_list, Finset.sum_div]
    obtain ⟨haz, hpol⟩ := h.rays
    have hst := h.storage
    simp only [Finset.sum_div]
    by_cases hd : e.cfg.dirByDir = true
    · have h1 : e.s.az = 1 ∧ e.s.polar = 1 := by
        rw [hst]; simp [raysToStorage3, hd, Nat.div_self haz, Nat.div_self hpol]
      have hst2 : subsetTasks3 e.cfg = e.cfg.c0az * e.cfg.c0polar := by simp [subsetTasks3, hd]
      rw [hst2, sum_range_mul]
      refine Finset.sum_congr rfl fun p hp => Finset.sum_congr rfl fun q hq => ?_
      rw [Finset.mem_range] at hp hq
      have hdiv : (p * e.cfg.c0az + q) / e.cfg.c0az = p := by
        rw [Nat.mul_comm, Nat.add_comm]; exact mix_div hq
      simp only [h1.1, h1.2, nthRaysSubset3, storageToRays3, hd, if_true, Nat.one_mul, Nat.div_self haz,
        Nat.div_self hpol, hdiv, Finset.sum_range_one]
      rw [show (p * e.cfg.c0az + q - p * e.cfg.c0az) = q by omega]
      simp only [Nat.mul_one, Nat.add_zero]
      ring
    · have h1 : e.s.az = e.cfg.c0az ∧ e.s.polar = e.cfg.c0polar := by
        rw [hst]; simp [raysToStorage3, hd]
      have hst2 : subsetTasks3 e.cfg = 1 := by simp [subsetTasks3, hd]
      rw [hst2, Finset.sum_range_one, h1.1, h1.2]
      refine Finset.sum_congr rfl fun p hp => Finset.sum_congr rfl fun q hq => ?_
      simp only [nthRaysSubset3, hd]
      simp only [Bool.false_eq_true, if_false, Nat.zero_add]
      ring
  · rw [e4, if_neg, add_zero]
    rintro ⟨-, h2⟩; exact hra h2

/-! ### All wavelengths -/

/-- What one batch does, in terms of a table `M` of mean intensities by wavelength and column. -/
def BatchSpec (sol : Nat → Arr2 K → Outcome (Arr2 K)) (W n : Nat) (waves : Nat → Nat) (M : Nat → Nat → K)
    (la : Nat) : Prop :=
  ∀ J : Arr2 K, J.cols = n → (J.rows = W ∨ la + waves la ≤ J.rows) →
    ∃ J', sol la J = .ok J' ∧ J'.rows = J.rows ∧ J'.cols = J.cols ∧
      (∀ wave a, wave < waves la → a < n → J'.get (if J.rows = W then wave else la + wave) a =
        J.get (if J.rows = W then wave else la + wave) a + M (la + wave) a) ∧
      ∀ r a, (∀ wave, wave < waves la → r ≠ if J.rows = W then wave else la + wave) → J'.get r a = J.get r a

theorem batches_cpu (sol : Nat → Arr2 K → Outcome (Arr2 K)) (W n nwav : Nat) (waves : Nat → Nat)
    (M : Nat → Nat → K) (hW : 0 < W) (hwv : ∀ la, waves la = min W (nwav - la)) :
    ∀ (las : List Nat), las.Nodup → (∀ la ∈ las, W ∣ la ∧ la < nwav ∧ BatchSpec sol W n waves M la) →
    ∀ J Jcpu : Arr2 K, J.rows = W → J.cols = n → Jcpu.rows = nwav → Jcpu.cols = n →
    ∃ J' Jcpu', batchesCpu sol waves las J Jcpu = .ok (J', Jcpu') ∧ Jcpu'.rows = nwav ∧ Jcpu'.cols = n ∧
      ∀ r a, r < nwav → a < n → Jcpu'.get r a = if r / W * W ∈ las then M r a else Jcpu.get r a
  | [], _, _, J, Jcpu, _, _, h1, h2 => ⟨J, Jcpu, rfl, h1, h2, fun r a _ _ => by simp⟩
  | la :: las, hnd, hla, J, Jcpu, h1, h2, h3, h4 => by
    obtain ⟨hdvd, hlt, hspec⟩ := hla la List.mem_cons_self
    rw [List.nodup_cons] at hnd
    obtain ⟨J1, e1, e2, e3, e4, -⟩ := hspec J.zero h2 (Or.inl h1)
    have hz : J.zero.rows = W := h1
    rw [hz] at e2 e4
    simp only [if_true] at e4
    have hz2 : J.zero.cols = n := h2
    rw [hz2] at e3
    obtain ⟨K, hK⟩ : ∃ K : Arr2 K, K = { Jcpu with get := fun r k =>
        if (la ≤ r ∧ r < la + waves la ∧ k < J1.cols) then J1.get (r - la) k else Jcpu.get r k } := ⟨_, rfl⟩
    have hwb := hwv la
    have hcopy : copyPlane J1 Jcpu la (waves la) = .ok K := by
      unfold copyPlane; rw [if_pos ⟨by omega, by omega, by omega⟩, hK]
    have hKr : K.rows = nwav := by rw [hK]; exact h3
    have hKc : K.cols = n := by rw [hK]; exact h4
    obtain ⟨J2, K2, g1, g2, g3, g4⟩ := batches_cpu sol W n nwav waves M hW hwv las hnd.2
      (fun u hu => hla u (List.mem_cons_of_mem _ hu)) J1 K e2 e3 hKr hKc
    refine ⟨J2, K2, ?_, g2, g3, fun r a hr ha => ?_⟩
    · unfold batchesCpu; rw [e1]; simp only [Outcome.ok_bind]; rw [hcopy]; exact g1
    · rw [g4 r a hr ha]
      have hin : (la ≤ r ∧ r < la + waves la) ↔ r / W * W = la := by
        obtain ⟨b, rfl⟩ := hdvd
        have := Nat.div_add_mod r W
        have hm := Nat.mod_lt r hW
        constructor
        · rintro ⟨i1, i2⟩
          have : r / W = b := by
            rw [Nat.div_eq_iff hW, Nat.mul_comm]
            constructor
            · exact i1
            · omega
          rw [this, Nat.mul_comm]
        · intro hh
          rw [Nat.mul_comm] at hh; omega
      by_cases hmem : r / W * W ∈ las
      · rw [if_pos hmem, if_pos (List.mem_cons_of_mem _ hmem)]
      · rw [if_neg hmem, hK]
        simp only [e3, List.mem_cons, hmem, or_false]
        by_cases hr2 : r / W * W = la
        · obtain ⟨i1, i2⟩ := hin.2 hr2
          rw [if_pos hr2, if_pos ⟨i1, i2, ha⟩, e4 (r - la) a (by omega) ha]
          rw [show la + (r - la) = r by omega]
          simp [Arr2.zero]
        · rw [if_neg hr2, if_neg]
          rintro ⟨i1, i2, -⟩; exact hr2 (hin.1 ⟨i1, i2⟩)

theorem batches_dev (sol : Nat → Arr2 K → Outcome (Arr2 K)) (W n nwav : Nat) (waves : Nat → Nat)
    (M : Nat → Nat → K) (hW : 0 < W) (hwv : ∀ la, waves la = min W (nwav - la)) :
    ∀ (las : List Nat), las.Nodup → (∀ la ∈ las, W ∣ la ∧ la < nwav ∧ BatchSpec sol W n waves M la) →
    ∀ J : Arr2 K, J.rows = nwav → J.cols = n →
    ∃ J', batchesDev sol las J = .ok J' ∧ J'.rows = nwav ∧ J'.cols = n ∧
      ∀ r a, r < nwav → a < n → J'.get r a = J.get r a + if r / W * W ∈ las then M r a else 0
  | [], _, _, J, h1, h2 => ⟨J, rfl, h1, h2, fun r a _ _ => by simp⟩
  | la :: las, hnd, hla, J, h1, h2 => by
    obtain ⟨hdvd, hlt, hspec⟩ := hla la List.mem_cons_self
    rw [List.nodup_cons] at hnd
    have hwb := hwv la
    obtain ⟨J1, e1, e2, e3, e4, e5⟩ := hspec J h2 (Or.inr (by omega))
    -- the row is `la + wave` in both cases
    have hrow : ∀ wave, (if J.rows = W then wave else la + wave) = la + wave := by
      intro wave
      split
      · rename_i hh
        have : la = 0 := by
          obtain ⟨b, rfl⟩ := hdvd
          rcases Nat.eq_zero_or_pos b with hb | hb
          · simp [hb]
          · have : W * 1 ≤ W * b := Nat.mul_le_mul_left _ hb
            omega
        omega
      · rfl
    simp only [hrow] at e4 e5
    obtain ⟨J2, g1, g2, g3, g4⟩ := batches_dev sol W n nwav waves M hW hwv las hnd.2
      (fun u hu => hla u (List.mem_cons_of_mem _ hu)) J1 (by omega) (by omega)
    refine ⟨J2, ?_, g2, g3, fun r a hr ha => ?_⟩
    · unfold batchesDev; rw [e1]; exact g1
    · rw [g4 r a hr ha]
      have hin : (la ≤ r ∧ r < la + waves la) ↔ r / W * W = la := by
        obtain ⟨b, rfl⟩ := hdvd
        have := Nat.div_add_mod r W
        have hm := Nat.mod_lt r hW
        constructor
        · rintro ⟨i1, i2⟩
          have : r / W = b := by
            rw [Nat.div_eq_iff hW, Nat.mul_comm]
            constructor
            · exact i1
            · omega
          rw [this, Nat.mul_comm]
        · intro hh
          rw [Nat.mul_comm] at hh; omega
      by_cases hr2 : r / W * W = la
      · obtain ⟨i1, i2⟩ := hin.2 hr2
        have := e4 (r - la) a (by omega) ha
        rw [show la + (r - la) = r by omega] at this
        rw [this, if_neg (by rw [hr2]; exact hnd.1), if_pos (by rw [hr2]; exact List.mem_cons_self)]
        ring
      · rw [e5 r a (fun wave hwave hh => hr2 (hin.1 ⟨by omega, by omega⟩))]
        simp only [List.mem_cons, hr2, false_or]

/-- **C62** Over a whole iteration: whatever the order in which the wavelength batches are handed out, the
array J ends up holding the mean intensity of every wavelength at every computed cell, with the same values
whether J is kept on the device for all wavelengths or as one plane copied to the host after each batch. -/
theorem C62_all_wavelengths (e : MergeEnv K) (k nx nz : Nat) (Active : Coord2 → Prop)
    (h : Run2 e k nx nz Active) (nwav : Nat) (hW : 0 < e.s.wave)
    (waves : Nat → Nat) (hwv : ∀ la, waves la = min e.s.wave (nwav - la))
    (las : List Nat) (hlas : las.Nodup) (hcover : ∀ la, la ∈ las ↔ e.s.wave ∣ la ∧ la < nwav)
    (I : Nat → ProbeIdx2 → K) (c0 : Nat → Nat → List K)
    (hc0 : ∀ la t, t < subsetTasks e.cfg → CascadeHolds2 e k nx nz Active (waves la) (I la) t (c0 la t))
    (sched : Nat → Nat → List JIter)
    (hsched : ∀ la t n, e.P.num = .ok n → (sched la t).Perm (jIters n.toNat e.s.dirs (waves la) e.s.incl))
    (Jdev Jplane Jcpu : Arr2 K) (hd : Jdev.rows = nwav ∧ (Jdev.cols : Int) = jCols2 e k nx nz)
    (hzero : ∀ r a, Jdev.get r a = 0)
    (hp : Jplane.rows = e.s.wave ∧ Jplane.cols = Jdev.cols) (hc : Jcpu.rows = nwav ∧ Jcpu.cols = Jdev.cols) :
    let sol := fun la J => formalSolJ e la (c0 la) (sched la) (List.range (subsetTasks e.cfg)) J
    ∃ Jd Jp Jc, batchesDev sol las Jdev = .ok Jd ∧ batchesCpu sol waves las Jplane Jcpu = .ok (Jp, Jc) ∧
      ∀ c, Computed2 e k nx nz Active c → ∃ a, (∀ a', JAddr2 e c a' ↔ a' = a) ∧
        ∀ la, la < nwav →
          Jd.get la a = meanIntensity2 e.cfg.p0rays e.s.incl e.wmuy (I (la / e.s.wave * e.s.wave))
            c.x.toNat c.z.toNat (la % e.s.wave) ∧
          Jc.get la a = Jd.get la a := by
  intro sol
  obtain ⟨f, hnum, hpos, hf, hback⟩ := run2_probes h
  obtain ⟨n, hn⟩ := Int.eq_ofNat_of_zero_le hpos
  have hcn : Jdev.cols = n := by omega
  let M : Nat → Nat → K := fun la a => meanIntensity2 e.cfg.p0rays e.s.incl e.wmuy
    (I (la / e.s.wave * e.s.wave)) (f a).x.toNat (f a).z.toNat (la % e.s.wave)
  have hspec : ∀ la ∈ las, e.s.wave ∣ la ∧ la < nwav ∧ BatchSpec sol e.s.wave n waves M la := by
    intro la hla
    obtain ⟨h1, h2⟩ := (hcover la).1 hla
    refine ⟨h1, h2, fun J hJc hJr => ?_⟩
    obtain ⟨J', e1, e2, e3, e4, e5⟩ := C62_mean_intensity2 e k nx nz Active h (I la) (waves la) la
      (by rw [hwv]; omega) (c0 la) (hc0 la) (sched la) (hsched la) J (by omega) hJr
    refine ⟨J', e1, e2, e3, fun wave a hwave ha => ?_, e5⟩
    obtain ⟨q1, q2, q3, q4, -⟩ := hf a (by omega)
    obtain ⟨a', -, ha', hv⟩ := e4 (f a) q3
    have : a = a' := (ha' a).1 q4
    subst this
    rw [hv wave hwave]
    have hww : wave < e.s.wave := by have := hwv la; omega
    obtain ⟨b, rfl⟩ := h1
    have i1 : (e.s.wave * b + wave) / e.s.wave * e.s.wave = e.s.wave * b := by
      rw [Nat.add_comm, mix_div hww, Nat.mul_comm]
    have i2 : (e.s.wave * b + wave) % e.s.wave = wave := by rw [Nat.add_comm, mix_mod hww]
    simp only [M, i1, i2]
  obtain ⟨Jd, d1, -, -, d4⟩ := batches_dev sol e.s.wave n nwav waves M hW hwv las hlas hspec Jdev hd.1 hcn
  obtain ⟨Jp, Jc, p1, -, -, p4⟩ := batches_cpu sol e.s.wave n nwav waves M hW hwv las hlas hspec Jplane Jcpu
    hp.1 (by omega) hc.1 (by omega)
  refine ⟨Jd, Jp, Jc, d1, p1, fun c hcomp => ?_⟩
  obtain ⟨a, ha, hfa, hjaddr⟩ := hback c hcomp
  refine ⟨a, hjaddr, fun la hla => ?_⟩
  have hmem : la / e.s.wave * e.s.wave ∈ las := by
    rw [hcover]
    exact ⟨Dvd.intro_left _ rfl, lt_of_le_of_lt (Nat.div_mul_le_self la e.s.wave) hla⟩
  have ha' : a < n := by omega
  rw [d4 la a hla ha', p4 la a hla ha', if_pos hmem, if_pos hmem, hzero, zero_add]
  exact ⟨by simp only [M, hfa], rfl⟩


/-- **C62** Radiation of intensity `v` from every direction gives J equal to `v` times the sum of the
inclination weights; non-negative intensities and weights give a non-negative J. -/
theorem C62_isotropic [LinearOrder K] [IsStrictOrderedRing K] (nrays nincl : Nat) (hn : 0 < nrays) (w : List K) (hw : w.length = nincl)
    (I : ProbeIdx2 → K) (u v wave : Nat) :
    (∀ x, (∀ d th, I ⟨u, v, d, th, wave⟩ = x) → meanIntensity2 nrays nincl w I u v wave = x * w.sum) ∧
    ((∀ x ∈ w, 0 ≤ x) → (∀ d th, 0 ≤ I ⟨u, v, d, th, wave⟩) → 0 ≤ meanIntensity2 nrays nincl w I u v wave) ∧
    (∀ lo hi, (∀ x ∈ w, 0 ≤ x) → (∀ d th, lo ≤ I ⟨u, v, d, th, wave⟩ ∧ I ⟨u, v, d, th, wave⟩ ≤ hi) →
      lo * w.sum ≤ meanIntensity2 nrays nincl w I u v wave ∧
      meanIntensity2 nrays nincl w I u v wave ≤ hi * w.sum) := by
  have hsum : ∑ th ∈ Finset.range nincl, w.getD th 0 = w.sum := by
    rw [← sum_range_list]
    congr 1
    apply List.ext_getElem
    · simp [hw]
    · intro i h1 h2; simp [List.getD_eq_getElem?_getD, List.getElem?_eq_getElem h2]
  have hnq : (0 : K) < nrays := by exact_mod_cast hn
  have hw0 : ∀ th, (∀ x ∈ w, 0 ≤ x) → 0 ≤ w.getD th 0 := by
    intro th hx
    rw [List.getD_eq_getElem?_getD]
    by_cases h : th < w.length
    · rw [List.getElem?_eq_getElem h]; exact hx _ (List.getElem_mem h)
    · rw [List.getElem?_eq_none (by omega)]; simp
  have hconst : ∀ x : K, (∑ _d ∈ Finset.range nrays, ∑ th ∈ Finset.range nincl, w.getD th 0 * x) / nrays =
      x * w.sum := by
    intro x
    rw [← Finset.sum_mul, hsum, Finset.sum_const, Finset.card_range, nsmul_eq_mul]
    field_simp
  refine ⟨fun x hx => ?_, fun hx hI => ?_, fun lo hi hx hI => ?_⟩
  · rw [← hconst x]; unfold meanIntensity2; simp only [hx]
  · unfold meanIntensity2
    exact div_nonneg (Finset.sum_nonneg fun d _ => Finset.sum_nonneg fun th _ => mul_nonneg (hw0 th hx) (hI d th))
      hnq.le
  · rw [← hconst lo, ← hconst hi]; unfold meanIntensity2
    constructor <;>
      exact div_le_div_of_nonneg_right (Finset.sum_le_sum fun d _ => Finset.sum_le_sum fun th _ =>
        mul_le_mul_of_nonneg_left (by first | exact (hI d th).1 | exact (hI d th).2) (hw0 th hx)) hnq.le

/-- Every intensity field can be the contents of the cascade, so the hypotheses of C62 can be met by all. -/
theorem C62_cascades_exist (e : MergeEnv K) (k nx nz : Nat) (Active : Coord2 → Prop)
    (h : Run2 e k nx nz Active) (I : ProbeIdx2 → K) (waves t : Nat) :
    ∃ c0, CascadeHolds2 e k nx nz Active waves I t c0 := by
  obtain ⟨h1, h2⟩ := C12_storage e.cfg h.valid h.mode e.s t
  classical
  refine ⟨(List.range (cascadeEntries e.s)).map fun a =>
    if ha : a < cascadeEntries e.s then I (h2 a ha).choose else 0, fun c p _ _ _ _ hin => ?_⟩
  have ha := h1 p hin
  rw [List.getElem?_map, List.getElem?_range ha]
  simp only [Option.map_some, ha, dif_pos]
  exact congrArg (fun q => some (I q)) ((h2 _ ha).choose_spec.2.2 p hin rfl).symm

/-- Non-vacuity: runs on 1024 by 512 cells in the default configuration, dense and sparse. -/
example (sp : Bool) : ∃ e : MergeEnv ℚ, e.P.sparse = sp ∧ e.s.wave = 8 ∧ Run2 e 4 64 32 (fun _ => True) := by
  obtain ⟨bm, h1, _, h3, h4, _, h6⟩ := C03_dense2 (2 ^ 4) 64 32 (by unfold GoodSize2 i32Max; decide)
  have hx : FitsI32Axis 4 64 := by unfold FitsI32Axis i32Max; decide
  have hz : FitsI32Axis 4 32 := by unfold FitsI32Axis i32Max; decide
  have hm : MapFor2 (2 ^ 4) 64 32 (fun _ => True) bm := ⟨h3, h4, h6⟩
  obtain ⟨l, hl, -⟩ := c0List2_spec 4 64 32 (fun _ => True) bm hx hz hm
  refine ⟨⟨⟨2, 2, 0, 4, .dirByDir⟩, ⟨64 * 2 ^ 4, 32 * 2 ^ 4, 1, 8, 4⟩, ⟨sp, ⟨(64 * 2 ^ 4 : Nat), (32 * 2 ^ 4 : Nat)⟩, l⟩,
    2 ^ 4, bm, [1 / 16, 1 / 4, 1 / 2, 3 / 16]⟩, rfl, rfl, ?_⟩
  exact ⟨⟨(by decide : 0 < 4), by simp⟩, by simp, rfl, ⟨hx, hz⟩, by unfold i32Max; decide, hm, rfl,
    ⟨8, 4, by simp [raysToStorage]⟩, fun _ => hl, rfl⟩

/-- Non-vacuity: the default 3D configuration (12 Healpix directions, one at a time) on 128 by 64 by 256 cells. -/
example (sp : Bool) : ∃ e : MergeEnv3, e.P.sparse = sp ∧ Run3 e 3 16 8 32 (fun _ => True) := by
  obtain ⟨bm, h1, _, h3, h4, _, h6⟩ := C03_dense3 (2 ^ 3) 16 8 32 (by unfold GoodSize3 i32Max; decide)
  have hx : FitsI32Axis 3 16 := by unfold FitsI32Axis i32Max; decide
  have hy : FitsI32Axis 3 8 := by unfold FitsI32Axis i32Max; decide
  have hz : FitsI32Axis 3 32 := by unfold FitsI32Axis i32Max; decide
  have hm : MapFor3 (2 ^ 3) 16 8 32 (fun _ => True) bm := ⟨h3, h4, h6⟩
  obtain ⟨l, hl, -⟩ := c0List3_spec 3 16 8 32 (fun _ => True) bm hx hy hz hm
  refine ⟨⟨⟨.healpix 1, 12, 1, true⟩, ⟨16 * 2 ^ 3, 8 * 2 ^ 3, 32 * 2 ^ 3, 1, 1⟩,
    ⟨sp, ⟨(16 * 2 ^ 3 : Nat), (8 * 2 ^ 3 : Nat), (32 * 2 ^ 3 : Nat)⟩, l⟩, 2 ^ 3, bm⟩, rfl, ?_⟩
  exact ⟨⟨(by decide : 0 < 12), (by decide : 0 < 1)⟩, rfl, ⟨hx, hy, hz⟩, by unfold i32Max; decide, by decide, hm, rfl,
    by simp [raysToStorage3], fun _ => hl⟩

end DexRT
