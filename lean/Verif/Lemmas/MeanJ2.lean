import Verif.Spec.MeanJ
import Verif.Lemmas.MeanJ
/-! Helper lemmas for the mean intensity: the probes of a run and one pass of the merge. -/
namespace DexRT

variable {K : Type} [Field K] [CharZero K]

theorem readAt_of_get {α : Type} {l : List α} {i : Nat} {v : α} (h : l[i]? = some v) : readAt l i = .ok v := by
  unfold readAt; rw [h]

theorem hasData2_box (B nx nz : Nat) (Active : Coord2 → Prop) (c : Coord2)
    (h : HasData2 B nx nz Active c) :
    0 ≤ c.x ∧ c.x < ((nx * B : Nat) : Int) ∧ 0 ≤ c.z ∧ c.z < ((nz * B : Nat) : Int) := by
  obtain ⟨t, ⟨g1, g2, g3, g4⟩, -, i1, i2, i3, i4⟩ := h
  rcases Nat.eq_zero_or_pos B with rfl | hB
  · simp at g2
  have hB' : (0 : Int) < B := by exact_mod_cast hB
  have hx : t.x + 1 ≤ nx := by
    have := lt_of_mul_lt_mul_right g2 hB'.le; omega
  have hz : t.z + 1 ≤ nz := by
    have := lt_of_mul_lt_mul_right g4 hB'.le; omega
  have e1 : (t.x + 1) * B ≤ nx * B := Int.mul_le_mul_of_nonneg_right hx hB'.le
  have e2 : (t.z + 1) * B ≤ nz * B := Int.mul_le_mul_of_nonneg_right hz hB'.le
  have e3 : 0 ≤ t.x * B := Int.mul_nonneg g1 hB'.le
  have e4 : 0 ≤ t.z * B := Int.mul_nonneg g3 hB'.le
  push_cast
  omega

theorem hasData3_box (B nx ny nz : Nat) (Active : Coord3 → Prop) (c : Coord3)
    (h : HasData3 B nx ny nz Active c) :
    0 ≤ c.x ∧ c.x < ((nx * B : Nat) : Int) ∧ 0 ≤ c.y ∧ c.y < ((ny * B : Nat) : Int) ∧
      0 ≤ c.z ∧ c.z < ((nz * B : Nat) : Int) := by
  obtain ⟨t, ⟨g1, g2, g3, g4, g5, g6⟩, -, i1, i2, i3, i4, i5, i6⟩ := h
  rcases Nat.eq_zero_or_pos B with rfl | hB
  · simp at g2
  have hB' : (0 : Int) < B := by exact_mod_cast hB
  have hx : t.x + 1 ≤ nx := by
    have := lt_of_mul_lt_mul_right g2 hB'.le; omega
  have hy : t.y + 1 ≤ ny := by
    have := lt_of_mul_lt_mul_right g4 hB'.le; omega
  have hz : t.z + 1 ≤ nz := by
    have := lt_of_mul_lt_mul_right g6 hB'.le; omega
  have e1 : (t.x + 1) * B ≤ nx * B := Int.mul_le_mul_of_nonneg_right hx hB'.le
  have e2 : (t.z + 1) * B ≤ nz * B := Int.mul_le_mul_of_nonneg_right hz hB'.le
  have e5 : (t.y + 1) * B ≤ ny * B := Int.mul_le_mul_of_nonneg_right hy hB'.le
  have e3 : 0 ≤ t.x * B := Int.mul_nonneg g1 hB'.le
  have e4 : 0 ≤ t.z * B := Int.mul_nonneg g5 hB'.le
  have e6 : 0 ≤ t.y * B := Int.mul_nonneg g3 hB'.le
  push_cast
  omega

/-- The probes of a 2D run: number `i` is the cell stored in column `i` of J. -/
theorem run2_probes {e : MergeEnv K} {k nx nz : Nat} {Active : Coord2 → Prop} (h : Run2 e k nx nz Active) :
    ∃ f : Nat → Coord2, e.P.num = .ok (jCols2 e k nx nz) ∧ 0 ≤ jCols2 e k nx nz ∧
      (∀ i : Nat, (i : Int) < jCols2 e k nx nz → e.P.coord i = .ok (f i) ∧ e.ks (f i) = .ok (i : Int) ∧
        Computed2 e k nx nz Active (f i) ∧ JAddr2 e (f i) i ∧
        0 ≤ (f i).x ∧ (f i).x < ((nx * 2 ^ k : Nat) : Int) ∧ 0 ≤ (f i).z ∧ (f i).z < ((nz * 2 ^ k : Nat) : Int)) ∧
      ∀ c, Computed2 e k nx nz Active c → ∃ a : Nat, (a : Int) < jCols2 e k nx nz ∧ f a = c ∧
        ∀ a', JAddr2 e c a' ↔ a' = a := by
  by_cases hs : e.P.sparse = true
  · have hl := h.active hs
    obtain ⟨hlen, hget⟩ := c0List2_get k nx nz Active e.bm h.axes.1 h.axes.2 h.map e.P.active hl
    obtain ⟨l', hl', -, hmem⟩ := c0List2_spec k nx nz Active e.bm h.axes.1 h.axes.2 h.map
    have hll : l' = e.P.active := by rw [hl] at hl'; injection hl' with hl'; exact hl'.symm
    subst hll
    have hcols : jCols2 e k nx nz = e.P.active.length := by
      unfold jCols2; rw [if_pos hs]; exact hlen.symm
    refine ⟨fun i => (e.P.active[i]?).getD {}, ?_, by rw [hcols]; omega, fun i hi => ?_, fun c hc => ?_⟩
    · unfold Probes2.num; rw [if_pos hs, hcols]
    · rw [hcols] at hi
      have hi' : i < e.P.active.length := by omega
      have hgi : e.P.active[i]? = some e.P.active[i] := List.getElem?_eq_getElem hi'
      obtain ⟨hd, s', hidx⟩ := hget i _ hgi
      have hbox := hasData2_box _ _ _ _ _ hd
      simp only [hgi, Option.getD_some]
      refine ⟨?_, ?_, ?_, ?_, hbox⟩
      · unfold Probes2.coord; rw [if_pos hs, hgi]
      · unfold MergeEnv.ks; rw [if_pos hs, h.block, hidx]; rfl
      · unfold Computed2; rw [if_pos hs]; exact hd
      · unfold JAddr2; rw [if_pos hs, h.block]; exact ⟨s', hidx⟩
    · unfold Computed2 at hc; rw [if_pos hs] at hc
      obtain ⟨i, hi, rfl⟩ := List.mem_iff_getElem.1 ((hmem c).2 hc)
      have hgi : e.P.active[i]? = some e.P.active[i] := List.getElem?_eq_getElem hi
      obtain ⟨hd, s', hidx⟩ := hget i _ hgi
      refine ⟨i, by rw [hcols]; omega, by simp [hgi], fun a' => ?_⟩
      unfold JAddr2; rw [if_pos hs, h.block]
      constructor
      · rintro ⟨s'', h2⟩
        rw [hidx] at h2; injection h2 with h2
        have := congrArg Prod.fst h2
        simp only at this; omega
      · rintro rfl; exact ⟨s', hidx⟩
  · have hcols : jCols2 e k nx nz = ((nx * 2 ^ k : Nat) : Int) * ((nz * 2 ^ k : Nat) : Int) := by
      unfold jCols2; rw [if_neg hs]; push_cast; ring
    have hcl := h.cells
    generalize hW : nx * 2 ^ k = W at *
    generalize hH : nz * 2 ^ k = H at *
    have hP := h.probes
    rw [hW, hH] at hP
    have hPx : e.P.np.x = (W : Int) := by rw [hP]
    have hPz : e.P.np.z = (H : Int) := by rw [hP]
    have hWH : ((W * H : Nat) : Int) = (W : Int) * H := by push_cast; ring
    refine ⟨fun i => { x := (i % W : Nat), z := (i / W : Nat) }, ?_, by rw [hcols]; positivity, fun i hi => ?_, fun c hc => ?_⟩
    · unfold Probes2.num; rw [if_neg hs, hcols, hPx, hPz]
      unfold mulI32; rw [if_pos]
      rw [fitsI32_iff]; rw [← hWH] at hcl ⊢; unfold i32Max at hcl; omega
    · rw [hcols, ← hWH] at hi
      have hi' : i < W * H := by omega
      have hW0 : 0 < W := by
        rcases Nat.eq_zero_or_pos W with h0 | h0
        · simp [h0] at hi'
        · exact h0
      have hm : i % W < W := Nat.mod_lt _ hW0
      have hd : i / W < H := by rw [Nat.div_lt_iff_lt_mul hW0]; rw [Nat.mul_comm]; exact hi'
      have hdm := Nat.div_add_mod i W
      have hle : W * (i / W) ≤ i := Nat.mul_div_le i W
      have etd : (i : Int).tdiv (W : Int) = ((i / W : Nat) : Int) := by
        rw [Int.tdiv_eq_ediv_of_nonneg (by omega)]; push_cast; rfl
      simp only
      generalize i / W = q at *
      generalize i % W = m at *
      have emul : (W : Int) * (q : Int) = ((W * q : Nat) : Int) := by push_cast; ring
      refine ⟨?_, ?_, ?_, ?_, ?_⟩
      · unfold Probes2.coord; rw [if_neg hs, hPx, etd]
        have hfit : fitsI32 ((W : Int) * (q : Int)) = true := by
          rw [fitsI32_iff, emul]; unfold i32Max at hcl; rw [← hWH] at hcl; omega
        simp only [mulI32, hfit, if_true, Outcome.ok_bind]
        congr 2
        rw [emul]; omega
      · unfold MergeEnv.ks; rw [if_neg hs, hPx]
        congr 1
        simp only
        rw [mul_comm (q : Int), emul]; omega
      · unfold Computed2; rw [if_neg hs, hW, hH]; simp only; omega
      · unfold JAddr2; rw [if_neg hs, hPx]; simp only; rw [mul_comm (q : Int), emul]; omega
      · omega
    · unfold Computed2 at hc; rw [if_neg hs, hW, hH] at hc
      obtain ⟨h1, h2, h3, h4⟩ := hc
      obtain ⟨x, hx⟩ := Int.eq_ofNat_of_zero_le h1
      obtain ⟨z, hz⟩ := Int.eq_ofNat_of_zero_le h3
      have hxW : x < W := by omega
      have hzH : z < H := by omega
      have hlt := mix_lt hxW hzH
      refine ⟨x + W * z, by rw [hcols, ← hWH]; omega, ?_, fun a' => ?_⟩
      · simp only [mix_mod hxW, mix_div hxW]
        rw [← hx, ← hz]
      · unfold JAddr2; rw [if_neg hs, hPx, hx, hz]
        have : (z : Int) * W + x = ((x + W * z : Nat) : Int) := by push_cast; ring
        rw [this]; omega

/-- One pass of the 2D merge. -/
theorem merge_pass2 {e : MergeEnv K} {k nx nz : Nat} {Active : Coord2 → Prop} (h : Run2 e k nx nz Active)
    (f : Nat → Coord2)
    (hf : ∀ i : Nat, (i : Int) < jCols2 e k nx nz → e.P.coord i = .ok (f i) ∧ e.ks (f i) = .ok (i : Int) ∧
        Computed2 e k nx nz Active (f i) ∧ JAddr2 e (f i) i ∧
        0 ≤ (f i).x ∧ (f i).x < ((nx * 2 ^ k : Nat) : Int) ∧ 0 ≤ (f i).z ∧ (f i).z < ((nz * 2 ^ k : Nat) : Int))
    (n : Nat) (hn : (n : Int) = jCols2 e k nx nz)
    (I : ProbeIdx2 → K) (t : Nat) (ht : t < subsetTasks e.cfg) (waves laStart : Nat) (hw : waves ≤ e.s.wave)
    (c0 : List K) (hc0 : CascadeHolds2 e k nx nz Active waves I t c0)
    (sched : List JIter) (hsched : sched.Perm (jIters n e.s.dirs waves e.s.incl))
    (J : Arr2 K) (hcols : J.cols = n) (hrows : J.rows = e.s.wave ∨ laStart + waves ≤ J.rows) :
    ∃ J', mergeC0ToJ e laStart c0 sched J = .ok J' ∧ J'.rows = J.rows ∧ J'.cols = J.cols ∧
      ∀ r a, J'.get r a = J.get r a +
        if a < n ∧ jFirstRow e.s J.rows laStart ≤ r ∧ r < jFirstRow e.s J.rows laStart + waves then
          ∑ p ∈ Finset.range e.s.dirs, ∑ th ∈ Finset.range e.s.incl,
            1 / (e.cfg.p0rays : K) * e.wmuy.getD th 0 *
              I ⟨(f a).x.toNat, (f a).z.toNat, (nthRaysSubset e.cfg (storageToRays e.cfg e.s) t).1 + p, th,
                r - jFirstRow e.s J.rows laStart⟩
        else 0 := by
  set row0 := jFirstRow e.s J.rows laStart with hrow0
  have hrow : row0 + waves ≤ J.rows := by
    rw [hrow0]; unfold jFirstRow; split <;> omega
  obtain ⟨wv, inc, hst⟩ := h.storage
  have hp0 := h.valid.1
  have hnp0 : e.s.np0 = nx * 2 ^ k := by rw [hst]; rfl
  have hnp1 : e.s.np1 = nz * 2 ^ k := by rw [hst]; rfl
  have hdirs : c0DirsToAverage e.cfg = e.cfg.p0rays := by
    unfold c0DirsToAverage; have := h.mode; split
    · contradiction
    · rfl
  let g : JIter → Int × Int × K := fun i =>
    (((row0 + i.wave : Nat) : Int), (i.k : Int), 1 / (e.cfg.p0rays : K) * e.wmuy.getD i.theta 0 *
      I ⟨(f i.k).x.toNat, (f i.k).z.toNat, (nthRaysSubset e.cfg (storageToRays e.cfg e.s) t).1 + i.phi, i.theta,
        i.wave⟩)
  have key : ∀ i ∈ jIters n e.s.dirs waves e.s.incl, jBody e row0 c0 i = .ok (g i) ∧ 0 ≤ (g i).1 ∧
      (g i).1 < J.rows ∧ 0 ≤ (g i).2.1 ∧ (g i).2.1 < J.cols := by
    intro i hi
    rw [mem_jIters] at hi
    obtain ⟨hik, hip, hiw, hit⟩ := hi
    obtain ⟨hco, hks, hcomp, -, b1, b2, b3, b4⟩ := hf i.k (by omega)
    refine ⟨?_, by simp only [g]; omega, by simp only [g]; omega, by simp only [g]; omega,
      by simp only [g]; omega⟩
    have hwm : e.wmuy[i.theta]? = some (e.wmuy.getD i.theta 0) := by
      rw [List.getD_eq_getElem?_getD, List.getElem?_eq_getElem (by rw [h.weights]; exact hit)]; rfl
    -- the storage address of the iteration is that of the ray
    set p : ProbeIdx2 := ⟨(f i.k).x.toNat, (f i.k).z.toNat,
      (nthRaysSubset e.cfg (storageToRays e.cfg e.s) t).1 + i.phi, i.theta, i.wave⟩ with hp
    have hin : InPass2 e.cfg (storageToRays e.cfg e.s) t p := by
      have hr1 : (storageToRays e.cfg e.s).np0 = e.s.np0 := rfl
      have hr2 : (storageToRays e.cfg e.s).np1 = e.s.np1 := rfl
      have hr3 : (storageToRays e.cfg e.s).incl = e.s.incl := rfl
      have hr4 : (storageToRays e.cfg e.s).wave = e.s.wave := rfl
      have hr5 : (nthRaysSubset e.cfg (storageToRays e.cfg e.s) t).2 = e.s.dirs := by
        have := h.mode
        cases hm : e.cfg.mode with
        | preaverage => contradiction
        | all => simp [nthRaysSubset, storageToRays, hm]
        | dirByDir => simp [nthRaysSubset, storageToRays, hm, Nat.mul_div_cancel _ hp0]
      unfold InPass2
      rw [hr1, hr2, hr3, hr4, hr5, hnp0, hnp1, hp]
      refine ⟨by simp only; omega, by simp only; omega, hit, by simp only; omega, by simp only; omega,
        by simp only; omega⟩
    have haddr : storageLinearIndex e.s ⟨(f i.k).x.toNat, (f i.k).z.toNat, i.phi, i.theta, i.wave⟩ =
        probeLinearIndex e.cfg e.s p := by
      rw [probeLinearIndex_eq, hp]
      have := h.mode
      cases hm : e.cfg.mode with
      | preaverage => contradiction
      | all => simp [nthRaysSubset, hm]
      | dirByDir =>
        simp only [nthRaysSubset, storageToRays, hm, Nat.mul_div_cancel _ hp0]
        have : (t * e.s.dirs + i.phi) % e.s.dirs = i.phi := by
          rw [Nat.mul_comm, Nat.add_comm, Nat.add_mul_mod_self_left, Nat.mod_eq_of_lt hip]
        rw [this]
    have hfetch : fetch2 c0 e.s (f i.k) i.phi i.theta i.wave = .ok (I p) := by
      unfold fetch2; rw [if_pos ⟨b1, b3⟩, haddr]
      exact readAt_of_get (hc0 _ p hcomp rfl rfl hiw hin)
    unfold jBody
    rw [readAt_of_get hwm]; simp only [Outcome.ok_bind]
    rw [hco]; simp only [Outcome.ok_bind]
    rw [hks]; simp only [Outcome.ok_bind]
    rw [hfetch, hdirs]; rfl
  obtain ⟨J', e1, e2, e3, e4⟩ := addAll_perm (jBody e row0 c0) g _ sched hsched J key
  refine ⟨J', e1, e2, e3, fun r a => ?_⟩
  rw [e4, sum_jIters]
  congr 1
  exact contrib_collapse n e.s.dirs waves e.s.incl row0 r a (fun i => (g i).2.2)

end DexRT
