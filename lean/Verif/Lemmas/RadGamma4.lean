import Verif.Lemmas.RadGamma3
/-! Lemmas for C80: the whole iteration in 2D and in 3D. -/
namespace DexRT.RadGamma
open DexRT Emis Rates Dir Finset

/-- Sum over batches is the sum over the wavelengths they consist of. -/
theorem batches_sum {B : Type} (bs : List B) (lo hi : B → Nat) (N : Nat)
    (hp : (bs.flatMap fun b => (List.range (hi b - lo b)).map (lo b + ·)).Perm (List.range N)) (F : Nat → ℝ) :
    (bs.map fun b => ∑ wave ∈ range (hi b - lo b), F (lo b + wave)).sum = ∑ la ∈ range N, F la := by
  rw [← sum_range_map, ← (hp.map F).sum_eq, sum_flatMap_map]
  congr 1
  refine List.map_congr_left fun b _ => ?_
  rw [List.map_map, sum_range_map]
  rfl

theorem opsLoop_total_at {ι : Type} (f : ι → Outcome (List (AddOp Elem ℝ))) (l : List ι) (P : Elem → Prop) (v : ι → Elem → ℝ)
    (h : ∀ x ∈ l, ∃ ops, f x = .ok ops ∧ ∀ d, P d → total ops d = v x d) :
    ∃ ops, opsLoop f l = .ok ops ∧ ∀ d, P d → total ops d = (l.map fun x => v x d).sum := by
  induction l with
  | nil => exact ⟨[], rfl, fun d _ => by simp [total]⟩
  | cons x xs ih =>
    obtain ⟨o, h1, h2⟩ := h x (by simp)
    obtain ⟨os, h3, h4⟩ := ih fun y hy => h y (by simp [hy])
    refine ⟨o ++ os, ?_, fun d hd => ?_⟩
    · rw [opsLoop, h1, Outcome.ok_bind, h3, Outcome.ok_bind]
    · rw [total_append, h2 d hd, h4 d hd, List.map_cons, List.sum_cons]

/-- The element of cell `c`, as `rayVal2` sees it. -/
theorem rayVal2_eq (e : Env) (g : Quad2) (hdirs : g.rays.dirs = c0DirsToAverage g.cfg) (wphi : Cell → Nat → ℝ)
    (I psi : Cell → Nat → Nat × Nat → ℝ) (ia : Nat) (c : Cell) (a b la dir incl : Nat) :
    rayVal2 e g wphi I psi ia c (ia, a, b, c.ks) la dir incl =
      (e.bin[la]?).getD 0 * (raySet2 g c (I c) (psi c)).weight (dir, incl) *
        rayRate e c (wphi c) ia a b la ((e.ad.wavelength[la]?).getD 0) ((raySet2 g c (I c) (psi c)).vel (dir, incl))
          ((raySet2 g c (I c) (psi c)).I la (dir, incl)) ((raySet2 g c (I c) (psi c)).psi la (dir, incl)) := by
  unfold rayVal2 atomVal
  rw [if_pos ⟨rfl, rfl⟩]
  simp only [raySet2, smp2, hdirs]

theorem iterGamma2_total (e : Env) (he : e.Consistent) (hph : e.Physical) (g : Quad2) (hv : g.cfg.Valid) (hm : g.cfg.mode ≠ .preaverage)
    (hdirs : g.rays.dirs = c0DirsToAverage g.cfg)
    (hmu : g.muy.length = g.rays.incl) (hwm : g.wmuy.length = g.rays.incl) (wphi : Cell → Nat → ℝ) (cells : List Cell)
    (hnd : (cells.map Cell.ks).Nodup) (I psi : Cell → Nat → Nat × Nat → ℝ)
    (bs : List ((Nat × Nat) × (Nat → List ℝ) × (Nat → List ℝ))) (hb : ∀ b ∈ bs, Batch2 e g cells I psi b)
    (hp : (bs.flatMap fun b => (List.range (b.1.2 - b.1.1)).map (b.1.1 + ·)).Perm (List.range e.ad.wavelength.length)) :
    ∃ ops, iterGamma2 e g wphi cells bs = .ok ops ∧
      ∀ c ∈ cells, ∀ ia < e.numLevel.length, ∀ a b, total ops (ia, a, b, c.ks) =
        radiativeRate e c (wphi c) (range e.ad.wavelength.length) (raySet2 g c (I c) (psi c)) ia a b := by
  choose ops h1 h2 using fun b (h : b ∈ bs) => batchGamma2_total e he hph g hv hm hmu hwm wphi cells hnd I psi b (hb b h)
  classical
  refine ⟨bs.flatMap fun b => if h : b ∈ bs then ops b h else [], ?_, fun c hc ia hia a b => ?_⟩
  · refine opsLoop_ok _ _ _ fun b h => ?_
    rw [dif_pos h]; exact h1 b h
  · rw [total_flatMap, List.map_congr_left (g := fun b' => ∑ wave ∈ range (b'.1.2 - b'.1.1), (fun la =>
        ∑ dir ∈ range g.rays.dirs, ∑ incl ∈ range g.rays.incl, rayVal2 e g wphi I psi ia c (ia, a, b, c.ks) la dir incl) (b'.1.1 + wave))
      fun b' h => by rw [dif_pos h]; exact h2 b' h c hc ia hia a b]
    rw [batches_sum bs (fun b => b.1.1) (fun b => b.1.2) _ hp (fun la =>
        ∑ dir ∈ range g.rays.dirs, ∑ incl ∈ range g.rays.incl, rayVal2 e g wphi I psi ia c (ia, a, b, c.ks) la dir incl)]
    unfold radiativeRate
    refine Finset.sum_congr rfl fun la _ => ?_
    rw [show (raySet2 g c (I c) (psi c)).rays = range g.rays.dirs ×ˢ range g.rays.incl from rfl, Finset.sum_product]
    exact Finset.sum_congr rfl fun dir _ => Finset.sum_congr rfl fun incl _ => rayVal2_eq e g hdirs wphi I psi ia c a b la dir incl

/-! ### 3D -/

/-- The passes together go over all directions. -/
theorem passes_sum3 (g : Quad3) (haz : 0 < g.cfg.c0az) (hpol : 0 < g.cfg.c0polar) (f : Nat → Nat → ℝ) :
    ∑ t ∈ range (subsetTasks3 g.cfg), ∑ p ∈ range (nthRaysSubset3 g.cfg g.rays t).numPolar, ∑ a ∈ range (nthRaysSubset3 g.cfg g.rays t).numAz,
      f ((nthRaysSubset3 g.cfg g.rays t).startPolar + p) ((nthRaysSubset3 g.cfg g.rays t).startAz + a) =
      ∑ p ∈ range g.rays.polar, ∑ a ∈ range g.rays.az, f p a := by
  by_cases hd : g.cfg.dirByDir = true
  · obtain ⟨A, hA⟩ : ∃ A, g.rays.az = g.cfg.c0az * A :=
      ⟨g.c0.az * azFactor g.cfg.branch 0, by simp only [Quad3.rays, cascadeComputeSize3, hd, if_true]; ring⟩
    obtain ⟨P, hP⟩ : ∃ P, g.rays.polar = g.cfg.c0polar * P :=
      ⟨g.c0.polar * polarFactor g.cfg.branch 0, by simp only [Quad3.rays, cascadeComputeSize3, hd, if_true]; ring⟩
    simp only [subsetTasks3, nthRaysSubset3, hd, if_true, hA, hP, Nat.mul_div_cancel_left _ haz, Nat.mul_div_cancel_left _ hpol]
    have hrow : ∀ (F : Nat → ℝ) (n : Nat), ∑ x ∈ range n, ∑ a ∈ range A, F (x * A + a) = ∑ a ∈ range (n * A), F a := by
      intro F n
      induction n with
      | zero => simp
      | succ n ih => rw [Finset.sum_range_succ, ih, Nat.succ_mul, Finset.sum_range_add]
    have : ∀ n, ∑ t ∈ range (g.cfg.c0az * n), ∑ p ∈ range P, ∑ a ∈ range A,
        f (t / g.cfg.c0az * P + p) ((t - t / g.cfg.c0az * g.cfg.c0az) * A + a) = ∑ p ∈ range (n * P), ∑ a ∈ range (g.cfg.c0az * A), f p a := by
      intro n
      induction n with
      | zero => simp
      | succ n ih =>
        rw [Nat.mul_succ, Finset.sum_range_add, ih, Nat.succ_mul, Finset.sum_range_add]
        congr 1
        have : ∀ x ∈ range g.cfg.c0az, (∑ p ∈ range P, ∑ a ∈ range A,
            f ((g.cfg.c0az * n + x) / g.cfg.c0az * P + p) ((g.cfg.c0az * n + x - (g.cfg.c0az * n + x) / g.cfg.c0az * g.cfg.c0az) * A + a)) =
            ∑ p ∈ range P, ∑ a ∈ range A, f (n * P + p) (x * A + a) := by
          intro x hx
          rw [Finset.mem_range] at hx
          have h1 : (g.cfg.c0az * n + x) / g.cfg.c0az = n := by
            rw [Nat.mul_add_div haz, Nat.div_eq_of_lt hx, add_zero]
          rw [h1, Nat.mul_comm n g.cfg.c0az, Nat.add_sub_cancel_left]
        rw [Finset.sum_congr rfl this, Finset.sum_comm]
        exact Finset.sum_congr rfl fun p _ => hrow (f (n * P + p)) g.cfg.c0az
    exact this g.cfg.c0polar
  · have hd' : g.cfg.dirByDir = false := by simpa using hd
    simp [subsetTasks3, nthRaysSubset3, hd']

/-- One ray of the 3D loops as a sample. -/
noncomputable def smp3 (e : Env) (g : Quad3) (c : Cell) (I psi : Cell → Nat → Nat × Nat → ℝ) (la polar az : Nat) : Sample :=
  ⟨la, along c (rayDir3 g.rays.az az), e.ad.wavelength[la]?.getD 0 / 1 * e.bin[la]?.getD 0 / ((g.rays.az * g.rays.polar : Nat) : ℝ),
    I c la (polar, az), psi c la (polar, az)⟩

theorem sample3_ok (e : Env) (he : e.Consistent) (g : Quad3)
    (c : Cell) (la : Nat) (hla : la < e.ad.wavelength.length) (i ps : List ℝ) (I psi : Cell → Nat → Nat × Nat → ℝ) (polar az : Nat)
    (h1 : i[probeLinearIndex3 g.cfg (raysToStorage3 g.cfg g.rays) ⟨c.u, c.v, c.w, polar, az⟩]? = some (I c la (polar, az)))
    (h2 : ps[probeLinearIndex3 g.cfg (raysToStorage3 g.cfg g.rays) ⟨c.u, c.v, c.w, polar, az⟩]? = some (psi c la (polar, az))) :
    sample3 e g c la i ps polar az = .ok (smp3 e g c I psi la polar az) := by
  obtain ⟨l, hl⟩ : ∃ m, e.ad.wavelength[la]? = some m := ⟨_, List.getElem?_eq_getElem hla⟩
  obtain ⟨b, hb⟩ : ∃ m, e.bin[la]? = some m := ⟨_, List.getElem?_eq_getElem (by rw [he.bins]; exact hla)⟩
  unfold sample3
  simp only [readAt_some _ _ _ h1, readAt_some _ _ _ h2, readAt_some _ _ _ hl, readAt_some _ _ _ hb, Outcome.ok_bind, smp3, hl, hb,
    Option.getD_some]
  rfl

/-- What one ray contributes to element `d`. -/
noncomputable def rayVal3 (e : Env) (g : Quad3) (wphi : Cell → Nat → ℝ) (I psi : Cell → Nat → Nat × Nat → ℝ) (ia : Nat) (c : Cell)
    (d : Elem) (la polar az : Nat) : ℝ :=
  atomVal e c (wphi c) ia (smp3 e g c I psi la polar az) (e.ad.wavelength[la]?.getD 0)
    (e.bin[la]?.getD 0 * (1 / (g.rays.az * g.rays.polar))) d

theorem computeGamma3_total (e : Env) (he : e.Consistent) (hph : e.Physical) (g : Quad3) (wphi : Cell → Nat → ℝ) (cells : List Cell)
    (I psi : Cell → Nat → Nat × Nat → ℝ) (b : Nat × (Nat → List ℝ) × (Nat → List ℝ)) (hb : Wave3 e g cells I psi b)
    (t : Nat) (ht : t < subsetTasks3 g.cfg) :
    ∃ ops, computeGamma3 e g wphi cells b.1 t (b.2.1 t) (b.2.2 t) = .ok ops ∧
      ∀ d, total ops d = ∑ ia ∈ range e.numLevel.length, (cells.map fun c =>
        ∑ p ∈ range (nthRaysSubset3 g.cfg g.rays t).numPolar, ∑ a ∈ range (nthRaysSubset3 g.cfg g.rays t).numAz,
        rayVal3 e g wphi I psi ia c d b.1 ((nthRaysSubset3 g.cfg g.rays t).startPolar + p) ((nthRaysSubset3 g.cfg g.rays t).startAz + a)).sum := by
  obtain ⟨ops, h1, h2⟩ := opsLoop_total (fun ia => opsLoop (fun c => opsLoop (fun x : Nat × Nat => do
      let s ← sample3 e g c b.1 (b.2.1 t) (b.2.2 t) x.1 x.2
      atomOps3 e c (wphi c) ia s) (RadGamma.iters3 g t)) cells)
    (List.range e.numLevel.length) (fun ia d => (cells.map fun c =>
        ∑ p ∈ range (nthRaysSubset3 g.cfg g.rays t).numPolar, ∑ a ∈ range (nthRaysSubset3 g.cfg g.rays t).numAz,
        rayVal3 e g wphi I psi ia c d b.1 ((nthRaysSubset3 g.cfg g.rays t).startPolar + p) ((nthRaysSubset3 g.cfg g.rays t).startAz + a)).sum) (by
      intro ia hia
      rw [List.mem_range] at hia
      refine opsLoop_total (fun c => opsLoop (fun x : Nat × Nat => do
        let s ← sample3 e g c b.1 (b.2.1 t) (b.2.2 t) x.1 x.2
        atomOps3 e c (wphi c) ia s) (RadGamma.iters3 g t)) cells (fun c d =>
        ∑ p ∈ range (nthRaysSubset3 g.cfg g.rays t).numPolar, ∑ a ∈ range (nthRaysSubset3 g.cfg g.rays t).numAz,
        rayVal3 e g wphi I psi ia c d b.1 ((nthRaysSubset3 g.cfg g.rays t).startPolar + p) ((nthRaysSubset3 g.cfg g.rays t).startAz + a))
        (fun c hc => ?_)
      obtain ⟨o, o1, o2⟩ := opsLoop_total (fun x : Nat × Nat => do
        let s ← sample3 e g c b.1 (b.2.1 t) (b.2.2 t) x.1 x.2
        atomOps3 e c (wphi c) ia s) (RadGamma.iters3 g t) (fun x d => rayVal3 e g wphi I psi ia c d b.1 x.1 x.2) (by
          rintro ⟨polar, az⟩ hx
          simp only [RadGamma.iters3, List.mem_flatMap, List.mem_map, List.mem_range, Prod.mk.injEq] at hx
          obtain ⟨p, hp, a, ha, rfl, rfl⟩ := hx
          rw [sample3_ok e he g c b.1 hb.la _ _ I psi _ _
            (hb.i t ht c hc _ _ (Nat.le_add_right _ _) (Nat.add_lt_add_left hp _) (Nat.le_add_right _ _) (Nat.add_lt_add_left ha _))
            (hb.ps t ht c hc _ _ (Nat.le_add_right _ _) (Nat.add_lt_add_left hp _) (Nat.le_add_right _ _) (Nat.add_lt_add_left ha _)),
            Outcome.ok_bind]
          obtain ⟨l, hl⟩ : ∃ m, e.ad.wavelength[b.1]? = some m := ⟨_, List.getElem?_eq_getElem hb.la⟩
          refine atomOps3_total he c (wphi c) hia _ _ _ ⟨by simp [smp3, hl], ?_, hph.hc, hph.fp, ?_⟩
          · rw [hl, Option.getD_some]; exact hph.waves l (List.mem_of_getElem? hl)
          · simp only [smp3]; push_cast; ring)
      refine ⟨o, o1, fun d => ?_⟩
      rw [o2, RadGamma.iters3, sum_flatMap_map, sum_range_map]
      refine Finset.sum_congr rfl fun p _ => ?_
      rw [List.map_map, sum_range_map]
      rfl)
  exact ⟨ops, h1, fun d => by rw [h2, sum_range_map]⟩

theorem waveGamma3_total (e : Env) (he : e.Consistent) (hph : e.Physical) (g : Quad3) (haz : 0 < g.cfg.c0az) (hpol : 0 < g.cfg.c0polar)
    (wphi : Cell → Nat → ℝ) (cells : List Cell) (hnd : (cells.map Cell.ks).Nodup)
    (I psi : Cell → Nat → Nat × Nat → ℝ) (b : Nat × (Nat → List ℝ) × (Nat → List ℝ)) (hb : Wave3 e g cells I psi b) :
    ∃ ops, waveGamma3 e g wphi cells b.1 b.2.1 b.2.2 = .ok ops ∧
      ∀ c ∈ cells, ∀ ia < e.numLevel.length, ∀ a b', total ops (ia, a, b', c.ks) =
        ∑ p ∈ range g.rays.polar, ∑ az ∈ range g.rays.az, rayVal3 e g wphi I psi ia c (ia, a, b', c.ks) b.1 p az := by
  obtain ⟨ops, h1, h2⟩ := opsLoop_total (fun t => computeGamma3 e g wphi cells b.1 t (b.2.1 t) (b.2.2 t))
    (List.range (subsetTasks3 g.cfg)) (fun t d => ∑ ia ∈ range e.numLevel.length, (cells.map fun c =>
        ∑ p ∈ range (nthRaysSubset3 g.cfg g.rays t).numPolar, ∑ a ∈ range (nthRaysSubset3 g.cfg g.rays t).numAz,
        rayVal3 e g wphi I psi ia c d b.1 ((nthRaysSubset3 g.cfg g.rays t).startPolar + p) ((nthRaysSubset3 g.cfg g.rays t).startAz + a)).sum)
        (fun t ht => computeGamma3_total e he hph g wphi cells I psi b hb t (List.mem_range.mp ht))
  refine ⟨ops, h1, fun c hc ia hia a b' => ?_⟩
  rw [h2, sum_range_map]
  have hone : ∀ t, (∑ ia' ∈ range e.numLevel.length, (cells.map fun c' =>
        ∑ p ∈ range (nthRaysSubset3 g.cfg g.rays t).numPolar, ∑ az ∈ range (nthRaysSubset3 g.cfg g.rays t).numAz,
        rayVal3 e g wphi I psi ia' c' (ia, a, b', c.ks) b.1 ((nthRaysSubset3 g.cfg g.rays t).startPolar + p) ((nthRaysSubset3 g.cfg g.rays t).startAz + az)).sum) =
      ∑ p ∈ range (nthRaysSubset3 g.cfg g.rays t).numPolar, ∑ az ∈ range (nthRaysSubset3 g.cfg g.rays t).numAz,
        rayVal3 e g wphi I psi ia c (ia, a, b', c.ks) b.1 ((nthRaysSubset3 g.cfg g.rays t).startPolar + p) ((nthRaysSubset3 g.cfg g.rays t).startAz + az) := by
    intro t
    rw [Finset.sum_eq_single ia]
    · refine sum_cells cells hnd c hc _ fun c' _ hne => ?_
      refine Finset.sum_eq_zero fun k _ => Finset.sum_eq_zero fun m _ => ?_
      exact if_neg fun h => hne h.2.symm
    · intro ia' _ hne
      refine List.sum_eq_zero fun y hy => ?_
      obtain ⟨c', _, rfl⟩ := List.mem_map.mp hy
      refine Finset.sum_eq_zero fun k _ => Finset.sum_eq_zero fun m _ => ?_
      exact if_neg fun h => hne h.1.symm
    · intro h; exact absurd (Finset.mem_range.mpr hia) h
  rw [Finset.sum_congr rfl fun t _ => hone t]
  exact passes_sum3 g haz hpol (fun p az => rayVal3 e g wphi I psi ia c (ia, a, b', c.ks) b.1 p az)

theorem iterGamma3_total (e : Env) (he : e.Consistent) (hph : e.Physical) (g : Quad3) (haz : 0 < g.cfg.c0az) (hpol : 0 < g.cfg.c0polar)
    (wphi : Cell → Nat → ℝ) (cells : List Cell) (hnd : (cells.map Cell.ks).Nodup) (I psi : Cell → Nat → Nat × Nat → ℝ)
    (bs : List (Nat × (Nat → List ℝ) × (Nat → List ℝ))) (hb : ∀ b ∈ bs, Wave3 e g cells I psi b)
    (hp : (bs.map (·.1)).Perm (List.range e.ad.wavelength.length)) :
    ∃ ops, iterGamma3 e g wphi cells bs = .ok ops ∧
      ∀ c ∈ cells, ∀ ia < e.numLevel.length, ∀ a b, total ops (ia, a, b, c.ks) =
        radiativeRate e c (wphi c) (range e.ad.wavelength.length) (raySet3 g c (I c) (psi c)) ia a b := by
  choose ops h1 h2 using fun b (h : b ∈ bs) => waveGamma3_total e he hph g haz hpol wphi cells hnd I psi b (hb b h)
  classical
  refine ⟨bs.flatMap fun b => if h : b ∈ bs then ops b h else [], ?_, fun c hc ia hia a b => ?_⟩
  · refine opsLoop_ok _ _ _ fun b h => ?_
    rw [dif_pos h]; exact h1 b h
  · rw [total_flatMap, List.map_congr_left (g := fun b' => (fun la =>
        ∑ p ∈ range g.rays.polar, ∑ az ∈ range g.rays.az, rayVal3 e g wphi I psi ia c (ia, a, b, c.ks) la p az) b'.1)
      fun b' h => by rw [dif_pos h]; exact h2 b' h c hc ia hia a b]
    unfold radiativeRate
    rw [← sum_range_map, ← (hp.map _).sum_eq, List.map_map]
    refine congrArg List.sum (List.map_congr_left fun b' _ => ?_)
    rw [Function.comp_apply, show (raySet3 g c (I c) (psi c)).rays = range g.rays.polar ×ˢ range g.rays.az from rfl, Finset.sum_product]
    refine Finset.sum_congr rfl fun p _ => Finset.sum_congr rfl fun az _ => ?_
    unfold rayVal3 atomVal
    rw [if_pos ⟨rfl, rfl⟩]
    rfl

end DexRT.RadGamma
