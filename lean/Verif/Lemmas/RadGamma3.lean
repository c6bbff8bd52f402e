import Verif.Lemmas.RadGamma2
import Verif.Lemmas.FormalSol2
/-! Lemmas for C80: all rays, passes, cells, atoms and batches. -/
namespace DexRT.RadGamma
open DexRT Emis Rates Dir Finset

theorem mu_travel (g : Quad2) (c : Cell) (dir : Nat) (muy : ℝ) : c.vel (g.mu c dir muy) = along c (travel2 g.rays.dirs dir muy) := by
  simp [Cell.vel, along, Quad2.mu, invertedMu, rayProps, rayDir2, rayAngle, travel2]

theorem sum_flatMap_map {ι κ : Type} (l : List ι) (f : ι → List κ) (v : κ → ℝ) :
    ((l.flatMap f).map v).sum = (l.map fun x => ((f x).map v).sum).sum := by
  induction l with
  | nil => rfl
  | cons x xs ih => rw [List.flatMap_cons, List.map_append, List.sum_append, ih, List.map_cons, List.sum_cons]

/-- The passes together go over all directions. -/
theorem passes_sum2 (g : Quad2) (hv : g.cfg.Valid) (f : Nat → ℝ) (hm : g.cfg.mode ≠ .preaverage) :
    ∑ t ∈ range (subsetTasks g.cfg), ∑ d ∈ range (nthRaysSubset g.cfg g.rays t).2, f ((nthRaysSubset g.cfg g.rays t).1 + d) =
      ∑ d ∈ range g.rays.dirs, f d := by
  cases hmode : g.cfg.mode with
  | preaverage => exact absurd hmode hm
  | all => simp [subsetTasks, nthRaysSubset, hmode]
  | dirByDir =>
    have hdvd : g.rays.dirs = g.cfg.p0rays * (g.rays.dirs / g.cfg.p0rays) := by
      refine (Nat.mul_div_cancel' ?_).symm
      unfold Quad2.rays cascadeComputeSize
      simp only [hmode]
      split_ifs
      · exact Dvd.intro_left _ rfl
      · exact Dvd.dvd.mul_right (Dvd.intro_left _ rfl) _
    simp only [subsetTasks, nthRaysSubset, hmode]
    generalize g.rays.dirs / g.cfg.p0rays = D at hdvd
    rw [hdvd]
    clear hdvd
    induction g.cfg.p0rays with
    | zero => simp
    | succ n ih => rw [Finset.sum_range_succ, ih, Nat.succ_mul, Finset.sum_range_add]

/-- One ray of the 2D loops as a sample. -/
noncomputable def smp2 (e : Env) (g : Quad2) (c : Cell) (I psi : Cell → Nat → Nat × Nat → ℝ) (la dir incl : Nat) : Sample :=
  ⟨la, along c (travel2 g.rays.dirs dir (g.muy[incl]?.getD 0)),
    e.ad.wavelength[la]?.getD 0 / 1 * e.bin[la]?.getD 0 / (c0DirsToAverage g.cfg : ℝ) * g.wmuy[incl]?.getD 0, I c la (dir, incl), psi c la (dir, incl)⟩

theorem sample2_ok (e : Env) (he : e.Consistent) (g : Quad2) (hmu : g.muy.length = g.rays.incl) (hwm : g.wmuy.length = g.rays.incl)
    (c : Cell) (laStart wave : Nat) (hla : laStart + wave < e.ad.wavelength.length) (i ps : List ℝ) (I psi : Cell → Nat → Nat × Nat → ℝ)
    (dir incl : Nat) (hincl : incl < g.rays.incl)
    (h1 : i[probeLinearIndex g.cfg (raysToStorage g.cfg g.rays) ⟨c.u, c.v, dir, incl, wave⟩]? = some (I c (laStart + wave) (dir, incl)))
    (h2 : ps[probeLinearIndex g.cfg (raysToStorage g.cfg g.rays) ⟨c.u, c.v, dir, incl, wave⟩]? = some (psi c (laStart + wave) (dir, incl))) :
    sample2 e g c laStart i ps wave dir incl = .ok (smp2 e g c I psi (laStart + wave) dir incl) := by
  obtain ⟨m, hm⟩ : ∃ m, g.muy[incl]? = some m := ⟨_, List.getElem?_eq_getElem (by omega)⟩
  obtain ⟨w, hw⟩ : ∃ m, g.wmuy[incl]? = some m := ⟨_, List.getElem?_eq_getElem (by omega)⟩
  obtain ⟨l, hl⟩ : ∃ m, e.ad.wavelength[laStart + wave]? = some m := ⟨_, List.getElem?_eq_getElem hla⟩
  obtain ⟨b, hb⟩ : ∃ m, e.bin[laStart + wave]? = some m := ⟨_, List.getElem?_eq_getElem (by rw [he.bins]; exact hla)⟩
  unfold sample2
  simp only [readAt_some _ _ _ h1, readAt_some _ _ _ h2, readAt_some _ _ _ hm, readAt_some _ _ _ hw, readAt_some _ _ _ hl,
    readAt_some _ _ _ hb, Outcome.ok_bind, smp2, hm, hw, hl, hb, Option.getD_some, mu_travel]

theorem smp2_wave (e : Env) (hph : e.Physical) (g : Quad2) (c : Cell) (I psi : Cell → Nat → Nat × Nat → ℝ) (la dir incl : Nat)
    (hla : la < e.ad.wavelength.length) :
    WaveOk e (smp2 e g c I psi la dir incl) (e.ad.wavelength[la]?.getD 0)
      (e.bin[la]?.getD 0 * (1 / (c0DirsToAverage g.cfg : ℝ) * g.wmuy[incl]?.getD 0)) := by
  obtain ⟨l, hl⟩ : ∃ m, e.ad.wavelength[la]? = some m := ⟨_, List.getElem?_eq_getElem hla⟩
  refine ⟨by simp [smp2, hl], ?_, hph.hc, hph.fp, ?_⟩
  · rw [hl, Option.getD_some]; exact hph.waves l (List.mem_of_getElem? hl)
  · simp only [smp2]; ring

/-- What one ray contributes to element `d`. -/
noncomputable def rayVal2 (e : Env) (g : Quad2) (wphi : Cell → Nat → ℝ) (I psi : Cell → Nat → Nat × Nat → ℝ) (ia : Nat) (c : Cell)
    (d : Elem) (la dir incl : Nat) : ℝ :=
  atomVal e c (wphi c) ia (smp2 e g c I psi la dir incl) (e.ad.wavelength[la]?.getD 0)
    (e.bin[la]?.getD 0 * (1 / (c0DirsToAverage g.cfg : ℝ) * g.wmuy[incl]?.getD 0)) d

theorem cellOps2_total (e : Env) (he : e.Consistent) (hph : e.Physical) (g : Quad2)
    (hmu : g.muy.length = g.rays.incl) (hwm : g.wmuy.length = g.rays.incl) (wphi : Cell → Nat → ℝ) (cells : List Cell)
    (I psi : Cell → Nat → Nat × Nat → ℝ) (b : (Nat × Nat) × (Nat → List ℝ) × (Nat → List ℝ)) (hb : Batch2 e g cells I psi b)
    (t : Nat) (ht : t < subsetTasks g.cfg) (ia : Nat) (hia : ia < e.numLevel.length) (c : Cell) (hc : c ∈ cells) :
    ∃ ops, cellOps2 e g (wphi c) b.1.1 b.1.2 t (b.2.1 t) (b.2.2 t) ia c = .ok ops ∧
      ∀ d, total ops d = ∑ wave ∈ range (b.1.2 - b.1.1), ∑ k ∈ range (nthRaysSubset g.cfg g.rays t).2, ∑ incl ∈ range g.rays.incl,
        rayVal2 e g wphi I psi ia c d (b.1.1 + wave) ((nthRaysSubset g.cfg g.rays t).1 + k) incl := by
  obtain ⟨ops, h1, h2⟩ := opsLoop_total (fun x : Nat × Nat × Nat => do
    let s ← sample2 e g c b.1.1 (b.2.1 t) (b.2.2 t) x.1 x.2.1 x.2.2
    atomOps2 e c (wphi c) ia s) (RadGamma.iters2 g b.1.1 b.1.2 t) (fun x d => rayVal2 e g wphi I psi ia c d (b.1.1 + x.1) x.2.1 x.2.2) (by
      rintro ⟨wave, dir, incl⟩ hx
      simp only [RadGamma.iters2, List.mem_flatMap, List.mem_map, List.mem_range, Prod.mk.injEq] at hx
      obtain ⟨w, hw, k, hk, m, hm, rfl, rfl, rfl⟩ := hx
      have hw' : w < b.1.2 - b.1.1 := lt_of_lt_of_le hw (min_le_left _ _)
      have hla := hb.waves w hw'
      rw [sample2_ok e he g hmu hwm c b.1.1 w hla _ _ I psi _ m hm
        (hb.i t ht c hc w hw' _ m hm (Nat.le_add_right _ _) (Nat.add_lt_add_left hk _)) (hb.ps t ht c hc w hw' _ m hm (Nat.le_add_right _ _) (Nat.add_lt_add_left hk _)), Outcome.ok_bind]
      exact atomOps2_total he c (wphi c) hia _ _ _ (smp2_wave e hph g c I psi _ _ _ hla))
  refine ⟨ops, h1, fun d => ?_⟩
  rw [h2, RadGamma.iters2, min_eq_left hb.fits, sum_flatMap_map, sum_range_map]
  refine Finset.sum_congr rfl fun w _ => ?_
  rw [sum_flatMap_map, sum_range_map]
  refine Finset.sum_congr rfl fun k _ => ?_
  rw [List.map_map, sum_range_map]
  rfl

/-- What one pass adds. -/
theorem computeGamma2_total (e : Env) (he : e.Consistent) (hph : e.Physical) (g : Quad2) (hm : g.cfg.mode ≠ .preaverage)
    (hmu : g.muy.length = g.rays.incl) (hwm : g.wmuy.length = g.rays.incl) (wphi : Cell → Nat → ℝ) (cells : List Cell)
    (I psi : Cell → Nat → Nat × Nat → ℝ) (b : (Nat × Nat) × (Nat → List ℝ) × (Nat → List ℝ)) (hb : Batch2 e g cells I psi b)
    (t : Nat) (ht : t < subsetTasks g.cfg) :
    ∃ ops, computeGamma2 e g wphi cells b.1.1 b.1.2 t (b.2.1 t) (b.2.2 t) = .ok ops ∧
      ∀ d, total ops d = ∑ ia ∈ range e.numLevel.length, (cells.map fun c =>
        ∑ wave ∈ range (b.1.2 - b.1.1), ∑ k ∈ range (nthRaysSubset g.cfg g.rays t).2, ∑ incl ∈ range g.rays.incl,
        rayVal2 e g wphi I psi ia c d (b.1.1 + wave) ((nthRaysSubset g.cfg g.rays t).1 + k) incl).sum := by
  obtain ⟨ops, h1, h2⟩ := opsLoop_total (fun ia => opsLoop (fun c => cellOps2 e g (wphi c) b.1.1 b.1.2 t (b.2.1 t) (b.2.2 t) ia c) cells)
    (List.range e.numLevel.length) (fun ia d => (cells.map fun c =>
        ∑ wave ∈ range (b.1.2 - b.1.1), ∑ k ∈ range (nthRaysSubset g.cfg g.rays t).2, ∑ incl ∈ range g.rays.incl,
        rayVal2 e g wphi I psi ia c d (b.1.1 + wave) ((nthRaysSubset g.cfg g.rays t).1 + k) incl).sum) (by
      intro ia hia
      rw [List.mem_range] at hia
      exact opsLoop_total (fun c => cellOps2 e g (wphi c) b.1.1 b.1.2 t (b.2.1 t) (b.2.2 t) ia c) cells (fun c d =>
        ∑ wave ∈ range (b.1.2 - b.1.1), ∑ k ∈ range (nthRaysSubset g.cfg g.rays t).2, ∑ incl ∈ range g.rays.incl,
        rayVal2 e g wphi I psi ia c d (b.1.1 + wave) ((nthRaysSubset g.cfg g.rays t).1 + k) incl)
        (fun c hc => cellOps2_total e he hph g hmu hwm wphi cells I psi b hb t ht ia hia c hc))
  refine ⟨ops, ?_, fun d => by rw [h2, sum_range_map]⟩
  rw [computeGamma2, if_neg hm]
  exact h1

/-- The sum over cells has one term for the cell of the element. -/
theorem sum_cells (cells : List Cell) (hnd : (cells.map Cell.ks).Nodup) (c : Cell) (hc : c ∈ cells) (f : Cell → ℝ)
    (hz : ∀ c' ∈ cells, c'.ks ≠ c.ks → f c' = 0) : (cells.map f).sum = f c := by
  induction cells with
  | nil => simp at hc
  | cons x xs ih =>
    rw [List.map_cons, List.nodup_cons] at hnd
    rw [List.map_cons, List.sum_cons]
    rcases List.mem_cons.mp hc with rfl | hc'
    · have : (xs.map f).sum = 0 := by
        refine List.sum_eq_zero fun y hy => ?_
        obtain ⟨c', h1, rfl⟩ := List.mem_map.mp hy
        refine hz c' (by simp [h1]) fun he => hnd.1 ?_
        rw [← he]
        exact List.mem_map_of_mem h1
      rw [this, add_zero]
    · rw [ih hnd.2 hc' fun c' h => hz c' (by simp [h]), hz x (by simp) fun he => hnd.1 (by rw [he]; exact List.mem_map_of_mem hc'), zero_add]

theorem rayVal2_cell (e : Env) (g : Quad2) (wphi : Cell → Nat → ℝ) (I psi : Cell → Nat → Nat × Nat → ℝ) (ia : Nat) (c : Cell)
    (d : Elem) (la dir incl : Nat) (h : ¬ (d.1 = ia ∧ d.2.2.2 = c.ks)) : rayVal2 e g wphi I psi ia c d la dir incl = 0 := if_neg h

/-- All passes of a batch. -/
theorem batchGamma2_total (e : Env) (he : e.Consistent) (hph : e.Physical) (g : Quad2) (hv : g.cfg.Valid) (hm : g.cfg.mode ≠ .preaverage)
    (hmu : g.muy.length = g.rays.incl) (hwm : g.wmuy.length = g.rays.incl) (wphi : Cell → Nat → ℝ) (cells : List Cell)
    (hnd : (cells.map Cell.ks).Nodup)
    (I psi : Cell → Nat → Nat × Nat → ℝ) (b : (Nat × Nat) × (Nat → List ℝ) × (Nat → List ℝ)) (hb : Batch2 e g cells I psi b) :
    ∃ ops, batchGamma2 e g wphi cells b.1.1 b.1.2 b.2.1 b.2.2 = .ok ops ∧
      ∀ c ∈ cells, ∀ ia < e.numLevel.length, ∀ a b', total ops (ia, a, b', c.ks) =
        ∑ wave ∈ range (b.1.2 - b.1.1), ∑ dir ∈ range g.rays.dirs, ∑ incl ∈ range g.rays.incl,
          rayVal2 e g wphi I psi ia c (ia, a, b', c.ks) (b.1.1 + wave) dir incl := by
  obtain ⟨ops, h1, h2⟩ := opsLoop_total (fun t => computeGamma2 e g wphi cells b.1.1 b.1.2 t (b.2.1 t) (b.2.2 t))
    (List.range (subsetTasks g.cfg)) (fun t d => ∑ ia ∈ range e.numLevel.length, (cells.map fun c =>
        ∑ wave ∈ range (b.1.2 - b.1.1), ∑ k ∈ range (nthRaysSubset g.cfg g.rays t).2, ∑ incl ∈ range g.rays.incl,
        rayVal2 e g wphi I psi ia c d (b.1.1 + wave) ((nthRaysSubset g.cfg g.rays t).1 + k) incl).sum) (fun t ht =>
          computeGamma2_total e he hph g hm hmu hwm wphi cells I psi b hb t (List.mem_range.mp ht))
  refine ⟨ops, h1, fun c hc ia hia a b' => ?_⟩
  rw [h2, sum_range_map]
  have hone : ∀ t, (∑ ia' ∈ range e.numLevel.length, (cells.map fun c' =>
        ∑ wave ∈ range (b.1.2 - b.1.1), ∑ k ∈ range (nthRaysSubset g.cfg g.rays t).2, ∑ incl ∈ range g.rays.incl,
        rayVal2 e g wphi I psi ia' c' (ia, a, b', c.ks) (b.1.1 + wave) ((nthRaysSubset g.cfg g.rays t).1 + k) incl).sum) =
      ∑ wave ∈ range (b.1.2 - b.1.1), ∑ k ∈ range (nthRaysSubset g.cfg g.rays t).2, ∑ incl ∈ range g.rays.incl,
        rayVal2 e g wphi I psi ia c (ia, a, b', c.ks) (b.1.1 + wave) ((nthRaysSubset g.cfg g.rays t).1 + k) incl := by
    intro t
    rw [Finset.sum_eq_single ia]
    · refine sum_cells cells hnd c hc _ fun c' _ hne => ?_
      refine Finset.sum_eq_zero fun w _ => Finset.sum_eq_zero fun k _ => Finset.sum_eq_zero fun m _ => ?_
      exact rayVal2_cell _ _ _ _ _ _ _ _ _ _ _ fun h => hne h.2.symm
    · intro ia' _ hne
      refine List.sum_eq_zero fun y hy => ?_
      obtain ⟨c', _, rfl⟩ := List.mem_map.mp hy
      refine Finset.sum_eq_zero fun w _ => Finset.sum_eq_zero fun k _ => Finset.sum_eq_zero fun m _ => ?_
      exact rayVal2_cell _ _ _ _ _ _ _ _ _ _ _ fun h => hne h.1.symm
    · intro h; exact absurd (Finset.mem_range.mpr hia) h
  rw [Finset.sum_congr rfl fun t _ => hone t, Finset.sum_comm]
  refine Finset.sum_congr rfl fun w _ => ?_
  exact passes_sum2 g hv (fun dir => ∑ incl ∈ range g.rays.incl,
    rayVal2 e g wphi I psi ia c (ia, a, b', c.ks) (b.1.1 + w) dir incl) hm

end DexRT.RadGamma
