import Verif.Lemmas.RayRays
/-! Lemmas for C87: the loops over rays, wavelengths and views. -/
namespace DexRT.RayRun
open DexRT DexRT.AtmosFile DexRT.Emis DexRT.Ray DexRT.LteRun Classical

variable {t : Tool} {k nx nz : Nat} {a : Cond} {res : Result} {d : Loaded}

theorem fill_ok (g : Nat → Outcome (ℝ × ℝ)) (val : Nat → ℝ × ℝ) (w : Nat) : ∀ (l : List Nat) (arr : Arr2 (ℝ × ℝ)), w < arr.rows →
    (∀ i ∈ l, i < arr.cols ∧ g i = .ok (val i)) →
    ∃ arr', l.foldlM (fun a i => do
        let x ← g i
        setArr a w i x) arr = .ok arr' ∧ arr'.rows = arr.rows ∧ arr'.cols = arr.cols ∧
      ∀ r c, arr'.get r c = if r = w ∧ c ∈ l then val c else arr.get r c
  | [], arr, _, _ => ⟨arr, rfl, rfl, rfl, fun r c => by simp⟩
  | i :: l, arr, hw, h => by
    obtain ⟨h1, h2⟩ := h i List.mem_cons_self
    have hset : setArr arr w i (val i) = .ok { arr with get := fun r c => if r = w ∧ c = i then val i else arr.get r c } := by
      unfold setArr; rw [if_pos ⟨hw, h1⟩]
    obtain ⟨arr', e1, e2, e3, e4⟩ := fill_ok g val w l { arr with get := fun r c => if r = w ∧ c = i then val i else arr.get r c } hw
      (fun j hj => h j (List.mem_cons_of_mem _ hj))
    refine ⟨arr', ?_, e2, e3, fun r c => ?_⟩
    · rw [List.foldlM_cons, h2, Outcome.ok_bind, hset, Outcome.ok_bind]
      exact e1
    · rw [e4]
      by_cases hr : r = w
      swap
      · simp [hr]
      by_cases hc : c ∈ l
      · simp [hr, hc]
      · by_cases hci : c = i
        · subst hci; simp [hr, hc]
        · simp [hr, hc, hci]

/-- what is written for a ray -/
noncomputable def valOf (t : Tool) (k nx nz : Nat) (a : Cond) (res : Result) (rotate : Bool) (v : Num × Num) (wl : List ℝ) (w i : Nat) : ℝ × ℝ :=
  match boundaryI2 (t.bc w) a.scale (a.offset 0) (a.offset 2) (startOf rotate (nx * 2 ^ k) (nz * 2 ^ k) v i) (flatMu (muOf v)) with
  | .ok bI => seen (rayEnv t k nx nz a) (segOf rotate (nx * 2 ^ k) (nz * 2 ^ k) v i) (distanceFactor a.scale (muOf v))
      (gasAt t (updated a res) res (hOf t a res) (muOf v) (wl.getD w 0)) bI
  | _ => (0, 0)

/-- one wavelength -/
theorem wave_ok (hf : RayFits t k nx nz) (hr : RayReady t) (hI : IsLoaded t k nx nz a res d) (hlev : totalLevels t.ad ≤ res.levels)
    (hwm : t.haveH = false → WarmKept t k nx nz a res) (rotate : Bool) (wl : List ℝ) (v : Num × Num) (hv : v.1.v ≠ 0 ∨ v.2.v ≠ 0)
    (hg : GoodStarts t k nx nz a rotate v) (o : ViewOrder) (hoc : ∀ w, (o.cells w).Perm (loopIters (2 ^ k * 2 ^ k) d.bm))
    (hor : ∀ w, (o.rays w).Perm (List.range (raysOf rotate (nx * 2 ^ k) (nz * 2 ^ k) v)))
    (m : Int → EO) (arr : Arr2 (ℝ × ℝ)) (w : Nat) (hw : w < wl.length) (hrows : arr.rows = wl.length)
    (hcols : arr.cols = raysOf rotate (nx * 2 ^ k) (nz * 2 ^ k) v) :
    ∃ m' arr', waveStep t d rotate wl v o (m, arr) w = .ok (m', arr') ∧ arr'.rows = arr.rows ∧ arr'.cols = arr.cols ∧
      (∀ r c, r ≠ w → arr'.get r c = arr.get r c) ∧ ∀ i < arr.cols, arr'.get w i = valOf t k nx nz a res rotate v wl w i := by
  obtain ⟨m', e1, e2⟩ := cells2_ok hf.axes.1 hf.axes.2 d.bm hI.map (fun _ ks => cellVal t d (muOf v) wl[w] (o.scratch w ks) ks)
    (gasAt t (updated a res) res (hOf t a res) (muOf v) wl[w])
    (fun c hc adr hadr => cellVal_ok hr hI hlev hwm (muOf v) wl[w] _ c hc adr hadr) (o.cells w) (hoc w) m
  have hray : ∀ i, rayOne t d rotate v o.junk m' w i = .ok (valOf t k nx nz a res rotate v wl w i) := by
    intro i
    obtain ⟨bI, b1, b2, -⟩ := ray_ok hf hr hI rotate v hv hg o.junk m' _ e2 w i
    rw [b2]
    unfold valOf
    rw [b1]
    simp [hw]
  obtain ⟨arr', f1, f2, f3, f4⟩ := fill_ok (fun i => rayOne t d rotate v o.junk m' w i) (valOf t k nx nz a res rotate v wl w) w (o.rays w) arr
    (by omega) (fun i hi => ⟨by rw [hcols]; exact List.mem_range.1 ((hor w).mem_iff.1 hi), hray i⟩)
  refine ⟨m', arr', ?_, f2, f3, fun r c hne => by rw [f4, if_neg (fun h => hne h.1)], fun i hi => ?_⟩
  · unfold waveStep
    have hrd : readAt wl w = .ok wl[w] := by unfold readAt; simp [hw]
    rw [hrd, Outcome.ok_bind, hf.block, e1, Outcome.ok_bind, f1, Outcome.ok_bind]
  · rw [f4, if_pos ⟨rfl, (hor w).mem_iff.2 (List.mem_range.2 (by omega))⟩]

theorem waves_ok (hf : RayFits t k nx nz) (hr : RayReady t) (hI : IsLoaded t k nx nz a res d) (hlev : totalLevels t.ad ≤ res.levels)
    (hwm : t.haveH = false → WarmKept t k nx nz a res) (rotate : Bool) (wl : List ℝ) (v : Num × Num) (hv : v.1.v ≠ 0 ∨ v.2.v ≠ 0)
    (hg : GoodStarts t k nx nz a rotate v) (o : ViewOrder) (hoc : ∀ w, (o.cells w).Perm (loopIters (2 ^ k * 2 ^ k) d.bm))
    (hor : ∀ w, (o.rays w).Perm (List.range (raysOf rotate (nx * 2 ^ k) (nz * 2 ^ k) v)))
    (m : Int → EO) (arr : Arr2 (ℝ × ℝ)) (hrows : arr.rows = wl.length)
    (hcols : arr.cols = raysOf rotate (nx * 2 ^ k) (nz * 2 ^ k) v) : ∀ n ≤ wl.length,
    ∃ m' arr', (List.range n).foldlM (waveStep t d rotate wl v o) (m, arr) = .ok (m', arr') ∧ arr'.rows = arr.rows ∧ arr'.cols = arr.cols ∧
      ∀ w < n, ∀ i < arr.cols, arr'.get w i = valOf t k nx nz a res rotate v wl w i
  | 0, _ => ⟨m, arr, rfl, rfl, rfl, fun w hw => absurd hw (by omega)⟩
  | n + 1, hn => by
    obtain ⟨m1, arr1, e1, e2, e3, e4⟩ := waves_ok hf hr hI hlev hwm rotate wl v hv hg o hoc hor m arr hrows hcols n (by omega)
    obtain ⟨m2, arr2, f1, f2, f3, f4, f5⟩ := wave_ok hf hr hI hlev hwm rotate wl v hv hg o hoc hor m1 arr1 n (by omega) (by omega) (by omega)
    refine ⟨m2, arr2, ?_, by omega, by omega, fun w hw i hi => ?_⟩
    · rw [List.range_succ, List.foldlM_append, e1]
      simp only [Outcome.ok_bind, List.foldlM_cons, List.foldlM_nil, f1]
      rfl
    · by_cases h : w = n
      · subst h; exact f5 i (by omega)
      · rw [f4 _ _ h]; exact e4 w (by omega) i hi

theorem allocate_dims (rows cols : Nat) (fresh : Nat → Nat → ℝ × ℝ) (o : Option (Arr2 (ℝ × ℝ))) : (allocate rows cols fresh o).rows = rows ∧ (allocate rows cols fresh o).cols = cols := by
  cases o with
  | none => exact ⟨rfl, rfl⟩
  | some x =>
    unfold allocate
    by_cases h : x.rows = rows ∧ x.cols = cols
    · simp only [h, and_self, if_true]
    · simp only [h, if_false, and_self]

/-- the plane that is written for a view, up to what lies outside the arrays -/
structure PlaneVal (t : Tool) (k nx nz : Nat) (a : Cond) (res : Result) (rotate : Bool) (wl : List ℝ) (v : Num × Num) (p : Plane) : Prop where
  starts : p.starts = (List.range (raysOf rotate (nx * 2 ^ k) (nz * 2 ^ k) v)).map fun i => startOf rotate (nx * 2 ^ k) (nz * 2 ^ k) v i
  rows : p.data.rows = wl.length
  cols : p.data.cols = raysOf rotate (nx * 2 ^ k) (nz * 2 ^ k) v
  value : ∀ w < wl.length, ∀ i < raysOf rotate (nx * 2 ^ k) (nz * 2 ^ k) v, p.data.get w i = valOf t k nx nz a res rotate v wl w i

theorem view_ok (hf : RayFits t k nx nz) (hr : RayReady t) (hI : IsLoaded t k nx nz a res d) (hlev : totalLevels t.ad ≤ res.levels)
    (hwm : t.haveH = false → WarmKept t k nx nz a res) (rotate : Bool) (wl : List ℝ) (v : Num × Num) (hv : v.1.v ≠ 0 ∨ v.2.v ≠ 0)
    (hg : GoodStarts t k nx nz a rotate v) (o : ViewOrder) (hoc : ∀ w, (o.cells w).Perm (loopIters (2 ^ k * 2 ^ k) d.bm))
    (hor : ∀ w, (o.rays w).Perm (List.range (raysOf rotate (nx * 2 ^ k) (nz * 2 ^ k) v))) (s : Kept) :
    ∃ p s', viewStep t d rotate wl v o s = .ok (p, s') ∧ PlaneVal t k nx nz a res rotate wl v p := by
  obtain ⟨n1, n2⟩ := dims_nat hI
  obtain ⟨a1, a2⟩ := allocate_dims wl.length (raysOf rotate (nx * 2 ^ k) (nz * 2 ^ k) v) o.fresh s.arr
  obtain ⟨m', arr', e1, e2, e3, e4⟩ := waves_ok hf hr hI hlev hwm rotate wl v hv hg o hoc hor s.eo _ a1 a2 wl.length le_rfl
  unfold viewStep
  simp only [n1, n2, e1, Outcome.ok_bind]
  exact ⟨_, _, rfl, ⟨rfl, by rw [← a1]; exact e2, by rw [← a2]; exact e3, fun w hw i hi => e4 w hw i (by omega)⟩⟩

theorem views_ok (hf : RayFits t k nx nz) (hr : RayReady t) (hI : IsLoaded t k nx nz a res d) (hlev : totalLevels t.ad ≤ res.levels)
    (hwm : t.haveH = false → WarmKept t k nx nz a res) (rotate : Bool) (wl : List ℝ) (o : Nat → ViewOrder) :
    ∀ (vs : List (Num × Num)) (i : Nat) (s : Kept), (∀ v ∈ vs, (v.1.v ≠ 0 ∨ v.2.v ≠ 0) ∧ GoodStarts t k nx nz a rotate v) →
      (∀ j (h : j < vs.length), (∀ w, ((o (i + j)).cells w).Perm (loopIters (2 ^ k * 2 ^ k) d.bm)) ∧
        ∀ w, ((o (i + j)).rays w).Perm (List.range (raysOf rotate (nx * 2 ^ k) (nz * 2 ^ k) vs[j]))) →
      ∃ ps, viewLoop t d rotate wl o i vs s = .ok ps ∧ List.Forall₂ (PlaneVal t k nx nz a res rotate wl) vs ps
  | [], _, _, _, _ => ⟨[], rfl, List.Forall₂.nil⟩
  | v :: vs, i, s, hv, ho => by
    obtain ⟨h1, h2⟩ := hv v List.mem_cons_self
    obtain ⟨o1, o2⟩ := ho 0 (by simp)
    obtain ⟨p, s', e1, e2⟩ := view_ok hf hr hI hlev hwm rotate wl v h1 h2 (o i) o1 o2 s
    obtain ⟨ps, f1, f2⟩ := views_ok hf hr hI hlev hwm rotate wl o vs (i + 1) s' (fun v hv' => hv v (List.mem_cons_of_mem _ hv'))
      (fun j hj => by
        have := ho (j + 1) (by simpa using hj)
        rw [show i + 1 + j = i + (j + 1) by omega]
        simpa using this)
    refine ⟨p :: ps, ?_, List.Forall₂.cons e2 f2⟩
    unfold viewLoop
    rw [e1, Outcome.ok_bind, f1, Outcome.ok_bind]

/-- the plane is what the specification asks for -/
theorem plane_spec (hf : RayFits t k nx nz) (hr : RayReady t) (hI : IsLoaded t k nx nz a res d) (rotate : Bool) (wl : List ℝ) (v : Num × Num)
    (hv : v.1.v ≠ 0 ∨ v.2.v ≠ 0) (hg : GoodStarts t k nx nz a rotate v) (p : Plane) (hp : PlaneVal t k nx nz a res rotate wl v p) :
    PlaneIs t k nx nz a res (hOf t a res) rotate wl v p where
  starts := hp.starts
  rows := hp.rows
  cols := hp.cols
  value := by
    intro w hw i hi
    obtain ⟨m, -, hm⟩ := cells2_ok hf.axes.1 hf.axes.2 d.bm hI.map (fun c _ => .ok (gasAt t (updated a res) res (hOf t a res) (muOf v) wl[w] c))
      (gasAt t (updated a res) res (hOf t a res) (muOf v) wl[w]) (fun c hc adr hadr => rfl) _ (List.Perm.refl _) (fun _ => ⟨0, 0⟩)
    obtain ⟨bI, b1, -, b3⟩ := ray_ok hf hr hI rotate v hv hg (⟨0, 0⟩, 0) m _ hm w i
    refine ⟨bI, b1, ?_⟩
    rw [hp.value w hw i hi]
    unfold valOf
    rw [b1]
    simpa [hw] using b3

end DexRT.RayRun
