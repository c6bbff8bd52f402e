import Verif.Lemmas.RayRays3
import Verif.Lemmas.RayExact
/-! Lemmas for C92: the loops over rays, wavelengths and views, and the stack of cells of a ray. -/
namespace DexRT.RayRun3
open DexRT DexRT.AtmosFile DexRT.Emis DexRT.Ray DexRT.RayRun DexRT.Lte3 Classical

variable {t : Tool} {k nx ny nz : Nat} {a : Cond} {res : Result} {d : Loaded}

theorem fill_ok (g : Nat → Nat → Outcome (ℝ × ℝ)) (val : Nat → Nat → ℝ × ℝ) (w : Nat) : ∀ (l : List (Nat × Nat)) (arr : Image), w < arr.waves →
    (∀ p ∈ l, (p.1 < arr.ny ∧ p.2 < arr.nx) ∧ g p.1 p.2 = .ok (val p.1 p.2)) →
    ∃ arr', l.foldlM (fun (a : Image) (p : Nat × Nat) => do
        let x ← g p.1 p.2
        a.set w p.1 p.2 x) arr = .ok arr' ∧ arr'.waves = arr.waves ∧ arr'.ny = arr.ny ∧ arr'.nx = arr.nx ∧
      ∀ r y x, arr'.get r y x = if r = w ∧ (y, x) ∈ l then val y x else arr.get r y x
  | [], arr, _, _ => ⟨arr, rfl, rfl, rfl, rfl, fun r y x => by simp⟩
  | p :: l, arr, hw, h => by
    obtain ⟨⟨h1, h1'⟩, h2⟩ := h p List.mem_cons_self
    have hset : arr.set w p.1 p.2 (val p.1 p.2) = .ok { arr with get := fun l y' x' => if l = w ∧ y' = p.1 ∧ x' = p.2 then val p.1 p.2 else arr.get l y' x' } := by
      unfold Image.set; rw [if_pos ⟨hw, h1, h1'⟩]
    obtain ⟨arr', e1, e2, e3, e3', e4⟩ := fill_ok g val w l { arr with get := fun l y' x' => if l = w ∧ y' = p.1 ∧ x' = p.2 then val p.1 p.2 else arr.get l y' x' } hw
      (fun j hj => h j (List.mem_cons_of_mem _ hj))
    refine ⟨arr', ?_, e2, e3, e3', fun r y x => ?_⟩
    · rw [List.foldlM_cons, h2, Outcome.ok_bind, hset, Outcome.ok_bind]
      exact e1
    · rw [e4]
      by_cases hr : r = w
      swap
      · simp [hr]
      by_cases hc : (y, x) ∈ l
      · simp [hr, hc]
      · by_cases hci : (y, x) = p
        · subst hci; simp [hr, hc]
        · have hne : ¬ (y = p.1 ∧ x = p.2) := fun h => hci (Prod.ext h.1 h.2)
          simp [hr, hc, hci, hne]

/-- what is written for a pixel -/
noncomputable def valOf (t : Tool) (k nx ny nz : Nat) (a : Cond) (res : Result) (ss : Nat) (v : View) (wl : List ℝ) (w y x : Nat) : ℝ × ℝ :=
  if h : ∃ bI, Background t a ss v w y x bI then seen (rayEnv t k nx ny nz a) (pixelRay ss v y x) a.scale
      (gasAt t (updated a res) res (hOf t a res) (lineOfSight v.dir) (wl.getD w 0)) (Classical.choose h)
  else (0, 0)

theorem valOf_eq (ss : Nat) (v : View) (wl : List ℝ) (w y x : Nat) (bI : ℝ) (h : Background t a ss v w y x bI) :
    valOf t k nx ny nz a res ss v wl w y x = seen (rayEnv t k nx ny nz a) (pixelRay ss v y x) a.scale
      (gasAt t (updated a res) res (hOf t a res) (lineOfSight v.dir) (wl.getD w 0)) bI := by
  have hex : ∃ bI, Background t a ss v w y x bI := ⟨bI, h⟩
  unfold valOf
  rw [dif_pos hex, background_unique (Classical.choose_spec hex) h]

/-- one wavelength -/
theorem wave_ok (hf : RayFits t k nx ny nz) (hr : RayReady t) (hI : IsLoaded t k nx ny nz a res d) (hlev : totalLevels t.ad ≤ res.levels)
    (hwm : t.haveH = false → WarmKept t k nx ny nz a res) (ss numY numX : Nat) (wl : List ℝ) (v : View) (hv : PlainDir v.dir)
    (hg : GoodStarts t k nx ny nz a ss v) (o : ViewOrder) (hoc : ∀ w, (o.cells w).Perm (loopIters (2 ^ k * 2 ^ k * 2 ^ k) d.bm))
    (hor : ∀ w, (o.rays w).Perm (List.range numY ×ˢ List.range numX))
    (m : Int → EO) (arr : Image) (w : Nat) (hw : w < wl.length) (hrows : arr.waves = wl.length) (hny : arr.ny = numY) (hnx : arr.nx = numX) :
    ∃ m' arr', waveStep t d ss wl v o (m, arr) w = .ok (m', arr') ∧ arr'.waves = arr.waves ∧ arr'.ny = arr.ny ∧ arr'.nx = arr.nx ∧
      (∀ r y x, r ≠ w → arr'.get r y x = arr.get r y x) ∧ ∀ y < numY, ∀ x < numX, arr'.get w y x = valOf t k nx ny nz a res ss v wl w y x := by
  have hmu : viewRay3 v.dir.vec = lineOfSight v.dir := rfl
  obtain ⟨m', e1, e2⟩ := cells3_ok hf.axes.1 hf.axes.2.1 hf.axes.2.2 d.bm hI.map (fun ks => cellVal t d (lineOfSight v.dir) wl[w] (o.scratch w ks) ks)
    (gasAt t (updated a res) res (hOf t a res) (lineOfSight v.dir) wl[w])
    (fun c hc adr hadr => cellVal_ok hr hI hlev hwm (lineOfSight v.dir) wl[w] _ c hc adr hadr) (o.cells w) (hoc w) m
  have hray : ∀ y x, rayOne t d ss v o.junk m' w y x = .ok (valOf t k nx ny nz a res ss v wl w y x) := by
    intro y x
    obtain ⟨bI, b1, b2, -⟩ := ray_ok hf hr hI ss v hv hg o.junk m' _ e2 w y x
    rw [b2, valOf_eq ss v wl w y x bI b1]
    simp [hw]
  have hmem : ∀ y x, (y, x) ∈ o.rays w ↔ y < numY ∧ x < numX := by
    intro y x
    rw [(hor w).mem_iff, List.mem_product, List.mem_range, List.mem_range]
  obtain ⟨arr', f1, f2, f3, f3', f4⟩ := fill_ok (fun y x => rayOne t d ss v o.junk m' w y x) (valOf t k nx ny nz a res ss v wl w) w (o.rays w) arr
    (by omega) (fun p hp => ⟨by have := (hmem p.1 p.2).1 hp; rw [hny, hnx]; exact this, hray p.1 p.2⟩)
  refine ⟨m', arr', ?_, f2, f3, f3', fun r y x hne => by rw [f4, if_neg (fun h => hne h.1)], fun y hy x hx => ?_⟩
  · unfold waveStep
    have hrd : readAt wl w = .ok wl[w] := by unfold readAt; simp [hw]
    rw [hrd, Outcome.ok_bind, hf.block, hmu, e1, Outcome.ok_bind, f1, Outcome.ok_bind]
  · rw [f4, if_pos ⟨rfl, (hmem y x).2 ⟨hy, hx⟩⟩]

theorem waves_ok (hf : RayFits t k nx ny nz) (hr : RayReady t) (hI : IsLoaded t k nx ny nz a res d) (hlev : totalLevels t.ad ≤ res.levels)
    (hwm : t.haveH = false → WarmKept t k nx ny nz a res) (ss numY numX : Nat) (wl : List ℝ) (v : View) (hv : PlainDir v.dir)
    (hg : GoodStarts t k nx ny nz a ss v) (o : ViewOrder) (hoc : ∀ w, (o.cells w).Perm (loopIters (2 ^ k * 2 ^ k * 2 ^ k) d.bm))
    (hor : ∀ w, (o.rays w).Perm (List.range numY ×ˢ List.range numX))
    (m : Int → EO) (arr : Image) (hrows : arr.waves = wl.length) (hny : arr.ny = numY) (hnx : arr.nx = numX) : ∀ n ≤ wl.length,
    ∃ m' arr', (List.range n).foldlM (waveStep t d ss wl v o) (m, arr) = .ok (m', arr') ∧ arr'.waves = arr.waves ∧ arr'.ny = arr.ny ∧ arr'.nx = arr.nx ∧
      ∀ w < n, ∀ y < numY, ∀ x < numX, arr'.get w y x = valOf t k nx ny nz a res ss v wl w y x
  | 0, _ => ⟨m, arr, rfl, rfl, rfl, rfl, fun w hw => absurd hw (by omega)⟩
  | n + 1, hn => by
    obtain ⟨m1, arr1, e1, e2, e3, e3', e4⟩ := waves_ok hf hr hI hlev hwm ss numY numX wl v hv hg o hoc hor m arr hrows hny hnx n (by omega)
    obtain ⟨m2, arr2, f1, f2, f3, f3', f4, f5⟩ := wave_ok hf hr hI hlev hwm ss numY numX wl v hv hg o hoc hor m1 arr1 n (by omega) (by omega) (by omega) (by omega)
    refine ⟨m2, arr2, ?_, by omega, by omega, by omega, fun w hw y hy x hx => ?_⟩
    · rw [List.range_succ, List.foldlM_append, e1]
      simp only [Outcome.ok_bind, List.foldlM_cons, List.foldlM_nil, f1]
      rfl
    · by_cases h : w = n
      · subst h; exact f5 y hy x hx
      · rw [f4 _ _ _ h]; exact e4 w (by omega) y hy x hx

theorem allocate_dims (waves ny nx : Nat) (fresh : Nat → Nat → Nat → ℝ × ℝ) (o : Option Image) :
    (allocate waves ny nx fresh o).waves = waves ∧ (allocate waves ny nx fresh o).ny = ny ∧ (allocate waves ny nx fresh o).nx = nx := by
  cases o with
  | none => exact ⟨rfl, rfl, rfl⟩
  | some x =>
    unfold allocate
    by_cases h : x.waves = waves ∧ x.ny = ny ∧ x.nx = nx
    · simp only [h, and_self, if_true]
    · simp only [h, if_false, and_self]

/-- the image that is written for a view, up to what lies outside the arrays -/
structure ImageVal (t : Tool) (k nx ny nz : Nat) (a : Cond) (res : Result) (ss numY numX : Nat) (wl : List ℝ) (v : View) (p : Image) : Prop where
  rows : p.waves = wl.length
  height : p.ny = numY
  width : p.nx = numX
  value : ∀ w < wl.length, ∀ y < numY, ∀ x < numX, p.get w y x = valOf t k nx ny nz a res ss v wl w y x

/-- what the configuration gives -/
structure Asks (p : Parsed) (ss numY numX : Nat) (vs : List View) : Prop where
  dimX : imageDim p.size.1 ss = .ok numX
  dimY : imageDim p.size.2 ss = .ok numY
  read : ∀ i (h : i < vs.length), readView3 p i = .ok vs[i]

theorem view_ok (hf : RayFits t k nx ny nz) (hr : RayReady t) (hI : IsLoaded t k nx ny nz a res d) (hlev : totalLevels t.ad ≤ res.levels)
    (hwm : t.haveH = false → WarmKept t k nx ny nz a res) {p : Parsed} {ss numY numX : Nat} {vs : List View} (hp : Asks p ss numY numX vs) (wl : List ℝ)
    (i : Nat) (hi : i < vs.length) (hv : PlainDir vs[i].dir) (hg : GoodStarts t k nx ny nz a ss vs[i]) (o : ViewOrder)
    (hoc : ∀ w, (o.cells w).Perm (loopIters (2 ^ k * 2 ^ k * 2 ^ k) d.bm))
    (hor : ∀ w, (o.rays w).Perm (List.range numY ×ˢ List.range numX)) (s : Option Image) :
    ∃ q, viewStep t d p ss wl i o s = .ok q ∧ ImageVal t k nx ny nz a res ss numY numX wl vs[i] q := by
  obtain ⟨a1, a2, a3⟩ := allocate_dims wl.length numY numX o.fresh s
  obtain ⟨m', arr', e1, e2, e3, e3', e4⟩ := waves_ok hf hr hI hlev hwm ss numY numX wl vs[i] hv hg o hoc hor o.oldEO _ a1 a2 a3 wl.length le_rfl
  unfold viewStep
  simp only [hp.dimX, hp.dimY, hp.read i hi, e1, Outcome.ok_bind]
  exact ⟨_, rfl, ⟨by rw [← a1]; exact e2, by rw [← a2]; exact e3, by rw [← a3]; exact e3', e4⟩⟩

theorem views_ok (hf : RayFits t k nx ny nz) (hr : RayReady t) (hI : IsLoaded t k nx ny nz a res d) (hlev : totalLevels t.ad ≤ res.levels)
    (hwm : t.haveH = false → WarmKept t k nx ny nz a res) {p : Parsed} {ss numY numX : Nat} {vs : List View} (hp : Asks p ss numY numX vs) (wl : List ℝ)
    (o : Nat → ViewOrder) (hv : ∀ v ∈ vs, PlainDir v.dir ∧ GoodStarts t k nx ny nz a ss v)
    (ho : ∀ j < vs.length, (∀ w, ((o j).cells w).Perm (loopIters (2 ^ k * 2 ^ k * 2 ^ k) d.bm)) ∧ ∀ w, ((o j).rays w).Perm (List.range numY ×ˢ List.range numX)) :
    ∀ n i (s : Option Image), i + n = vs.length →
      ∃ ps, viewLoop t d p ss wl o (List.range' i n) s = .ok ps ∧ List.Forall₂ (ImageVal t k nx ny nz a res ss numY numX wl) (vs.drop i) ps
  | 0, i, s, h => ⟨[], rfl, by rw [List.drop_of_length_le (by omega)]; exact List.Forall₂.nil⟩
  | n + 1, i, s, h => by
    have hi : i < vs.length := by omega
    obtain ⟨h1, h2⟩ := hv vs[i] (List.getElem_mem hi)
    obtain ⟨o1, o2⟩ := ho i hi
    obtain ⟨q, e1, e2⟩ := view_ok hf hr hI hlev hwm hp wl i hi h1 h2 (o i) o1 o2 s
    obtain ⟨ps, f1, f2⟩ := views_ok hf hr hI hlev hwm hp wl o hv ho n (i + 1) (some q) (by omega)
    refine ⟨q :: ps, ?_, ?_⟩
    · rw [List.range'_succ]
      unfold viewLoop
      rw [e1, Outcome.ok_bind, f1, Outcome.ok_bind]
    · rw [List.drop_eq_getElem_cons hi]
      exact List.Forall₂.cons e2 f2

/-- the image is what the specification asks for -/
theorem image_spec (hf : RayFits t k nx ny nz) (hr : RayReady t) (hI : IsLoaded t k nx ny nz a res d) (ss numY numX : Nat) (wl : List ℝ) (v : View)
    (hv : PlainDir v.dir) (hg : GoodStarts t k nx ny nz a ss v) (p : Image) (hp : ImageVal t k nx ny nz a res ss numY numX wl v p) :
    ImageIs t k nx ny nz a res (hOf t a res) ss numY numX wl v p where
  waves := hp.rows
  height := hp.height
  width := hp.width
  value := by
    intro w hw y x hy hx
    obtain ⟨H⟩ : Nonempty (∃ m : Int → EO, ∀ c, HasData3 (2 ^ k) nx ny nz (ActiveTile t k a) c → ∀ adr, Addr3 (2 ^ k) d.bm c adr →
        m adr = gasAt t (updated a res) res (hOf t a res) (lineOfSight v.dir) wl[w] c) := by
      have H := iterSpace3 k nx ny nz _ d.bm hf.axes.1 hf.axes.2.1 hf.axes.2.2 hI.map
      refine ⟨⟨fun adr => if h : ∃ c, HasData3 (2 ^ k) nx ny nz (ActiveTile t k a) c ∧ Addr3 (2 ^ k) d.bm c adr then
        gasAt t (updated a res) res (hOf t a res) (lineOfSight v.dir) wl[w] (Classical.choose h) else ⟨0, 0⟩, fun c hc adr hadr => ?_⟩⟩
      have hex : ∃ c, HasData3 (2 ^ k) nx ny nz (ActiveTile t k a) c ∧ Addr3 (2 ^ k) d.bm c adr := ⟨c, hc, hadr⟩
      simp only [dif_pos hex]
      congr 1
      obtain ⟨g1, g2⟩ := Classical.choose_spec hex
      obtain ⟨p, hp, hpc⟩ := H.ontoC _ g1
      obtain ⟨q, hq, hqc⟩ := H.ontoC _ hc
      obtain ⟨c1, d1, -, d3⟩ := H.co p hp
      obtain ⟨c2, f1, -, f3⟩ := H.co q hq
      rw [hpc] at d1
      rw [hqc] at f1
      obtain rfl := Outcome.ok.inj d1
      obtain rfl := Outcome.ok.inj f1
      have hpq : p = q := H.injI p hp q hq (by rw [H.fn _ _ _ d3 g2, H.fn _ _ _ f3 hadr])
      subst hpq
      rw [hpc] at hqc
      exact Outcome.ok.inj hqc
    obtain ⟨m, hm⟩ := H
    obtain ⟨bI, b1, -, b3⟩ := ray_ok hf hr hI ss v hv hg (⟨0, 0⟩, 0) m _ hm w y x
    refine ⟨bI, b1, ?_⟩
    rw [hp.value w hw y hy x hx, valOf_eq ss v wl w y x bI b1]
    simpa [hw] using b3

open Set in
/-- the stack of cells that a ray crosses solves the transfer equation -/
theorem stack_solves (K : ℝ) (gas : Coord3 → EO) (hchi : ∀ c, 0 ≤ (gas c).chi) (I τ : ℝ → ℝ) (T : ℝ) : ∀ (s : Dda .three) (l : List (Dda .three)),
    (s :: l).IsChain (fun x y => y.t = x.t + x.dt) → (∀ v ∈ s :: l, 0 ≤ v.dt ∧ v.t + v.dt ≤ max v.t T) → s.t ≤ T →
    (∃ v ∈ s :: l, T ≤ v.t + v.dt) → ContinuousOn I (Icc s.t T) → ContinuousOn τ (Icc s.t T) →
    (∀ v ∈ s :: l, ∀ x ∈ Ioo v.t (v.t + v.dt),
      SolvesAt (-K) (gas ⟨v.coord 0, v.coord 1, v.coord 2⟩).eta ((gas ⟨v.coord 0, v.coord 1, v.coord 2⟩).chi + 1e-20) I x ∧
      HasDerivAt τ (K * ((gas ⟨v.coord 0, v.coord 1, v.coord 2⟩).chi + 1e-20)) x) →
    emergent ((s :: l).map (slabOf K gas)) (I T) = I s.t ∧ thickness ((s :: l).map (slabOf K gas)) = τ T - τ s.t
  | s, l, hch, hb, hsT, hex, hIc, hτc, hd => by
    obtain ⟨b1, b2⟩ := hb s List.mem_cons_self
    rw [max_eq_right hsT] at b2
    have hcp : 0 < (gas ⟨s.coord 0, s.coord 1, s.coord 2⟩).chi + 1e-20 := by
      have := hchi ⟨s.coord 0, s.coord 1, s.coord 2⟩
      norm_num at this ⊢; linarith
    have e1 := slab_back K (gas ⟨s.coord 0, s.coord 1, s.coord 2⟩).eta _ I s.t (s.t + s.dt) (by linarith) hcp (hIc.mono (Icc_subset_Icc le_rfl b2))
      (fun x hx => (hd s List.mem_cons_self x hx).1)
    have e2 := tau_slab K ((gas ⟨s.coord 0, s.coord 1, s.coord 2⟩).chi + 1e-20) τ s.t (s.t + s.dt) (by linarith) (hτc.mono (Icc_subset_Icc le_rfl b2))
      (fun x hx => (hd s List.mem_cons_self x hx).2)
    rw [add_sub_cancel_left] at e1 e2
    suffices hh : emergent (l.map (slabOf K gas)) (I T) = I (s.t + s.dt) ∧ thickness (l.map (slabOf K gas)) = τ T - τ (s.t + s.dt) by
      constructor
      · rw [e1, ← hh.1]
        rfl
      · rw [List.map_cons, thickness_cons, hh.2]
        show ((gas ⟨s.coord 0, s.coord 1, s.coord 2⟩).chi + 1e-20) * s.dt * K + _ = _
        linarith
    cases l with
    | nil =>
      obtain ⟨v, hv, hT⟩ := hex
      rw [List.mem_singleton] at hv
      subst hv
      have : v.t + v.dt = T := le_antisymm b2 hT
      rw [this]
      exact ⟨rfl, by simp [thickness]⟩
    | cons y l =>
      have hy : y.t = s.t + s.dt := by
        have := List.isChain_cons_cons.1 hch
        exact this.1
      have h := stack_solves K gas hchi I τ T y l (List.isChain_cons_cons.1 hch).2 (fun v hv => hb v (List.mem_cons_of_mem _ hv)) (by linarith)
        (by
          obtain ⟨v, hv, hT⟩ := hex
          rcases List.mem_cons.1 hv with rfl | hv
          · exact ⟨y, List.mem_cons_self, by have := (hb y (List.mem_cons_of_mem _ List.mem_cons_self)).1; linarith⟩
          · exact ⟨v, hv, hT⟩)
        (hIc.mono (Icc_subset_Icc (by linarith) le_rfl)) (hτc.mono (Icc_subset_Icc (by linarith) le_rfl))
        (fun v hv => hd v (List.mem_cons_of_mem _ hv))
      rw [← hy]
      exact h

end DexRT.RayRun3
