import Verif.Lemmas.NlteColl
/-! Lemmas for C89: statistical equilibrium in all cells. -/
namespace DexRT.Nlte
open DexRT DexRT.Fs DexRT.AtmosFile DexRT.Dir DexRT.Given DexRT.Emis DexRT.LteRun DexRT.RadGamma Classical

variable {q : Setup} {k nx nz : Nat} {a : Cond} {pf : Coord2 → Emis.Pops} {st : Started}

theorem foldl_max {ι : Type} (f : ι → ℝ) (l : List ι) : ∀ d : ℝ, d ≤ l.foldl (fun c x => max c (f x)) d ∧
    (∀ x ∈ l, f x ≤ l.foldl (fun c x => max c (f x)) d) ∧
    (l.foldl (fun c x => max c (f x)) d = d ∨ ∃ x ∈ l, l.foldl (fun c x => max c (f x)) d = f x) := by
  induction l with
  | nil => intro d; simp
  | cons y l ih =>
    intro d
    rw [List.foldl_cons]
    obtain ⟨h1, h2, h3⟩ := ih (max d (f y))
    refine ⟨le_trans (le_max_left _ _) h1, fun x hx => ?_, ?_⟩
    · rcases List.mem_cons.1 hx with rfl | hx
      · exact le_trans (le_max_right _ _) h1
      · exact h2 x hx
    · rcases h3 with h3 | ⟨x, hx, h3⟩
      · rcases max_choice d (f y) with e | e
        · left; rw [h3, e]
        · right; exact ⟨y, List.mem_cons_self, by rw [h3, e]⟩
      · exact Or.inr ⟨x, List.mem_cons_of_mem _ hx, h3⟩

theorem writeFold_ok (s n ks : Nat) (v : Fin n → ℝ) (is : List (Fin n)) : ∀ p : PopsField.Pops, s + n ≤ p.rows → ks < p.cols →
    ∃ p', is.foldlM (fun p (i : Fin n) => PopsField.writeSlice (s, n) i.val ks (v i) p) p = .ok p' ∧ p'.rows = p.rows ∧ p'.cols = p.cols ∧
      (∀ i ∈ is, p'.mem ((s + i.val) * p.cols + ks) = v i) ∧ ∀ b, (∀ i ∈ is, b ≠ (s + i.val) * p.cols + ks) → p'.mem b = p.mem b := by
  induction is with
  | nil => intro p _ _; exact ⟨p, rfl, rfl, rfl, by simp, fun _ _ => rfl⟩
  | cons i is ih =>
    intro p hs hk
    obtain ⟨p', e1, e2, e3, e4, e5⟩ := ih (PopsField.upd p ((s + i.val) * p.cols + ks) (v i)) hs hk
    have hc : (PopsField.upd p ((s + i.val) * p.cols + ks) (v i)).cols = p.cols := rfl
    rw [hc] at e3 e4 e5
    refine ⟨p', ?_, e2, e3, fun j hj => ?_, fun b hb => ?_⟩
    · rw [List.foldlM_cons, PopsField.write_ok (sl := (s, n)) (v i) hs i.isLt hk, Outcome.ok_bind]; exact e1
    · by_cases hji : j ∈ is
      · exact e4 j hji
      · rcases List.mem_cons.1 hj with rfl | hj
        · rw [e5]
          · simp [PopsField.upd]
          · intro l hl e
            have := (PopsField.addr_inj hk hk e).1
            exact hji ((Fin.ext (by omega) : j = l) ▸ hl)
        · exact absurd hj hji
    · rw [e5 b (fun j hj => hb j (List.mem_cons_of_mem _ hj))]
      simp only [PopsField.upd]
      rw [if_neg (hb i List.mem_cons_self)]

theorem writeCol_ok (s n ks : Nat) (v : Fin n → ℝ) (p : PopsField.Pops) (hs : s + n ≤ p.rows) (hk : ks < p.cols) :
    ∃ p', writeCol (s, n) n ks v p = .ok p' ∧ p'.rows = p.rows ∧ p'.cols = p.cols ∧
      (∀ i : Fin n, p'.mem ((s + i.val) * p.cols + ks) = v i) ∧ ∀ b, (∀ i : Fin n, b ≠ (s + i.val) * p.cols + ks) → p'.mem b = p.mem b := by
  obtain ⟨p', e1, e2, e3, e4, e5⟩ := writeFold_ok s n ks v (List.finRange n) p hs hk
  exact ⟨p', e1, e2, e3, fun i => e4 i (List.mem_finRange i), fun b hb => e5 b (fun i _ => hb i)⟩

/-- What the threads leave. -/
structure Solved (q : Setup) (st : Started) (G : Elem → ℝ) (elim : Nat → Nat → Nat) (sched : List (Nat × Nat)) (p p' : PopsField.Pops) (d d' : ℝ) : Prop where
  rows : p'.rows = p.rows
  cols : p'.cols = p.cols
  solved : ∀ t ∈ sched, ∀ x, q.r.ad.atoms[t.1]? = some x → solveCell (x.top + 1) (elim t.1 t.2) (block G t.1 (x.top + 1) t.2)
    (st.atmos.nhTot t.2 * x.abundance) = .ok (fun l => popsAt q.r.ad p' t.2 t.1 l)
  rest : ∀ b, (∀ t ∈ sched, ∀ x, q.r.ad.atoms[t.1]? = some x → ∀ i : Fin (x.top + 1), b ≠ (PopsField.start (fieldAtoms q.r.ad) t.1 + i.val) * p.cols + t.2) →
    p'.mem b = p.mem b
  grows : d ≤ d'
  bound : ∀ t ∈ sched, ∀ x, q.r.ad.atoms[t.1]? = some x → ∀ l : Fin (x.top + 1),
    StatEq.change q.ignoreFrac (st.atmos.nhTot t.2 * x.abundance) (popsAt q.r.ad p t.2 t.1 l) (popsAt q.r.ad p' t.2 t.1 l) ≤ d'
  attained : d' = d ∨ ∃ t ∈ sched, ∃ x, q.r.ad.atoms[t.1]? = some x ∧ ∃ l : Fin (x.top + 1),
    d' = StatEq.change q.ignoreFrac (st.atmos.nhTot t.2 * x.abundance) (popsAt q.r.ad p t.2 t.1 l) (popsAt q.r.ad p' t.2 t.1 l)

theorem statThreads_ok (G : Elem → ℝ) (elim : Nat → Nat → Nat) (sched : List (Nat × Nat)) (hn : sched.Nodup)
    (helim : ∀ ia x, q.r.ad.atoms[ia]? = some x → ∀ ks, elim ia ks < x.top + 1) :
    ∀ (p : PopsField.Pops) (d : ℝ), PopsField.HasRows (fieldAtoms q.r.ad) p → (∀ t ∈ sched, t.1 < q.r.ad.atoms.length ∧ t.2 < p.cols) →
      (sched.foldlM (statThread q st G elim) (p, d) = .throws ∧ ∃ t ∈ sched, ∃ x, q.r.ad.atoms[t.1]? = some x ∧
        solveCell (x.top + 1) (elim t.1 t.2) (block G t.1 (x.top + 1) t.2) (st.atmos.nhTot t.2 * x.abundance) = .throws) ∨
      ∃ p' d', sched.foldlM (statThread q st G elim) (p, d) = .ok (p', d') ∧ Solved q st G elim sched p p' d d' := by
  induction sched with
  | nil =>
    intro p d _ _
    exact Or.inr ⟨p, d, rfl, rfl, rfl, by simp, fun _ _ => rfl, le_refl _, by simp, Or.inl rfl⟩
  | cons t ts ih =>
    intro p d hrows hv
    obtain ⟨h1, h2⟩ := hv t List.mem_cons_self
    obtain ⟨hnt, hnn⟩ := List.nodup_cons.1 hn
    obtain ⟨x, hx⟩ : ∃ x, q.r.ad.atoms[t.1]? = some x := ⟨_, List.getElem?_eq_getElem h1⟩
    obtain ⟨s1, s2⟩ := slice_of q.r.ad hx
    have hin := PopsField.rows_in _ s2 hrows
    have hsl : sliceCol p (PopsField.start (fieldAtoms q.r.ad) t.1, x.top + 1) (x.top + 1) t.2 = .ok (fun l => popsAt q.r.ad p t.2 t.1 l) := by
      unfold sliceCol
      rw [if_pos ⟨le_refl _, hin, h2⟩]
      rfl
    have hstep : statThread q st G elim (p, d) t = (solveCell (x.top + 1) (elim t.1 t.2) (block G t.1 (x.top + 1) t.2) (st.atmos.nhTot t.2 * x.abundance) >>= fun new =>
        writeCol (PopsField.start (fieldAtoms q.r.ad) t.1, x.top + 1) (x.top + 1) t.2 new p >>= fun p' =>
        .ok (p', (List.finRange (x.top + 1)).foldl (fun c (l : Fin (x.top + 1)) => max c (StatEq.change q.ignoreFrac (st.atmos.nhTot t.2 * x.abundance) (popsAt q.r.ad p t.2 t.1 l) (new l))) d)) := by
      unfold statThread
      rw [readAt_some _ _ _ hx, Outcome.ok_bind, s1, Outcome.ok_bind, hsl, Outcome.ok_bind]
    have hcase : solveCell (x.top + 1) (elim t.1 t.2) (block G t.1 (x.top + 1) t.2) (st.atmos.nhTot t.2 * x.abundance) = .throws ∨
        ∃ v, solveCell (x.top + 1) (elim t.1 t.2) (block G t.1 (x.top + 1) t.2) (st.atmos.nhTot t.2 * x.abundance) = .ok v := by
      unfold solveCell
      rw [dif_pos (helim t.1 x hx t.2)]
      split
      · exact Or.inr ⟨_, rfl⟩
      · exact Or.inl rfl
    rcases hcase with ht | ⟨v, hvv⟩
    · left
      refine ⟨?_, t, List.mem_cons_self, x, hx, ht⟩
      rw [List.foldlM_cons, hstep, ht]; rfl
    · obtain ⟨p1, w1, w2, w3, w4, w5⟩ := writeCol_ok (PopsField.start (fieldAtoms q.r.ad) t.1) (x.top + 1) t.2 v p hin h2
      obtain ⟨d1, hd1⟩ : ∃ d1, d1 = (List.finRange (x.top + 1)).foldl (fun c (l : Fin (x.top + 1)) => max c (StatEq.change q.ignoreFrac (st.atmos.nhTot t.2 * x.abundance)
        (popsAt q.r.ad p t.2 t.1 l) (v l))) d := ⟨_, rfl⟩
      have hstep' : statThread q st G elim (p, d) t = .ok (p1, d1) := by
        rw [hstep, hvv, Outcome.ok_bind, w1, Outcome.ok_bind, hd1]
      obtain ⟨m1, m2, m3⟩ := foldl_max (fun l : Fin (x.top + 1) => StatEq.change q.ignoreFrac (st.atmos.nhTot t.2 * x.abundance)
        (popsAt q.r.ad p t.2 t.1 l) (v l)) (List.finRange (x.top + 1)) d
      rw [← hd1] at m1 m2 m3
      -- other threads' populations are untouched
      have hother : ∀ u ∈ ts, ∀ y, q.r.ad.atoms[u.1]? = some y → ∀ l, l < y.top + 1 → popsAt q.r.ad p1 u.2 u.1 l = popsAt q.r.ad p u.2 u.1 l := by
        intro u hu y hy l hl
        rw [popsAt_eq, popsAt_eq, w3, w5]
        intro i e
        obtain ⟨e1, e2⟩ := PopsField.addr_inj (hv u (List.mem_cons_of_mem _ hu)).2 h2 e
        have := (PopsField.rows_disjoint _ (slice_of q.r.ad hy).2 s2 hl i.isLt e1).1
        exact hnt ((Prod.ext this e2 : u = t) ▸ hu)
      rcases ih hnn p1 d1 (by unfold PopsField.HasRows; rw [w2]; exact hrows) (fun u hu => by rw [w3]; exact hv u (List.mem_cons_of_mem _ hu)) with
        ⟨i1, u, hu, i2⟩ | ⟨p', d', i1, S⟩
      · exact Or.inl ⟨by rw [List.foldlM_cons, hstep']; exact i1, u, List.mem_cons_of_mem _ hu, i2⟩
      · right
        have hmine : ∀ l : Fin (x.top + 1), popsAt q.r.ad p' t.2 t.1 l = v l := by
          intro l
          rw [popsAt_eq, S.cols, S.rest, w3, w4]
          intro u hu y hy i e
          rw [w3] at e
          obtain ⟨e1, e2⟩ := PopsField.addr_inj h2 (hv u (List.mem_cons_of_mem _ hu)).2 e
          have := (PopsField.rows_disjoint _ s2 (slice_of q.r.ad hy).2 l.isLt i.isLt e1).1
          exact hnt ((Prod.ext this e2 : t = u) ▸ hu)
        refine ⟨p', d', by rw [List.foldlM_cons, hstep']; exact i1, S.rows.trans w2, S.cols.trans w3, ?_, ?_, le_trans m1 S.grows, ?_, ?_⟩
        · intro u hu y hy
          rcases List.mem_cons.1 hu with rfl | hu
          · obtain rfl : x = y := Option.some.inj (hx.symm.trans hy)
            rw [hvv]
            congr 1
            funext l; exact (hmine l).symm
          · exact S.solved u hu y hy
        · intro b hb
          rw [S.rest b (fun u hu y hy i => by rw [w3]; exact hb u (List.mem_cons_of_mem _ hu) y hy i)]
          exact w5 b (fun i => hb t List.mem_cons_self x hx i)
        · intro u hu y hy l
          rcases List.mem_cons.1 hu with rfl | hu
          · obtain rfl : x = y := Option.some.inj (hx.symm.trans hy)
            rw [hmine l]
            exact le_trans (m2 l (List.mem_finRange l)) S.grows
          · rw [← hother u hu y hy l l.isLt]
            exact S.bound u hu y hy l
        · rcases S.attained with e | ⟨u, hu, y, hy, l, e⟩
          · rcases m3 with e' | ⟨l, -, e'⟩
            · left; rw [e, e']
            · right
              exact ⟨t, List.mem_cons_self, x, hx, l, by rw [e, e', hmine l]⟩
          · right
            refine ⟨u, List.mem_cons_of_mem _ hu, y, hy, l, ?_⟩
            rw [← hother u hu y hy l l.isLt]
            exact e

end DexRT.Nlte
