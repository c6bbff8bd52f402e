import Verif.Lemmas.NlteStat
import Verif.Lemmas.Nlte3Coll
/-! Lemmas for C93: statistical equilibrium in all cells. -/
namespace DexRT.Nlte3
open DexRT DexRT.Fs DexRT.AtmosFile DexRT.Dir DexRT.Given3 DexRT.Emis DexRT.Lte3 DexRT.RadGamma Classical
open DexRT.Nlte (RawColl block setBlock sliceCol writeCol solveCell slice_of popsAt_eq foldl_max writeFold_ok writeCol_ok)

variable {q : Setup} {k nx ny nz : Nat} {a : Cond} {pf : Coord3 → Emis.Pops} {st : Started}

/-- What the threads leave. -/
structure Solved (q : Setup) (st : Started) (G : Elem → ℝ) (elim : Nat → Nat → Nat) (sched : List (Nat × Nat)) (p p' : PopsField.Pops) (d d' : ℝ) : Prop where
  rows : p'.rows = p.rows
  cols : p'.cols = p.cols
  solved : ∀ t ∈ sched, ∀ x, q.r.ad.atoms[t.1]? = some x → solveCell (x.top + 1) (elim t.1 t.2) (block G t.1 (x.top + 1) t.2)
    (st.atmos.nhTot t.2 * x.abundance) = .ok (fun l => LteRun.popsAt q.r.ad p' t.2 t.1 l)
  rest : ∀ b, (∀ t ∈ sched, ∀ x, q.r.ad.atoms[t.1]? = some x → ∀ i : Fin (x.top + 1), b ≠ (PopsField.start (LteRun.fieldAtoms q.r.ad) t.1 + i.val) * p.cols + t.2) →
    p'.mem b = p.mem b
  grows : d ≤ d'
  bound : ∀ t ∈ sched, ∀ x, q.r.ad.atoms[t.1]? = some x → ∀ l : Fin (x.top + 1),
    StatEq.change q.ignoreFrac (st.atmos.nhTot t.2 * x.abundance) (LteRun.popsAt q.r.ad p t.2 t.1 l) (LteRun.popsAt q.r.ad p' t.2 t.1 l) ≤ d'
  attained : d' = d ∨ ∃ t ∈ sched, ∃ x, q.r.ad.atoms[t.1]? = some x ∧ ∃ l : Fin (x.top + 1),
    d' = StatEq.change q.ignoreFrac (st.atmos.nhTot t.2 * x.abundance) (LteRun.popsAt q.r.ad p t.2 t.1 l) (LteRun.popsAt q.r.ad p' t.2 t.1 l)

theorem statThreads_ok (G : Elem → ℝ) (elim : Nat → Nat → Nat) (sched : List (Nat × Nat)) (hn : sched.Nodup)
    (helim : ∀ ia x, q.r.ad.atoms[ia]? = some x → ∀ ks, elim ia ks < x.top + 1) :
    ∀ (p : PopsField.Pops) (d : ℝ), PopsField.HasRows (LteRun.fieldAtoms q.r.ad) p → (∀ t ∈ sched, t.1 < q.r.ad.atoms.length ∧ t.2 < p.cols) →
      (sched.foldlM (statThread q st G elim) (p, d) = .throws ∧ ∃ t ∈ sched, ∃ x, q.r.ad.atoms[t.1]? = some x ∧
        solveCell (x.top + 1) (elim t.1 t.2) (block G t.1 (x.top + 1) t.2) (st.atmos.nhTot t.2 * x.abundance) = .throws) ∨
      ∃ p' d', sched.foldlM (statThread q st G elim) (p, d) = .ok (p', d') ∧ Solved q st G elim sched p p' d d' := by
  induction sched with
  | nil =>
    intro p d _ _
    exact Or.inr ⟨p, d, rfl, rfl, rfl, by simp, fun _ _ => rfl, le_refl _, by simp, Or.inl rfl⟩
  | cons t ts ih =>
    intro p d hrows hv
    obtain ⟨h1, h2⟩ := hv t List.mem_cons_self
    obtain ⟨hnt, hnn⟩ := List.nodup_cons.1 hn
    obtain ⟨x, hx⟩ : ∃ x, q.r.ad.atoms[t.1]? = some x := ⟨_, List.getElem?_eq_getElem h1⟩
    obtain ⟨s1, s2⟩ := slice_of q.r.ad hx
    have hin := PopsField.rows_in _ s2 hrows
    have hsl : sliceCol p (PopsField.start (LteRun.fieldAtoms q.r.ad) t.1, x.top + 1) (x.top + 1) t.2 = .ok (fun l => LteRun.popsAt q.r.ad p t.2 t.1 l) := by
      unfold sliceCol
      rw [if_pos ⟨le_refl _, hin, h2⟩]
      rfl
    have hstep : statThread q st G elim (p, d) t = (solveCell (x.top + 1) (elim t.1 t.2) (block G t.1 (x.top + 1) t.2) (st.atmos.nhTot t.2 * x.abundance) >>= fun new =>
        writeCol (PopsField.start (LteRun.fieldAtoms q.r.ad) t.1, x.top + 1) (x.top + 1) t.2 new p >>= fun p' =>
        .ok (p', (List.finRange (x.top + 1)).foldl (fun c (l : Fin (x.top + 1)) => max c (StatEq.change q.ignoreFrac (st.atmos.nhTot t.2 * x.abundance) (LteRun.popsAt q.r.ad p t.2 t.1 l) (new l))) d)) := by
      unfold statThread
      rw [readAt_some _ _ _ hx, Outcome.ok_bind, s1, Outcome.ok_bind, hsl, Outcome.ok_bind]
    have hcase : solveCell (x.top + 1) (elim t.1 t.2) (block G t.1 (x.top + 1) t.2) (st.atmos.nhTot t.2 * x.abundance) = .throws ∨
        ∃ v, solveCell (x.top + 1) (elim t.1 t.2) (block G t.1 (x.top + 1) t.2) (st.atmos.nhTot t.2 * x.abundance) = .ok v := by
      unfold solveCell
      rw [dif_pos (helim t.1 x hx t.2)]
      split
      · exact Or.inr ⟨_, rfl⟩
      · exact Or.inl rfl
    rcases hcase with ht | ⟨v, hvv⟩
    · left
      refine ⟨?_, t, List.mem_cons_self, x, hx, ht⟩
      rw [List.foldlM_cons, hstep, ht]; rfl
    · obtain ⟨p1, w1, w2, w3, w4, w5⟩ := writeCol_ok (PopsField.start (LteRun.fieldAtoms q.r.ad) t.1) (x.top + 1) t.2 v p hin h2
      obtain ⟨d1, hd1⟩ : ∃ d1, d1 = (List.finRange (x.top + 1)).foldl (fun c (l : Fin (x.top + 1)) => max c (StatEq.change q.ignoreFrac (st.atmos.nhTot t.2 * x.abundance)
        (LteRun.popsAt q.r.ad p t.2 t.1 l) (v l))) d := ⟨_, rfl⟩
      have hstep' : statThread q st G elim (p, d) t = .ok (p1, d1) := by
        rw [hstep, hvv, Outcome.ok_bind, w1, Outcome.ok_bind, hd1]
      obtain ⟨m1, m2, m3⟩ := foldl_max (fun l : Fin (x.top + 1) => StatEq.change q.ignoreFrac (st.atmos.nhTot t.2 * x.abundance)
        (LteRun.popsAt q.r.ad p t.2 t.1 l) (v l)) (List.finRange (x.top + 1)) d
      rw [← hd1] at m1 m2 m3
      -- other threads' populations are untouched
      have hother : ∀ u ∈ ts, ∀ y, q.r.ad.atoms[u.1]? = some y → ∀ l, l < y.top + 1 → LteRun.popsAt q.r.ad p1 u.2 u.1 l = LteRun.popsAt q.r.ad p u.2 u.1 l := by
        intro u hu y hy l hl
        rw [popsAt_eq, popsAt_eq, w3, w5]
        intro i e
        obtain ⟨e1, e2⟩ := PopsField.addr_inj (hv u (List.mem_cons_of_mem _ hu)).2 h2 e
        have := (PopsField.rows_disjoint _ (slice_of q.r.ad hy).2 s2 hl i.isLt e1).1
        exact hnt ((Prod.ext this e2 : u = t) ▸ hu)
      rcases ih hnn p1 d1 (by unfold PopsField.HasRows; rw [w2]; exact hrows) (fun u hu => by rw [w3]; exact hv u (List.mem_cons_of_mem _ hu)) with
        ⟨i1, u, hu, i2⟩ | ⟨p', d', i1, S⟩
      · exact Or.inl ⟨by rw [List.foldlM_cons, hstep']; exact i1, u, List.mem_cons_of_mem _ hu, i2⟩
      · right
        have hmine : ∀ l : Fin (x.top + 1), LteRun.popsAt q.r.ad p' t.2 t.1 l = v l := by
          intro l
          rw [popsAt_eq, S.cols, S.rest, w3, w4]
          intro u hu y hy i e
          rw [w3] at e
          obtain ⟨e1, e2⟩ := PopsField.addr_inj h2 (hv u (List.mem_cons_of_mem _ hu)).2 e
          have := (PopsField.rows_disjoint _ s2 (slice_of q.r.ad hy).2 l.isLt i.isLt e1).1
          exact hnt ((Prod.ext this e2 : t = u) ▸ hu)
        refine ⟨p', d', by rw [List.foldlM_cons, hstep']; exact i1, S.rows.trans w2, S.cols.trans w3, ?_, ?_, le_trans m1 S.grows, ?_, ?_⟩
        · intro u hu y hy
          rcases List.mem_cons.1 hu with rfl | hu
          · obtain rfl : x = y := Option.some.inj (hx.symm.trans hy)
            rw [hvv]
            congr 1
            funext l; exact (hmine l).symm
          · exact S.solved u hu y hy
        · intro b hb
          rw [S.rest b (fun u hu y hy i => by rw [w3]; exact hb u (List.mem_cons_of_mem _ hu) y hy i)]
          exact w5 b (fun i => hb t List.mem_cons_self x hx i)
        · intro u hu y hy l
          rcases List.mem_cons.1 hu with rfl | hu
          · obtain rfl : x = y := Option.some.inj (hx.symm.trans hy)
            rw [hmine l]
            exact le_trans (m2 l (List.mem_finRange l)) S.grows
          · rw [← hother u hu y hy l l.isLt]
            exact S.bound u hu y hy l
        · rcases S.attained with e | ⟨u, hu, y, hy, l, e⟩
          · rcases m3 with e' | ⟨l, -, e'⟩
            · left; rw [e, e']
            · right
              exact ⟨t, List.mem_cons_self, x, hx, l, by rw [e, e', hmine l]⟩
          · right
            refine ⟨u, List.mem_cons_of_mem _ hu, y, hy, l, ?_⟩
            rw [← hother u hu y hy l l.isLt]
            exact e

end DexRT.Nlte3
