import Verif.Lemmas.FormalSol3c
import Verif.Props.RcInterp
/-! Lemma for C74 and C88: from passes that leave cascade 0 filled to J. -/
namespace DexRT.Fs
open DexRT

variable {K : Type} [Field K] [CharZero K]

theorem J3_of_pass (e : Env3 K) (me : MergeEnv3) (k nx ny nz : Nat) (Active : Coord3 → Prop)
    (h : Run3 me k nx ny nz Active) (hcfg : me.cfg = e.cfg) (hc0 : me.s = e.c0) (hP : e.probes 0 = me.P)
    (jsched : Nat → List JIter3)
    (hj : ∀ t n, me.P.num = .ok n → (jsched t).Perm (jIters3 n.toNat e.c0.polar e.c0.az))
    (la : Nat) (sizes : List Nat) (hfit : BuffersFit3 e sizes) (m : Mem K)
    (hmem : MemShape sizes m) (pass : Nat → Mem K → Outcome (Mem K))
    (hpass : ∀ t, t < subsetTasks3 e.cfg → ∀ m, MemShape sizes m →
      ∃ m' b, pass t m = .ok m' ∧ MemShape sizes m' ∧ m'.bufs[0]? = some b ∧ Holds3 e t 0 b)
    (J : Arr2 K) (hcols : (J.cols : Int) = jCols3 me k nx ny nz) (hrows : J.rows = 1 ∨ la < J.rows) :
    let I := radiance3 e.march e.c0.np0 e.c0.np1 e.c0.np2 (upperTexels3 e.cfg.branch).1
      (upperTexels3 e.cfg.branch).2 e.num e.num
    let row := if J.rows = 1 then 0 else la
    ∃ m' J', passesJ pass (fun t c0 J => mergeC0ToJ3 me la c0 (jsched t) J) (List.range (subsetTasks3 e.cfg)) m J = .ok (m', J') ∧
      J'.rows = J.rows ∧ J'.cols = J.cols ∧
      (∀ c, Computed3 me k nx ny nz Active c → ∃ a, a < J.cols ∧ (∀ a', JAddr3 me c a' ↔ a' = a) ∧
        J'.get row a = J.get row a +
          meanIntensity3 e.cfg.c0az e.cfg.c0polar I c.x.toNat c.y.toNat c.z.toNat) ∧
      (∀ r a, r ≠ row → J'.get r a = J.get r a) := by
  intro I row
  have hr : Rays3 e := by have := h.rays; rw [hcfg] at this; exact this
  -- only the passes of the list matter
  obtain ⟨c0, m', q1, q2, q3⟩ := passesJ_split
    (fun t m => if t < subsetTasks3 e.cfg then pass t m else .ok m)
    (fun t c0 J => mergeC0ToJ3 me la c0 (jsched t) J) (fun c => formalSolJ3 me la c jsched)
    (fun _ _ => rfl) (fun _ _ _ _ => rfl) (MemShape sizes)
    (fun t b => t < subsetTasks3 e.cfg → Holds3 e t 0 b)
    (fun t m hm => by
      by_cases ht : t < subsetTasks3 e.cfg
      · obtain ⟨m', b, h1, h2, h4, h5⟩ := hpass t ht m hm
        exact ⟨m', b, by rw [if_pos ht]; exact h1, h2, h4, fun _ => h5⟩
      · obtain ⟨s, hs', -⟩ := fits3 e hfit 0 (Nat.zero_le _)
        rw [bufOf_zero] at hs'
        obtain ⟨b, hb, -⟩ := shape_buf hm hs'
        exact ⟨m, b, by rw [if_neg ht], hm, hb, fun h => absurd h ht⟩)
    (List.range (subsetTasks3 e.cfg)) List.nodup_range m hmem
  have hsame : ∀ (ts : List Nat) (m : Mem K) (J : Arr2 K), (∀ t ∈ ts, t < subsetTasks3 e.cfg) →
      passesJ (fun t m => if t < subsetTasks3 e.cfg then pass t m else .ok m)
        (fun t c0 J => mergeC0ToJ3 me la c0 (jsched t) J) ts m J =
      passesJ (fun t m => pass t m)
        (fun t c0 J => mergeC0ToJ3 me la c0 (jsched t) J) ts m J := by
    intro ts
    induction ts with
    | nil => intro m J _; rfl
    | cons t ts ih =>
      intro m J hts
      unfold passesJ
      simp only [if_pos (hts t (by simp))]
      congr 1; funext m1
      congr 1; funext c
      congr 1; funext J1
      exact ih m1 J1 (fun t' ht' => hts t' (by simp [ht']))
  have hsize : cascadeSize3 e.cfg.branch e.c0 0 = me.s := by
    have hs := h.storage
    have h0 : e.c0.np0 = nx * 2 ^ k := by rw [← hc0, hs]; unfold raysToStorage3; split <;> rfl
    have h1 : e.c0.np1 = ny * 2 ^ k := by rw [← hc0, hs]; unfold raysToStorage3; split <;> rfl
    have h2 : e.c0.np2 = nz * 2 ^ k := by rw [← hc0, hs]; unfold raysToStorage3; split <;> rfl
    have p0 : 0 < e.c0.np0 := by rw [h0]; exact Nat.mul_pos h.some_cells.1 (Nat.two_pow_pos k)
    have p1 : 0 < e.c0.np1 := by rw [h1]; exact Nat.mul_pos h.some_cells.2.1 (Nat.two_pow_pos k)
    have p2 : 0 < e.c0.np2 := by rw [h2]; exact Nat.mul_pos h.some_cells.2.2 (Nat.two_pow_pos k)
    have fa : azFactor e.cfg.branch 0 = 1 := by cases e.cfg.branch <;> simp [azFactor]
    have fp : polarFactor e.cfg.branch 0 = 1 := by cases e.cfg.branch <;> simp [polarFactor]
    rw [hc0]
    unfold cascadeSize3
    simp [Nat.max_eq_right p0, Nat.max_eq_right p1, Nat.max_eq_right p2, fa, fp]
  obtain ⟨f, hnum', hpos', hf, hback⟩ := run3_probes h
  have hholds : ∀ t, t < subsetTasks3 me.cfg → CascadeHolds3 me k nx ny nz Active I t (c0 t) := by
    intro t ht c p hc hu hv' hw hin
    have ht' : t < subsetTasks3 e.cfg := by rw [← hcfg]; exact ht
    have := q2 t (List.mem_range.2 ht') ht' p ?_ ?_
    · rw [hsize] at this
      rw [hcfg]
      exact this
    · obtain ⟨a, ha, hfa, -⟩ := hback c hc
      obtain ⟨g1, -, -, -, g2, -, g3, -, g4, -⟩ := hf a ha
      refine ⟨a, _, by rw [hP]; exact hnum', ha, ?_⟩
      rw [hP, g1, hfa]
      rw [hfa] at g2 g3 g4
      congr 1
      cases c
      simp only [Coord3.mk.injEq] at *
      omega
    · show InPass3 e.cfg (cascadeComputeSize3 e.cfg e.c0 0) t p
      rw [(C13_shapes_agree e.cfg hr.1 hr.2 e.c0 0).1, hsize, ← hcfg]
      exact hin
  obtain ⟨J', r1, r2, r3, r4, r5⟩ := C62_mean_intensity3 me k nx ny nz Active h I la
    c0 hholds jsched (fun t n hn => by rw [hc0]; exact hj t n hn) J hcols hrows
  refine ⟨m', J', ?_, r2, r3, ?_, r5⟩
  · rw [← hsame _ _ _ (fun t ht => List.mem_range.1 ht), q3, ← hcfg, r1]; rfl
  · rw [hcfg] at r4; exact r4

end DexRT.Fs
