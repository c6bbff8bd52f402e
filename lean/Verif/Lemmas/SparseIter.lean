import Verif.Lemmas.Sparse
import Verif.Spec.Sparse
import Verif.Props.IndexGen
/-! Lemmas for C36 that rest on C05: the kernels' iteration space and single pages. -/
namespace DexRT

/-- What the iteration space of the kernels provides (from C05), for both dimensions. -/
structure IterSpace {C : Type} (L : List (Nat × Int)) (coord : Nat × Int → Outcome C)
    (idx : Nat × Int → Int) (N : Int) (Data : C → Prop) (Addr : C → Int → Prop) : Prop where
  co : ∀ p ∈ L, ∃ c, coord p = .ok c ∧ Data c ∧ Addr c (idx p)
  rng : ∀ p ∈ L, 0 ≤ idx p ∧ idx p < N
  ontoC : ∀ c, Data c → ∃ p ∈ L, coord p = .ok c
  ontoN : ∀ a, 0 ≤ a → a < N → ∃ p ∈ L, idx p = a
  injI : ∀ p ∈ L, ∀ p' ∈ L, idx p = idx p' → p = p'
  injC : ∀ p ∈ L, ∀ p' ∈ L, ∀ c, coord p = .ok c → coord p' = .ok c → p = p'
  fn : ∀ c a a', Addr c a → Addr c a' → a = a'

theorem gather_spec {C V : Type} {L : List (Nat × Int)} {coord : Nat × Int → Outcome C}
    {idx : Nat × Int → Int} {N : Int} {Data : C → Prop} {Addr : C → Int → Prop}
    (H : IterSpace L coord idx N Data Addr) (inb : C → Bool) (hin : ∀ c, Data c → inb c = true)
    (src : C → V) (sched : List (Nat × Int)) (hs : sched.Perm L) (junk : Int → V) :
    ∃ s, writeLoop (fun p => do
        let c ← coord p
        if !inb c then .ub
        else if ¬ (0 ≤ idx p ∧ idx p < N) then .ub
        else .ok (idx p, src c)) sched junk = .ok s ∧
      ∀ c, Data c → ∀ a, Addr c a → s a = src c := by
  have hf : ∀ p ∈ sched, ∀ c, coord p = .ok c → (do
        let c ← coord p
        if !inb c then .ub
        else if ¬ (0 ≤ idx p ∧ idx p < N) then .ub
        else .ok (idx p, src c) : Outcome (Int × V)) = .ok (idx p, src c) := by
    intro p hp c hc
    have hp' := hs.mem_iff.1 hp
    obtain ⟨c', e, hd, _⟩ := H.co p hp'
    rw [hc] at e; injection e with e; subst e
    rw [hc, Outcome.ok_bind, hin c hd, if_neg (by decide), if_neg (not_not.2 (H.rng p hp'))]
  obtain ⟨s, e, _, h2⟩ := writeLoop_spec _ sched junk (fun p hp => by
    obtain ⟨c, hc, _⟩ := H.co p (hs.mem_iff.1 hp)
    exact ⟨_, _, hf p hp c hc⟩)
  refine ⟨s, e, ?_⟩
  intro c hd a ha
  obtain ⟨p, hp, hc⟩ := H.ontoC c hd
  obtain ⟨c', e', _, hadr⟩ := H.co p hp
  rw [hc] at e'; injection e' with e'; subst e'
  obtain rfl := H.fn c a _ ha hadr
  refine h2 _ _ ⟨p, hs.mem_iff.2 hp, _, hf p (hs.mem_iff.2 hp) c hc⟩ ?_
  intro i hi v' hv
  obtain ⟨ci, hci, _⟩ := H.co i (hs.mem_iff.1 hi)
  rw [hf i hi ci hci] at hv
  injection hv with hv; injection hv with h1 h2
  obtain rfl := H.injI i (hs.mem_iff.1 hi) p hp h1
  rw [hc] at hci; injection hci with hci; subst hci; exact h2.symm

theorem scatter_spec {C V : Type} [DecidableEq C] {L : List (Nat × Int)} {coord : Nat × Int → Outcome C}
    {idx : Nat × Int → Int} {N : Int} {Data : C → Prop} {Addr : C → Int → Prop}
    (H : IterSpace L coord idx N Data Addr) (inb : C → Bool) (hin : ∀ c, Data c → inb c = true)
    (rd : Int → Outcome V) (src : Int → V) (hrd : ∀ a, 0 ≤ a → a < N → rd a = .ok (src a))
    (sched : List (Nat × Int)) (hs : sched.Perm L) (init : C → V) :
    ∃ s, writeLoop (fun p => do
        let c ← coord p
        let v ← rd (idx p)
        if !inb c then .ub else .ok (c, v)) sched init = .ok s ∧
      (∀ c, Data c → ∀ a, Addr c a → s c = src a) ∧ (∀ c, ¬ Data c → s c = init c) := by
  have hf : ∀ p ∈ sched, ∀ c, coord p = .ok c → (do
        let c ← coord p
        let v ← rd (idx p)
        if !inb c then .ub else .ok (c, v) : Outcome (C × V)) = .ok (c, src (idx p)) := by
    intro p hp c hc
    have hp' := hs.mem_iff.1 hp
    obtain ⟨c', e, hd, _⟩ := H.co p hp'
    rw [hc] at e; injection e with e; subst e
    rw [hc, Outcome.ok_bind, hrd _ (H.rng p hp').1 (H.rng p hp').2, Outcome.ok_bind, hin c hd,
      if_neg (by decide)]
  obtain ⟨s, e, h1, h2⟩ := writeLoop_spec _ sched init (fun p hp => by
    obtain ⟨c, hc, _⟩ := H.co p (hs.mem_iff.1 hp)
    exact ⟨_, _, hf p hp c hc⟩)
  refine ⟨s, e, ?_, ?_⟩
  · intro c hd a ha
    obtain ⟨p, hp, hc⟩ := H.ontoC c hd
    obtain ⟨c', e', _, hadr⟩ := H.co p hp
    rw [hc] at e'; injection e' with e'; subst e'
    obtain rfl := H.fn c a _ ha hadr
    refine h2 _ _ ⟨p, hs.mem_iff.2 hp, _, hf p (hs.mem_iff.2 hp) c hc⟩ ?_
    intro i hi v' hv
    obtain ⟨ci, hci, _⟩ := H.co i (hs.mem_iff.1 hi)
    rw [hf i hi ci hci] at hv
    injection hv with hv; injection hv with h1 h2
    subst h1
    obtain rfl := H.injC i (hs.mem_iff.1 hi) p hp ci hci hc
    exact h2.symm
  · intro c hd
    refine h1 c ?_
    intro p hp v hv
    obtain ⟨c', e', hd', _⟩ := H.co p (hs.mem_iff.1 hp)
    rw [hf p hp c' e'] at hv
    injection hv with hv; injection hv with hv _
    subst hv; exact hd hd'

theorem hasData2_inGrid (B nx nz : Nat) (Active : Coord2 → Prop) (c : Coord2)
    (h : HasData2 B nx nz Active c) : InGrid2 B nx nz c := by
  obtain ⟨t, hg, _, hi⟩ := h
  obtain ⟨a1, a2, a3, a4⟩ := hg
  obtain ⟨b1, b2, b3, b4⟩ := hi
  have hB : 0 < B := by
    rcases Nat.eq_zero_or_pos B with rfl | h
    · simp at b1 b2; omega
    · exact h
  have hB' : (0 : Int) < B := by exact_mod_cast hB
  have hx := (axis_box B nx hB c.x t.x b1 b2).2 ⟨a1, lt_of_mul_lt_mul_right a2 hB'.le⟩
  have hz := (axis_box B nz hB c.z t.z b3 b4).2 ⟨a3, lt_of_mul_lt_mul_right a4 hB'.le⟩
  exact ⟨⟨by omega, by omega⟩, ⟨by omega, by omega⟩⟩

theorem hasData3_inGrid (B nx ny nz : Nat) (Active : Coord3 → Prop) (c : Coord3)
    (h : HasData3 B nx ny nz Active c) : InGrid3 B nx ny nz c := by
  obtain ⟨t, hg, _, hi⟩ := h
  obtain ⟨a1, a2, a3, a4, a5, a6⟩ := hg
  obtain ⟨b1, b2, b3, b4, b5, b6⟩ := hi
  have hB : 0 < B := by
    rcases Nat.eq_zero_or_pos B with rfl | h
    · simp at b1 b2; omega
    · exact h
  have hB' : (0 : Int) < B := by exact_mod_cast hB
  have hx := (axis_box B nx hB c.x t.x b1 b2).2 ⟨a1, lt_of_mul_lt_mul_right a2 hB'.le⟩
  have hy := (axis_box B ny hB c.y t.y b3 b4).2 ⟨a3, lt_of_mul_lt_mul_right a4 hB'.le⟩
  have hz := (axis_box B nz hB c.z t.z b5 b6).2 ⟨a5, lt_of_mul_lt_mul_right a6 hB'.le⟩
  exact ⟨⟨by omega, by omega⟩, ⟨by omega, by omega⟩, ⟨by omega, by omega⟩⟩

theorem iterSpace2 (k nx nz : Nat) (Active : Coord2 → Prop) (bm : BlockMap Coord2)
    (hx : FitsI32Axis k nx) (hz : FitsI32Axis k nz) (hm : MapFor2 (2 ^ k) nx nz Active bm) :
    IterSpace (loopIters (2 ^ k * 2 ^ k) bm) (fun p => loopCoord2 (2 ^ k) bm p.1 p.2)
      (fun p => (geo2 (2 ^ k)).loopIdx p.1 p.2)
      (numActiveCells (((2 ^ k : Nat) : Int) * ((2 ^ k : Nat) : Int)) bm)
      (HasData2 (2 ^ k) nx nz Active) (Addr2 (2 ^ k) bm) := by
  obtain ⟨h1, h2, h3, h4⟩ := C05_bijection2 k nx nz Active bm hx hz hm
  have hmem : ∀ p, p ∈ loopIters (2 ^ k * 2 ^ k) bm ↔
      (p.1 < bm.activeTiles.length ∧ 0 ≤ p.2 ∧ p.2 < ((2 ^ k : Nat) : Int) * ((2 ^ k : Nat) : Int)) := by
    intro p
    rw [mem_loopIters, ← hm.numbering.count]; push_cast; omega
  refine ⟨?_, ?_, ?_, ?_, ?_, ?_, ?_⟩
  · intro p hp
    obtain ⟨c, e, hd, ha⟩ := h4 p ((hmem p).1 hp)
    exact ⟨c, e, hd, ha [] _ (by simp) rfl⟩
  · intro p hp; exact h2 p ((hmem p).1 hp)
  · intro c hc
    obtain ⟨p, ⟨hp, e⟩, _⟩ := h3 c hc
    exact ⟨p, (hmem p).2 hp, e⟩
  · intro a h0 h1'
    obtain ⟨p, ⟨hp, e⟩, _⟩ := h1 a ⟨h0, h1'⟩
    exact ⟨p, (hmem p).2 hp, e⟩
  · intro p hp p' hp' e
    exact (h1 _ (h2 p ((hmem p).1 hp))).unique ⟨(hmem p).1 hp, rfl⟩ ⟨(hmem p').1 hp', e.symm⟩
  · intro p hp p' hp' c e e'
    obtain ⟨c', e1, hd, _⟩ := h4 p ((hmem p).1 hp)
    have e2 : loopCoord2 (2 ^ k) bm p.1 p.2 = .ok c := e
    rw [e2] at e1; injection e1 with e1; subst e1
    exact (h3 c hd).unique ⟨(hmem p).1 hp, e⟩ ⟨(hmem p').1 hp', e'⟩
  · rintro c a a' ⟨s, e⟩ ⟨s', e'⟩
    rw [e] at e'; injection e' with e'; injection e'

theorem iterSpace3 (k nx ny nz : Nat) (Active : Coord3 → Prop) (bm : BlockMap Coord3)
    (hx : FitsI32Axis k nx) (hy : FitsI32Axis k ny) (hz : FitsI32Axis k nz)
    (hm : MapFor3 (2 ^ k) nx ny nz Active bm) :
    IterSpace (loopIters (2 ^ k * 2 ^ k * 2 ^ k) bm) (fun p => loopCoord3 (2 ^ k) bm p.1 p.2)
      (fun p => (geo3 (2 ^ k)).loopIdx p.1 p.2)
      (numActiveCells (((2 ^ k : Nat) : Int) * ((2 ^ k : Nat) : Int) * ((2 ^ k : Nat) : Int)) bm)
      (HasData3 (2 ^ k) nx ny nz Active) (Addr3 (2 ^ k) bm) := by
  obtain ⟨h1, h2, h3, h4⟩ := C05_bijection3 k nx ny nz Active bm hx hy hz hm
  have hmem : ∀ p, p ∈ loopIters (2 ^ k * 2 ^ k * 2 ^ k) bm ↔
      (p.1 < bm.activeTiles.length ∧ 0 ≤ p.2 ∧
        p.2 < ((2 ^ k : Nat) : Int) * ((2 ^ k : Nat) : Int) * ((2 ^ k : Nat) : Int)) := by
    intro p
    rw [mem_loopIters, ← hm.numbering.count]; push_cast; omega
  refine ⟨?_, ?_, ?_, ?_, ?_, ?_, ?_⟩
  · intro p hp
    obtain ⟨c, e, hd, ha⟩ := h4 p ((hmem p).1 hp)
    exact ⟨c, e, hd, ha [] _ (by simp) rfl⟩
  · intro p hp; exact h2 p ((hmem p).1 hp)
  · intro c hc
    obtain ⟨p, ⟨hp, e⟩, _⟩ := h3 c hc
    exact ⟨p, (hmem p).2 hp, e⟩
  · intro a h0 h1'
    obtain ⟨p, ⟨hp, e⟩, _⟩ := h1 a ⟨h0, h1'⟩
    exact ⟨p, (hmem p).2 hp, e⟩
  · intro p hp p' hp' e
    exact (h1 _ (h2 p ((hmem p).1 hp))).unique ⟨(hmem p).1 hp, rfl⟩ ⟨(hmem p').1 hp', e.symm⟩
  · intro p hp p' hp' c e e'
    obtain ⟨c', e1, hd, _⟩ := h4 p ((hmem p).1 hp)
    have e2 : loopCoord3 (2 ^ k) bm p.1 p.2 = .ok c := e
    rw [e2] at e1; injection e1 with e1; subst e1
    exact (h3 c hd).unique ⟨(hmem p).1 hp, e⟩ ⟨(hmem p').1 hp', e'⟩
  · rintro c a a' ⟨s, e⟩ ⟨s', e'⟩
    rw [e] at e'; injection e' with e'; injection e'

theorem inGrid2_inDims (B nx nz : Nat) (c : Coord2) :
    inDims2 { x := nx * B, z := nz * B } c = true ↔ InGrid2 B nx nz c := by
  unfold inDims2 InGrid2; rw [decide_eq_true_eq]; simp only; omega

theorem inGrid3_inDims (B nx ny nz : Nat) (c : Coord3) :
    inDims3 { x := nx * B, y := ny * B, z := nz * B } c = true ↔ InGrid3 B nx ny nz c := by
  unfold inDims3 InGrid3; rw [decide_eq_true_eq]; simp only; omega

variable {V : Type} [Zero V]

theorem rehydratePage2_spec (k nx nz : Nat) (Active : Coord2 → Prop) (bm : BlockMap Coord2)
    (hx : FitsI32Axis k nx) (hz : FitsI32Axis k nz) (hm : MapFor2 (2 ^ k) nx nz Active bm)
    (q : Pages V) (hq : q.cells = numActiveCells (((2 ^ k : Nat) : Int) * ((2 ^ k : Nat) : Int)) bm)
    (n : Nat) (hn : n < q.pages) (sched : List (Nat × Int))
    (hs : sched.Perm (loopIters (2 ^ k * 2 ^ k) bm)) :
    ∃ s, rehydratePage2 (2 ^ k) bm q n sched = .ok s ∧
      Rehydrated (InGrid2 (2 ^ k) nx nz) (HasData2 (2 ^ k) nx nz Active) (Addr2 (2 ^ k) bm) (q.val n) s := by
  obtain ⟨s, e, h1, h2⟩ := scatter_spec (iterSpace2 k nx nz Active bm hx hz hm)
    (inDims2 { x := nx * (2 ^ k : Nat), z := nz * (2 ^ k : Nat) })
    (fun c hc => (inGrid2_inDims (2 ^ k) nx nz c).2 (hasData2_inGrid _ nx nz Active c hc))
    (q.read n) (q.val n) (fun a h0 h1 => by unfold Pages.read; rw [if_pos ⟨hn, h0, by rw [hq]; exact h1⟩])
    sched hs (fun _ => 0)
  refine ⟨s, ?_, h1, fun c _ hc => h2 c hc⟩
  unfold rehydratePage2; rw [hm.dims]; exact e

theorem rehydratePage3_spec (k nx ny nz : Nat) (Active : Coord3 → Prop) (bm : BlockMap Coord3)
    (hx : FitsI32Axis k nx) (hy : FitsI32Axis k ny) (hz : FitsI32Axis k nz)
    (hm : MapFor3 (2 ^ k) nx ny nz Active bm) (q : Pages V)
    (hq : q.cells = numActiveCells (((2 ^ k : Nat) : Int) * ((2 ^ k : Nat) : Int) * ((2 ^ k : Nat) : Int)) bm)
    (n : Nat) (hn : n < q.pages) (sched : List (Nat × Int))
    (hs : sched.Perm (loopIters (2 ^ k * 2 ^ k * 2 ^ k) bm)) :
    ∃ s, rehydratePage3 (2 ^ k) bm q n sched = .ok s ∧
      Rehydrated (InGrid3 (2 ^ k) nx ny nz) (HasData3 (2 ^ k) nx ny nz Active) (Addr3 (2 ^ k) bm)
        (q.val n) s := by
  obtain ⟨s, e, h1, h2⟩ := scatter_spec (iterSpace3 k nx ny nz Active bm hx hy hz hm)
    (inDims3 { x := nx * (2 ^ k : Nat), y := ny * (2 ^ k : Nat), z := nz * (2 ^ k : Nat) })
    (fun c hc => (inGrid3_inDims (2 ^ k) nx ny nz c).2 (hasData3_inGrid _ nx ny nz Active c hc))
    (q.read n) (q.val n) (fun a h0 h1 => by unfold Pages.read; rw [if_pos ⟨hn, h0, by rw [hq]; exact h1⟩])
    sched hs (fun _ => 0)
  refine ⟨s, ?_, h1, fun c _ hc => h2 c hc⟩
  unfold rehydratePage3; rw [hm.dims]; exact e

end DexRT
