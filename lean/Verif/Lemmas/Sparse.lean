import Verif.Model.Sparse
import Mathlib.Data.List.Basic
/-! Lemmas for C36. -/
namespace DexRT

instance : LawfulMonad Outcome := LawfulMonad.mk' _
  (id_map := by intro α x; cases x <;> rfl)
  (pure_bind := by intros; rfl)
  (bind_assoc := by intro α β γ x f g; cases x <;> rfl)

theorem writeLoop_spec {ι K V : Type} [DecidableEq K] (f : ι → Outcome (K × V)) :
    ∀ (l : List ι) (m : K → V), (∀ i ∈ l, ∃ k v, f i = .ok (k, v)) →
    ∃ m', writeLoop f l m = .ok m' ∧
      (∀ k, (∀ i ∈ l, ∀ v, f i ≠ .ok (k, v)) → m' k = m k) ∧
      (∀ k v, (∃ i ∈ l, ∃ v', f i = .ok (k, v')) → (∀ i ∈ l, ∀ v', f i = .ok (k, v') → v' = v) →
        m' k = v) := by
  intro l
  induction l with
  | nil =>
    intro m _
    exact ⟨m, rfl, fun _ _ => rfl, fun k v h => by obtain ⟨i, hi, _⟩ := h; simp at hi⟩
  | cons i is ih =>
    intro m h
    obtain ⟨k, v, hkv⟩ := h i (by simp)
    obtain ⟨m', e, h1, h2⟩ := ih (fun k' => if k' = k then v else m k')
      (fun j hj => h j (List.mem_cons_of_mem _ hj))
    refine ⟨m', by unfold writeLoop; rw [hkv]; exact e, ?_, ?_⟩
    · intro k' hk'
      rw [h1 k' (fun j hj => hk' j (List.mem_cons_of_mem _ hj))]
      rw [if_neg]
      rintro rfl
      exact hk' i (by simp) v hkv
    · intro k' v' hex hall
      by_cases hin : ∃ j ∈ is, ∃ v'', f j = .ok (k', v'')
      · exact h2 k' v' hin (fun j hj => hall j (List.mem_cons_of_mem _ hj))
      · rw [h1 k' (fun j hj v'' hv => hin ⟨j, hj, v'', hv⟩)]
        obtain ⟨j, hj, v'', hv⟩ := hex
        rcases List.mem_cons.1 hj with rfl | hj
        · rw [hkv] at hv; injection hv with hv; injection hv with ha hb
          subst ha; rw [if_pos rfl]; exact hall j (by simp) v hkv
        · exact absurd ⟨j, hj, v'', hv⟩ hin

theorem mem_loopIters {C : Type} (cells : Nat) (bm : BlockMap C) (p : Nat × Int) :
    p ∈ loopIters cells bm ↔ (p.1 : Int) < bm.numActive ∧ 0 ≤ p.2 ∧ p.2 < cells := by
  unfold loopIters
  simp only [List.mem_flatMap, List.mem_range, List.mem_map]
  constructor
  · rintro ⟨t, ht, b, hb, rfl⟩
    simp only [Int.ofNat_eq_natCast]; omega
  · rintro ⟨h1, h2, h3⟩
    refine ⟨p.1, by omega, p.2.toNat, by omega, ?_⟩
    rw [Int.ofNat_eq_natCast, Int.toNat_of_nonneg h2]

theorem mem_loopTo (n v : Int) : v ∈ loopTo n ↔ 0 ≤ v ∧ v < n := by
  unfold loopTo
  simp only [List.mem_map, List.mem_range, Int.ofNat_eq_natCast]
  constructor
  · rintro ⟨a, ha, rfl⟩; omega
  · rintro ⟨h1, h2⟩; exact ⟨v.toNat, by omega, by omega⟩

/-- Fold of point updates with consistent values. -/
theorem foldl_set {ι K V : Type} [DecidableEq K] (key : ι → K) (g : K → V) (l : List ι) (m : K → V) (k : K) :
    (l.foldl (fun r i => fun k' => if k' = key i then g (key i) else r k') m) k =
      if ∃ i ∈ l, key i = k then g k else m k := by
  induction l generalizing m with
  | nil => simp
  | cons i is ih =>
    rw [List.foldl_cons, ih]
    by_cases h : ∃ j ∈ is, key j = k
    · rw [if_pos h, if_pos]
      obtain ⟨j, hj, e⟩ := h
      exact ⟨j, List.mem_cons_of_mem _ hj, e⟩
    · rw [if_neg h]
      by_cases hk : k = key i
      · rw [if_pos hk, if_pos ⟨i, by simp, hk.symm⟩, hk]
      · rw [if_neg hk, if_neg]
        rintro ⟨j, hj, e⟩
        rcases List.mem_cons.1 hj with rfl | hj
        · exact hk e.symm
        · exact h ⟨j, hj, e⟩

/-- Nested version: an outer loop whose body acts as "copy from `g` on `P i`". -/
theorem foldl_copy {ι K V : Type} (body : (K → V) → ι → (K → V)) (P : ι → K → Prop) (g : K → V)
    [∀ i k, Decidable (P i k)]
    (hb : ∀ r i k, body r i k = if P i k then g k else r k) (k : K) : ∀ (l : List ι) (m : K → V)
    [Decidable (∃ i ∈ l, P i k)],
    (l.foldl body m) k = if ∃ i ∈ l, P i k then g k else m k := by
  intro l
  induction l with
  | nil => intro m _; simp
  | cons i is ih =>
    intro m _
    classical
    rw [List.foldl_cons, ih, hb]
    by_cases h : ∃ j ∈ is, P j k
    · rw [if_pos h, if_pos]
      obtain ⟨j, hj, e⟩ := h
      exact ⟨j, List.mem_cons_of_mem _ hj, e⟩
    · rw [if_neg h]
      by_cases hk : P i k
      · rw [if_pos hk, if_pos ⟨i, by simp, hk⟩]
      · rw [if_neg hk, if_neg]
        rintro ⟨j, hj, e⟩
        rcases List.mem_cons.1 hj with rfl | hj
        · exact hk e
        · exact h ⟨j, hj, e⟩

variable {V : Type}

theorem copyPage2_spec (numX numZ : Int) (page : Coord2 → V) (res : Nat × Coord2 → V) (n n' : Nat)
    (c : Coord2) :
    copyPage2 numX numZ page res n (n', c) =
      if n' = n ∧ (0 ≤ c.x ∧ c.x < numX) ∧ (0 ≤ c.z ∧ c.z < numZ) then page c else res (n', c) := by
  classical
  unfold copyPage2
  rw [foldl_copy _ (fun z k => ∃ x ∈ loopTo numX, ((n, ({ x := x, z := z } : Coord2)) : Nat × Coord2) = k)
    (fun k => page k.2)]
  · congr 1
    apply propext
    simp only [mem_loopTo, Prod.mk.injEq]
    constructor
    · rintro ⟨z, hz, x, hx, rfl, rfl⟩; exact ⟨rfl, hx, hz⟩
    · rintro ⟨rfl, hx, hz⟩; exact ⟨c.z, hz, c.x, hx, rfl, rfl⟩
  · intro r z k
    exact foldl_set (fun x => ((n, ({ x := x, z := z } : Coord2)) : Nat × Coord2)) (fun k => page k.2)
      (loopTo numX) r k

theorem copyPage3_spec (numX numY numZ : Int) (page : Coord3 → V) (res : Nat × Coord3 → V) (n n' : Nat)
    (c : Coord3) :
    copyPage3Host numX numY numZ page res n (n', c) =
      if n' = n ∧ (0 ≤ c.x ∧ c.x < numX) ∧ (0 ≤ c.y ∧ c.y < numY) ∧ (0 ≤ c.z ∧ c.z < numZ) then page c
      else res (n', c) := by
  classical
  unfold copyPage3Host
  rw [foldl_copy _ (fun z k => ∃ y ∈ loopTo numY, ∃ x ∈ loopTo numX,
    ((n, ({ x := x, y := y, z := z } : Coord3)) : Nat × Coord3) = k) (fun k => page k.2)]
  · congr 1
    apply propext
    simp only [mem_loopTo, Prod.mk.injEq]
    constructor
    · rintro ⟨z, hz, y, hy, x, hx, rfl, rfl⟩; exact ⟨rfl, hx, hy, hz⟩
    · rintro ⟨rfl, hx, hy, hz⟩; exact ⟨c.z, hz, c.y, hy, c.x, hx, rfl, rfl⟩
  · intro r z k
    refine (foldl_copy _ (fun y k => ∃ x ∈ loopTo numX,
      ((n, ({ x := x, y := y, z := z } : Coord3)) : Nat × Coord3) = k) (fun k => page k.2) ?_ _ _ _).trans ?_
    · intro r y k
      exact foldl_set (fun x => ((n, ({ x := x, y := y, z := z } : Coord3)) : Nat × Coord3))
        (fun k => page k.2) (loopTo numX) r k
    · rfl

/-- Page loop: each page is produced independently and stored under its number. -/
theorem foldlM_pages {C : Type} (page : Nat → Outcome (C → V)) (InB : C → Prop) [DecidablePred InB]
    (copy : (C → V) → (Nat × C → V) → Nat → Nat × C → V)
    (hcopy : ∀ pg res n n' c, copy pg res n (n', c) = if n' = n ∧ InB c then pg c else res (n', c))
    (N : Nat) (pg : Nat → C → V) (hpg : ∀ n < N, page n = .ok (pg n)) (junk : Nat × C → V) :
    ∃ r, (List.range N).foldlM (fun res n => do
        let p ← page n
        .ok (copy p res n)) junk = Outcome.ok r ∧
      (∀ n c, n < N → InB c → r (n, c) = pg n c) ∧
      (∀ n c, ¬ (n < N ∧ InB c) → r (n, c) = junk (n, c)) := by
  induction N with
  | zero => exact ⟨junk, rfl, fun n c h => by omega, fun _ _ _ => rfl⟩
  | succ N ih =>
    obtain ⟨r, e, h1, h2⟩ := ih (fun n hn => hpg n (by omega))
    refine ⟨copy (pg N) r N, ?_, ?_, ?_⟩
    · rw [List.range_succ, List.foldlM_append, e]
      simp only [Outcome.ok_bind, List.foldlM_cons, List.foldlM_nil, hpg N (by omega), Outcome.pure_eq]
    · intro n c hn hc
      rw [hcopy]
      by_cases hnN : n = N
      · rw [if_pos ⟨hnN, hc⟩, hnN]
      · rw [if_neg (fun h => hnN h.1)]; exact h1 n c (by omega) hc
    · intro n c h
      rw [hcopy, if_neg, h2]
      · exact fun hh => h ⟨by omega, hh.2⟩
      · exact fun hh => h ⟨by omega, hh.2⟩

/-- The 3D device row loop never ends inside the arrays once it is entered. -/
theorem copyRows3_ub (numX numY : Int) (page : Coord3 → V) (n : Nat) (z : Int) (hz : z < numY) :
    ∀ (k : Nat) (y : Int), numY - y ≤ k → ∀ res, copyRows3Device numX numY page n z y res = .ub := by
  intro k
  induction k with
  | zero =>
    intro y hy res
    unfold copyRows3Device
    rw [if_neg (by omega), if_pos (by omega)]
  | succ k ih =>
    intro y hy res
    unfold copyRows3Device
    rw [if_neg (by omega)]
    by_cases h : numY ≤ y
    · rw [if_pos h]
    · rw [if_neg h]; exact ih (y + 1) (by omega) _

end DexRT
