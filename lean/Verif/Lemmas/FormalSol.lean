import Verif.Spec.FormalSol
import Verif.Lemmas.RcInterp
import Verif.Lemmas.MeanJ
import Verif.Props.RcInterp
import Mathlib.Algebra.Order.Field.Basic
import Mathlib.Algebra.BigOperators.Field
import Mathlib.Data.Rat.Cast.CharZero
import Mathlib.Tactic.Ring
/-! Helper lemmas for the formal solution. -/
namespace DexRT.Fs
open DexRT

/-- lower corner probe on an axis -/
def cornerN (u : Nat) : Nat := (u - 1) / 2

/-- the other probe on an axis, clamped -/
def corner2 (N u : Nat) : Nat := if cornerN u = N - 1 then cornerN u else cornerN u + 1

/-- fraction of the lower corner -/
def fracN (u : Nat) : ℚ := (cornerAxis (u : Int)).2

theorem cornerAxis_nat (u : Nat) : (cornerAxis (u : Int)).1 = (cornerN u : Int) := by
  rcases Nat.eq_zero_or_pos u with rfl | h
  · rw [Nat.cast_zero, cornerAxis_zero]; rfl
  · rw [(cornerAxis_pos (by omega)).1]; unfold cornerN; omega

theorem fracN_zero : fracN 0 = 1 := by unfold fracN; rw [Nat.cast_zero, cornerAxis_zero]

theorem fracN_odd (c : Nat) : fracN (2 * c + 1) = 3 / 4 := by
  unfold fracN; rw [(cornerAxis_pos (by omega)).2]
  have : ((2 * c + 1 : Nat) : Int) % 2 = 1 := by omega
  rw [this]; norm_num

theorem fracN_even (c : Nat) : fracN (2 * c + 2) = 1 / 4 := by
  unfold fracN; rw [(cornerAxis_pos (by omega)).2]
  have : ((2 * c + 2 : Nat) : Int) % 2 = 0 := by omega
  rw [this]; norm_num

theorem hat_far {x : ℚ} {c U : Nat} (h1 : (c : ℚ) ≤ x) (h2 : x ≤ c + 1) (hc : U ≠ c) (hc' : U ≠ c + 1) :
    max 0 (1 - |x - U|) = 0 := by
  apply max_eq_left
  rcases Nat.lt_or_gt_of_ne hc with h | h
  · have : (U : ℚ) + 1 ≤ c := by exact_mod_cast h
    rw [abs_of_nonneg (by linarith)]; linarith
  · have : (c : ℚ) + 2 ≤ U := by exact_mod_cast (show c + 2 ≤ U by omega)
    rw [abs_of_nonpos (by linarith)]; linarith

theorem hat_at {x : ℚ} {c : Nat} (h1 : (c : ℚ) ≤ x) (h2 : x ≤ c + 1) :
    max 0 (1 - |x - c|) = c + 1 - x := by
  rw [abs_of_nonneg (by linarith), max_eq_right (by linarith)]; ring

theorem hat_next {x : ℚ} {c : Nat} (h1 : (c : ℚ) ≤ x) (h2 : x ≤ c + 1) :
    max 0 (1 - |x - ((c + 1 : Nat) : ℚ)|) = x - c := by
  push_cast
  rw [abs_of_nonpos (by linarith), max_eq_right (by linarith)]; ring

theorem axisWeight_eq (N u U : Nat) (hc : cornerN u < N) :
    axisWeight N u U = (if U = cornerN u then fracN u else 0) + (if U = corner2 N u then 1 - fracN u else 0) := by
  -- a position between probes c and c+1
  have mid : ∀ (c : Nat) (f : ℚ), cornerN u = c → fracN u = f → 0 ≤ f → f ≤ 1 → (u : ℚ) / 2 - 1 / 4 = c + 1 - f →
      c < N → axisWeight N u U = (if U = c then f else 0) + (if U = corner2 N u then 1 - f else 0) := by
    intro c f e1 e2 hf0 hf1 hx hcN
    have hcq : (0 : ℚ) ≤ c := Nat.cast_nonneg c
    unfold axisWeight corner2
    rw [e1, hx]
    by_cases hcl : c = N - 1
    · have hNq : ((N : ℚ) - 1) = c := by
        have : N = c + 1 := by omega
        rw [this]; push_cast; ring
      rw [if_pos hcl, hNq, min_eq_right (by linarith), max_eq_right hcq]
      by_cases hU : U = c
      · subst hU; simp
      · by_cases hU2 : U = c + 1
        · subst hU2
          rw [hat_next (le_refl _) (by linarith)]
          simp
        · rw [hat_far (le_refl _) (by linarith) hU hU2]; simp [hU]
    · have hNq : (c : ℚ) + 1 ≤ (N : ℚ) - 1 := by
        have : c + 2 ≤ N := by omega
        have : ((c + 2 : Nat) : ℚ) ≤ N := by exact_mod_cast this
        push_cast at this; linarith
      rw [if_neg hcl, min_eq_left (by linarith), max_eq_right (show (0 : ℚ) ≤ (c : ℚ) + 1 - f by linarith)]
      by_cases hU : U = c
      · subst hU
        rw [hat_at (by linarith) (by linarith)]
        simp
      · by_cases hU2 : U = c + 1
        · subst hU2
          rw [hat_next (by linarith) (by linarith)]
          simp; ring
        · rw [hat_far (by linarith) (by linarith) hU hU2]; simp [hU, hU2]
  rcases Nat.eq_zero_or_pos u with rfl | hu
  · have c0 : cornerN 0 = 0 := rfl
    rw [c0] at hc ⊢
    rw [fracN_zero]
    unfold axisWeight
    have hN : (0 : ℚ) ≤ (N : ℚ) - 1 := by
      have : ((1 : Nat) : ℚ) ≤ N := by exact_mod_cast hc
      push_cast at this; linarith
    have : max (0 : ℚ) (min (((0 : Nat) : ℚ) / 2 - 1 / 4) ((N : ℚ) - 1)) = 0 := by
      apply max_eq_left
      exact le_trans (min_le_left _ _) (by norm_num)
    rw [this]
    by_cases hU : U = 0
    · subst hU; simp
    · have : ((1 : Nat) : ℚ) ≤ U := by exact_mod_cast Nat.pos_of_ne_zero hU
      push_cast at this
      rw [abs_of_nonpos (by linarith), max_eq_left (by linarith)]
      simp [hU]
  · rcases Nat.even_or_odd' u with ⟨c, h | h⟩
    · obtain ⟨d, rfl⟩ : ∃ d, u = 2 * d + 2 := ⟨c - 1, by omega⟩
      have e1 : cornerN (2 * d + 2) = d := by unfold cornerN; omega
      rw [e1] at hc ⊢
      rw [fracN_even]
      exact mid d (1 / 4) e1 (fracN_even d) (by norm_num) (by norm_num) (by push_cast; ring) hc
    · subst h
      have e1 : cornerN (2 * c + 1) = c := by unfold cornerN; omega
      rw [e1] at hc ⊢
      rw [fracN_odd]
      exact mid c (3 / 4) e1 (fracN_odd c) (by norm_num) (by norm_num) (by push_cast; ring) hc

theorem corner2_lt {N u : Nat} (hc : cornerN u < N) : corner2 N u < N := by
  unfold corner2; split <;> omega

variable {K : Type} [Field K] [CharZero K]

theorem axis_sum (N u : Nat) (hc : cornerN u < N) (g : Nat → K) :
    ∑ U ∈ Finset.range N, (axisWeight N u U : K) * g U =
      (fracN u : K) * g (cornerN u) + (1 - (fracN u : K)) * g (corner2 N u) := by
  have : ∀ U ∈ Finset.range N, (axisWeight N u U : K) * g U =
      (if U = cornerN u then (fracN u : K) * g U else 0) +
      (if U = corner2 N u then (1 - (fracN u : K)) * g U else 0) := by
    intro U _
    rw [axisWeight_eq N u U hc, Rat.cast_add]
    split <;> split <;> simp; ring
  rw [Finset.sum_congr rfl this, Finset.sum_add_distrib, Finset.sum_ite_eq', Finset.sum_ite_eq',
    if_pos (Finset.mem_range.2 hc), if_pos (Finset.mem_range.2 (corner2_lt hc))]

theorem cornerN_lt {N n u : Nat} (h : u < probesOn N n) : cornerN u < probesOn N (n + 1) := by
  unfold probesOn at *
  rw [pow_succ, ← Nat.div_div_eq_div_mul]
  generalize N / 2 ^ n = m at *
  unfold cornerN
  omega

/-! ### loops -/

theorem readAt_ok {α : Type} {l : List α} {i : Nat} {v : α} (h : l[i]? = some v) : readAt l i = .ok v := by
  unfold readAt; rw [h]

omit [CharZero K] in
theorem sumLoop_ok {ι : Type} (f : ι → Outcome K) (g : ι → K) : ∀ (l : List ι) (acc : K),
    (∀ i ∈ l, f i = .ok (g i)) → sumLoop f l acc = .ok (acc + (l.map g).sum)
  | [], acc, _ => by simp [sumLoop]
  | i :: is, acc, h => by
    unfold sumLoop
    rw [h i List.mem_cons_self, Outcome.ok_bind,
      sumLoop_ok f g is _ (fun j hj => h j (List.mem_cons_of_mem _ hj))]
    simp [add_assoc]

omit [CharZero K] in
theorem set_set_buf {bufs : List (List K)} {i : Nat} {a b : List K} : (bufs.set i a).set i b = bufs.set i b := by
  rw [List.set_set]

omit [CharZero K] in
/-- The loop of a cascade: if every iteration's result depends only on the buffers other than `i`, and results
stored at the same place agree, then afterwards each place holds its result, whatever the order. -/
theorem rcLoop_spec {ι : Type} (body : List (List K) → ι → Outcome (Nat × K × K)) (i : Nat) (alo : Bool)
    (lin : ι → Nat) (val psi : ι → K) (bufs : List (List K)) (len : Nat) :
    ∀ (sched done : List ι) (b : List K) (ps : Option (List K)),
    b.length = len → i < bufs.length →
    (alo = true → ∃ q, ps = some q) → (∀ q, ps = some q → alo = true → len ≤ q.length) →
    (∀ it ∈ sched, lin it < len) →
    (∀ b' : List K, ∀ it ∈ sched, body (bufs.set i b') it = .ok (lin it, val it, psi it)) →
    (∀ it ∈ done ++ sched, ∀ it' ∈ sched, lin it = lin it' → val it = val it' ∧ psi it = psi it') →
    (∀ it ∈ done, b[lin it]? = some (val it) ∧ ∀ q, ps = some q → alo = true → q[lin it]? = some (psi it)) →
    ∃ b' ps', rcLoop body i alo sched { bufs := bufs.set i b, psi := ps } =
        .ok { bufs := bufs.set i b', psi := ps' } ∧ b'.length = len ∧
      (ps'.isSome = ps.isSome ∧ ∀ q q', ps = some q → ps' = some q' → q'.length = q.length) ∧
      (alo = false → ps' = ps) ∧
      (∀ it ∈ done ++ sched, b'[lin it]? = some (val it) ∧
        ∀ q, ps' = some q → alo = true → q[lin it]? = some (psi it))
  | [], done, b, ps, hlen, _, _, _, _, _, _, hdone => by
    refine ⟨b, ps, rfl, hlen, ⟨rfl, ?_⟩, fun _ => rfl, ?_⟩
    · intro q q' h1 h2; rw [h1] at h2; injection h2 with h2; rw [h2]
    · simpa using hdone
  | it :: its, done, b, ps, hlen, hi, halo, hpl, hlin, hbody, hagree, hdone => by
    have hl := hlin it List.mem_cons_self
    have hread : readAt (bufs.set i b) i = .ok b := by
      apply readAt_ok; rw [List.getElem?_set_self hi]
    have hst : storeAt b (lin it) (val it) = .ok (b.set (lin it) (val it)) := by
      unfold storeAt; rw [if_pos (by omega)]
    obtain ⟨ps1, hps1, hps1s, hps1f, hps1v⟩ : ∃ ps1, storePsi alo ps (lin it) (psi it) = .ok ps1 ∧
        (ps1.isSome = ps.isSome ∧ ∀ q q', ps = some q → ps1 = some q' → q'.length = q.length) ∧
        (alo = false → ps1 = ps) ∧
        ∀ q, ps1 = some q → alo = true → ∃ q0, ps = some q0 ∧ q = q0.set (lin it) (psi it) := by
      cases alo with
      | false =>
        refine ⟨ps, rfl, ⟨rfl, ?_⟩, fun _ => rfl, by simp⟩
        intro q q' h1 h2; rw [h1] at h2; injection h2 with h2; rw [h2]
      | true =>
        obtain ⟨q, hq⟩ := halo rfl
        subst hq
        have := hpl q rfl rfl
        refine ⟨some (q.set (lin it) (psi it)), ?_, ⟨rfl, ?_⟩, by simp, ?_⟩
        · show (do let ps' ← storeAt q (lin it) (psi it); Outcome.ok (some ps')) = _
          unfold storeAt; rw [if_pos (by omega)]; rfl
        · intro a a' h1 h2
          injection h1 with h1; injection h2 with h2
          subst h1 h2; simp
        · intro a h1 _
          injection h1 with h1
          exact ⟨q, rfl, h1.symm⟩
    have hunf : rcLoop body i alo (it :: its) { bufs := bufs.set i b, psi := ps } =
        rcLoop body i alo its { bufs := bufs.set i (b.set (lin it) (val it)), psi := ps1 } := by
      show (do let r ← body (bufs.set i b) it; _) = _
      rw [hbody b it List.mem_cons_self]
      simp only [Outcome.ok_bind]
      rw [hread]
      simp only [Outcome.ok_bind]
      rw [hst]
      simp only [Outcome.ok_bind]
      rw [hps1]
      simp only [Outcome.ok_bind]
      rw [List.set_set]
    obtain ⟨b', ps', r1, r2, r3, r4, r5⟩ := rcLoop_spec body i alo lin val psi bufs len its (done ++ [it])
      (b.set (lin it) (val it)) ps1 (by simpa using hlen) hi
      (fun h => by
        obtain ⟨q, hq⟩ := halo h
        have := hps1s.1
        rw [hq] at this
        exact Option.isSome_iff_exists.1 (by simpa using this))
      (fun q hq h => by
        obtain ⟨q0, hq0, hqe⟩ := hps1v q hq h
        have := hpl q0 hq0 h
        rw [hqe]; simpa using this)
      (fun j hj => hlin j (List.mem_cons_of_mem _ hj))
      (fun b' j hj => hbody b' j (List.mem_cons_of_mem _ hj))
      (fun a ha c hc => hagree a (by
        simp only [List.mem_append, List.mem_cons, List.not_mem_nil, or_false] at ha ⊢; tauto) c
        (List.mem_cons_of_mem _ hc))
      (by
        intro a ha
        have key : ∀ {q : List K} {v : ι → K}, lin it < q.length → (a ∈ done → q[lin a]? = some (v a)) →
            (lin a = lin it → v a = v it) → (q.set (lin it) (v it))[lin a]? = some (v a) := by
          intro q v hq h1 h2
          by_cases he : lin a = lin it
          · rw [he, List.getElem?_set_self hq, h2 he]
          · rw [List.getElem?_set_ne (Ne.symm he)]
            rcases List.mem_append.1 ha with h | h
            · exact h1 h
            · rw [List.mem_singleton.1 h] at he; exact absurd rfl he
        have hag : lin a = lin it → val a = val it ∧ psi a = psi it := fun he =>
          hagree a (by
            simp only [List.mem_append, List.mem_cons, List.not_mem_nil, or_false] at ha ⊢; tauto) it
            List.mem_cons_self he
        refine ⟨key (by omega) (fun h => (hdone a h).1) (fun he => (hag he).1), ?_⟩
        intro q hq h
        obtain ⟨q0, hq0, hqe⟩ := hps1v q hq h
        rw [hqe]
        have := hpl q0 hq0 h
        exact key (by omega) (fun hd => (hdone a hd).2 q0 hq0 h) (fun he => (hag he).2))
    refine ⟨b', ps', by rw [hunf, r1], r2, ⟨by rw [r3.1, hps1s.1], ?_⟩, ?_, ?_⟩
    · intro q q' h1 h2
      have : ps1.isSome = true := by rw [hps1s.1, h1]; rfl
      obtain ⟨q1, hq1⟩ := Option.isSome_iff_exists.1 this
      rw [r3.2 q1 q' hq1 h2, hps1s.2 q q1 h1 hq1]
    · intro h; rw [r4 h, hps1f h]
    · intro a ha
      apply r5
      simp only [List.mem_append, List.mem_cons, List.not_mem_nil, or_false] at ha ⊢; tauto

theorem frac_pos (u : Nat) : 0 < fracN u ∧ fracN u ≤ 1 :=
  ⟨(cornerAxis_facts (by omega)).2.2.1, (cornerAxis_facts (by omega)).2.2.2⟩

theorem axisWeight_corner {N u : Nat} (hc : cornerN u < N) : axisWeight N u (cornerN u) ≠ 0 := by
  rw [axisWeight_eq N u _ hc, if_pos rfl]
  have := frac_pos u
  split
  · rw [add_sub_cancel]; norm_num
  · rw [add_zero]; exact ne_of_gt this.1

theorem axisWeight_corner2 {N u : Nat} (hc : cornerN u < N) (hf : fracN u ≠ 1) :
    axisWeight N u (corner2 N u) ≠ 0 := by
  rw [axisWeight_eq N u _ hc]
  split
  · rw [if_pos rfl, add_sub_cancel]; norm_num
  · rw [if_pos rfl, zero_add]; intro h; apply hf; linarith

theorem bilinear_nat (u v Nu Nv : Nat) (hu : cornerN u < Nu) (hv : cornerN v < Nv) (k : Nat) :
    bilinearSample (u : Int) (v : Int) (Nu : Int) (Nv : Int) k =
      match k with
      | 0 => (((cornerN u : Int), (cornerN v : Int)), fracN u * fracN v)
      | 1 => ((((corner2 Nu u : Nat) : Int), (cornerN v : Int)), (1 - fracN u) * fracN v)
      | 2 => (((cornerN u : Int), ((corner2 Nv v : Nat) : Int)), fracN u * (1 - fracN v))
      | _ => ((((corner2 Nu u : Nat) : Int), ((corner2 Nv v : Nat) : Int)), (1 - fracN u) * (1 - fracN v)) := by
  simp only [bilinearSample, cornerAxis_nat]
  have eu : ((cornerN u : Int) == (Nu : Int) - 1) = decide (cornerN u = Nu - 1) := by
    rw [Bool.beq_eq_decide_eq]; congr 1; rw [eq_iff_iff]; omega
  have ev : ((cornerN v : Int) == (Nv : Int) - 1) = decide (cornerN v = Nv - 1) := by
    rw [Bool.beq_eq_decide_eq]; congr 1; rw [eq_iff_iff]; omega
  unfold bilinearOffset corner2 fracN
  simp only [eu, ev]
  match k with
  | 0 => simp [bilinearWeight]
  | 1 => by_cases h : cornerN u = Nu - 1 <;> simp [h, bilinearWeight]
  | 2 => by_cases h : cornerN v = Nv - 1 <;> simp [h, bilinearWeight]
  | k + 3 =>
    by_cases h : cornerN u = Nu - 1 <;> by_cases h' : cornerN v = Nv - 1 <;> simp [h, h', bilinearWeight]

end DexRT.Fs
