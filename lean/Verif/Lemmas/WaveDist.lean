import Verif.Spec.Waves
import Mathlib.Algebra.BigOperators.Group.Finset.Basic
import Mathlib.Algebra.Module.NatInt
import Mathlib.Data.Nat.ModEq
import Mathlib.Data.Int.ModEq
import Mathlib.Algebra.BigOperators.Group.Finset.Piecewise
import Mathlib.Algebra.Order.BigOperators.Group.Finset
namespace DexRT
open Finset

/-- batches of the log with start `v` plus replies `v` in flight -/
def inFlight (R : Nat) (pc : Nat → RankPc) (v : Nat) : Nat :=
  ∑ r ∈ range R, if pc r = .replied v then 1 else 0

def logCount (log : List (Nat × WaveBatch)) (v : Nat) : Nat :=
  (log.filter fun p => decide (p.2.laStart = v)).length

theorem sum_setPc {R r : Nat} (hr : r < R) (pc : Nat → RankPc) (p : RankPc) (f : RankPc → Nat) :
    (∑ q ∈ range R, f (setPc pc r p q)) + f (pc r) = (∑ q ∈ range R, f (pc q)) + f p := by
  have hm : r ∈ range R := mem_range.mpr hr
  rw [← Finset.add_sum_erase _ _ hm, ← Finset.add_sum_erase _ (fun q => f (pc q)) hm]
  have : ∑ q ∈ (range R).erase r, f (setPc pc r p q) = ∑ q ∈ (range R).erase r, f (pc q) := by
    apply Finset.sum_congr rfl
    intro q hq
    have : q ≠ r := (Finset.mem_erase.mp hq).1
    simp [setPc, this]
  rw [this]; simp [setPc]; omega

theorem inFlight_set {R r : Nat} (hr : r < R) (pc : Nat → RankPc) (p : RankPc) (v : Nat) :
    inFlight R (setPc pc r p) v + (if pc r = .replied v then 1 else 0)
      = inFlight R pc v + (if p = .replied v then 1 else 0) := by
  exact sum_setPc hr pc p (fun q => if q = .replied v then 1 else 0)

theorem inFlight_zero {R : Nat} {pc : Nat → RankPc} {v : Nat} (h : ∀ r < R, pc r ≠ .replied v) :
    inFlight R pc v = 0 := by
  unfold inFlight
  apply Finset.sum_eq_zero
  intro r hr
  simp [h r (mem_range.mp hr)]

def cnt (c : DistCfg) (s : DistState) (v : Nat) : Nat := logCount s.log v + inFlight c.R s.pc v

/-- rank 0 has not reset the counter yet -/
def phaseA (s : DistState) : Prop := s.pc 0 = .start ∨ s.pc 0 = .released

structure DInv (c : DistCfg) (s : DistState) : Prop where
  dvd : c.B ∣ s.la
  logOk : ∀ p ∈ s.log, p.1 < c.R ∧ p.2 = mkBatch c p.2.laStart ∧ p.2.laStart < c.laMax ∧ c.B ∣ p.2.laStart
  fl : ∀ r < c.R, ∀ v, s.pc r = .replied v → c.B ∣ v
  zero : ∀ v, s.pc 0 ≠ .replied v
  zerow : s.pc 0 ≠ .waiting
  A : phaseA s → (0 < s.pass → c.laMax ≤ s.la) ∧ (0 < s.pass ∨ c.R = 1 → ∀ v < c.laMax, cnt c s v = 0)
  Bp : ¬ phaseA s → ∃ pre : Nat → Nat, (0 < s.pass ∨ c.R = 1 → ∀ v, pre v = 0) ∧
      ∀ v < c.laMax, cnt c s v = pre v + (if c.B ∣ v ∧ v < s.la then 1 else 0)
  fin : s.pc 0 = .finished → c.laMax ≤ s.la

theorem cnt_congr {c : DistCfg} {s t : DistState} (hl : s.log = t.log)
    (h : ∀ v, inFlight c.R s.pc v = inFlight c.R t.pc v) (v : Nat) : cnt c s v = cnt c t v := by
  simp [cnt, hl, h]

theorem inFlight_set_eq {R r : Nat} (hr : r < R) (pc : Nat → RankPc) (p : RankPc) (v : Nat)
    (h1 : pc r ≠ .replied v) (h2 : p ≠ .replied v) : inFlight R (setPc pc r p) v = inFlight R pc v := by
  have := inFlight_set hr pc p v
  simpa [h1, h2] using this

theorem logCount_cons (x : Nat × WaveBatch) (l v) :
    logCount (x :: l) v = (if x.2.laStart = v then 1 else 0) + logCount l v := by
  unfold logCount
  by_cases h : x.2.laStart = v <;> simp [h]; omega

theorem dinv_init (c : DistCfg) : DInv c distInit := by
  have hz : ∀ v, cnt c distInit v = 0 := by
    intro v
    have := inFlight_zero (R := c.R) (pc := distInit.pc) (v := v) (by intro r _; simp [distInit])
    simp [cnt, this]; simp [logCount, distInit]
  refine ⟨by simp [distInit], by simp [distInit], by simp [distInit], by simp [distInit], by simp [distInit], ?_, ?_, by simp [distInit]⟩
  · intro _; exact ⟨by simp [distInit], fun _ v _ => hz v⟩
  · intro h; exact absurd (Or.inl rfl) h

/-- adding `B` to the counter hands out exactly the value `la` -/
theorem dvd_lt_add {B la v : Nat} (hB : 0 < B) (h1 : B ∣ la) :
    (B ∣ v ∧ v < la + B) ↔ ((B ∣ v ∧ v < la) ∨ v = la) := by
  constructor
  · rintro ⟨hd, hv⟩
    by_cases h : v < la
    · exact .inl ⟨hd, h⟩
    · right
      obtain ⟨a, rfl⟩ := hd; obtain ⟨b, rfl⟩ := h1
      have : b ≤ a := by
        by_contra hc
        apply h; exact Nat.mul_lt_mul_of_pos_left (by omega) hB
      have : a < b + 1 := by
        by_contra hc
        have : B * (b+1) ≤ B * a := Nat.mul_le_mul_left _ (by omega)
        rw [Nat.mul_add] at this; omega
      have : a = b := by omega
      rw [this]
  · rintro (⟨hd, hv⟩ | rfl)
    · exact ⟨hd, by omega⟩
    · exact ⟨h1, by omega⟩

/-- a pc update of one rank that neither removes nor adds an in-flight reply below `laMax` -/
theorem cnt_set {c : DistCfg} {s : DistState} {r : Nat} (hr : r < c.R) (p : RankPc) (v : Nat)
    (la : Nat) (pass : Nat) (h1 : s.pc r ≠ .replied v) (h2 : p ≠ .replied v) :
    cnt c { la := la, pc := setPc s.pc r p, log := s.log, pass := pass } v = cnt c s v := by
  simp [cnt, inFlight_set_eq hr s.pc p v h1 h2]

theorem setPc_same (pc : Nat → RankPc) (r p) : setPc pc r p r = p := by simp [setPc]
theorem setPc_other (pc : Nat → RankPc) {r q : Nat} (p) (h : q ≠ r) : setPc pc r p q = pc q := by
  simp [setPc, h]

theorem phaseA_other {s : DistState} {r : Nat} (p : RankPc) (hr : 0 < r) (la log pass) :
    phaseA { la := la, pc := setPc s.pc r p, log := log, pass := pass } ↔ phaseA s := by
  simp [phaseA, setPc_other s.pc p (show (0:Nat) ≠ r by omega)]

theorem mkBatch_start (c : DistCfg) (v) : (mkBatch c v).laStart = v := rfl

theorem dinv_step {c : DistCfg} (hB : 0 < c.B) (hR : 0 < c.R) {s t : DistState} (hi : DInv c s)
    (h : DistStep c s t) : DInv c t := by
  obtain ⟨i1, i2, i3, i4, iw, iA, iB, i5⟩ := hi
  cases h with
  | barrier1 hb hs =>
    have hz : ∀ v, inFlight c.R s.pc v = 0 := fun v => inFlight_zero fun r hr => by rw [hs r hr]; simp
    have hz' : ∀ v, inFlight c.R (fun _ => RankPc.released) v = 0 := fun v => inFlight_zero fun r hr => by simp
    refine ⟨i1, i2, by simp, by simp, by simp, ?_, fun h => absurd (.inr rfl) h, by simp⟩
    intro _
    obtain ⟨a, b⟩ := iA (.inl (hs 0 hR))
    refine ⟨a, fun hg v hv => ?_⟩
    have := b hg v hv
    simp only [cnt, hz, hz'] at this ⊢; exact this
  | enter r hb hr hs =>
    have hc : ∀ v, cnt c { s with pc := setPc s.pc r .released } v = cnt c s v := fun v =>
      cnt_set hr _ v _ _ (by rw [hs]; simp) (by simp)
    by_cases h0 : r = 0
    · subst h0
      refine ⟨i1, i2, ?_, by simp [setPc], by simp [setPc], ?_, fun h => absurd (.inr (by simp [setPc])) h, by simp [setPc]⟩
      · intro q hq v hv
        by_cases hq0 : q = 0
        · subst hq0; simp [setPc] at hv
        · exact i3 q hq v (by simpa [setPc, hq0] using hv)
      · intro _
        obtain ⟨a, b⟩ := iA (.inl hs)
        exact ⟨a, fun hg v hv => by rw [hc]; exact b hg v hv⟩
    · have hpa : phaseA { s with pc := setPc s.pc r .released } ↔ phaseA s := phaseA_other _ (by omega) _ _ _
      have h00 : setPc s.pc r .released 0 = s.pc 0 := setPc_other _ _ (by omega)
      refine ⟨i1, i2, ?_, by simpa [h00] using i4, by simpa [h00] using iw, ?_, ?_, by simpa [h00] using i5⟩
      · intro q hq v hv
        by_cases hq0 : q = r
        · subst hq0; simp [setPc] at hv
        · exact i3 q hq v (by simpa [setPc, hq0] using hv)
      · intro hh
        obtain ⟨a, b⟩ := iA (hpa.mp hh)
        exact ⟨a, fun hg v hv => by rw [hc]; exact b hg v hv⟩
      · intro hh
        obtain ⟨pre, a, b⟩ := iB (fun h => hh (hpa.mpr h))
        exact ⟨pre, a, fun v hv => by rw [hc]; exact b v hv⟩
  | reset0 _ hs =>
    have hc : ∀ v, cnt c { s with la := 0, pc := setPc s.pc 0 .asking } v = cnt c s v := fun v =>
      cnt_set hR _ v _ _ (by rw [hs]; simp) (by simp)
    refine ⟨by simp, i2, ?_, by simp [setPc], by simp [setPc], ?_, ?_, by simp [setPc]⟩
    · intro q hq v hv
      by_cases hq0 : q = 0
      · subst hq0; simp [setPc] at hv
      · exact i3 q hq v (by simpa [setPc, hq0] using hv)
    · intro hh; simp [phaseA, setPc] at hh
    · intro _
      obtain ⟨a, b⟩ := iA (.inr hs)
      refine ⟨fun v => if v < c.laMax then cnt c s v else 0, ?_, ?_⟩
      · intro hg v
        by_cases hv : v < c.laMax
        · simp [hv, b hg v hv]
        · simp [hv]
      · intro v hv; rw [hc]; simp [hv]
  | resetR r hr0 hr hs =>
    have hc : ∀ v, cnt c { s with pc := setPc s.pc r .asking } v = cnt c s v := fun v =>
      cnt_set hr _ v _ _ (by rw [hs]; simp) (by simp)
    have hpa : phaseA { s with pc := setPc s.pc r .asking } ↔ phaseA s := phaseA_other _ (by omega) _ _ _
    have h00 : setPc s.pc r .asking 0 = s.pc 0 := setPc_other _ _ (by omega)
    refine ⟨i1, i2, ?_, by simpa [h00] using i4, by simpa [h00] using iw, ?_, ?_, by simpa [h00] using i5⟩
    · intro q hq v hv
      by_cases hq0 : q = r
      · subst hq0; simp [setPc] at hv
      · exact i3 q hq v (by simpa [setPc, hq0] using hv)
    · intro hh
      obtain ⟨a, b⟩ := iA (hpa.mp hh)
      exact ⟨a, fun hg v hv => by rw [hc]; exact b hg v hv⟩
    · intro hh
      obtain ⟨pre, a, b⟩ := iB (fun h => hh (hpa.mpr h))
      exact ⟨pre, a, fun v hv => by rw [hc]; exact b v hv⟩
  | send r hr0 hr hs =>
    have hc : ∀ v, cnt c { s with pc := setPc s.pc r .waiting } v = cnt c s v := fun v =>
      cnt_set hr _ v _ _ (by rw [hs]; simp) (by simp)
    have hpa : phaseA { s with pc := setPc s.pc r .waiting } ↔ phaseA s := phaseA_other _ (by omega) _ _ _
    have h00 : setPc s.pc r .waiting 0 = s.pc 0 := setPc_other _ _ (by omega)
    refine ⟨i1, i2, ?_, by simpa [h00] using i4, by simpa [h00] using iw, ?_, ?_, by simpa [h00] using i5⟩
    · intro q hq v hv
      by_cases hq0 : q = r
      · subst hq0; simp [setPc] at hv
      · exact i3 q hq v (by simpa [setPc, hq0] using hv)
    · intro hh
      obtain ⟨a, b⟩ := iA (hpa.mp hh)
      exact ⟨a, fun hg v hv => by rw [hc]; exact b hg v hv⟩
    · intro hh
      obtain ⟨pre, a, b⟩ := iB (fun h => hh (hpa.mpr h))
      exact ⟨pre, a, fun v hv => by rw [hc]; exact b v hv⟩
  | take0 _ hs =>
    have hnA : ¬ phaseA s := by simp [phaseA, hs]
    obtain ⟨pre, p0, hb⟩ := iB hnA
    unfold useValue
    by_cases hlt : (mkBatch c s.la).laStart < c.laMax
    · rw [if_pos hlt]
      have hlt' : s.la < c.laMax := hlt
      refine ⟨Nat.dvd_add i1 (dvd_refl _), ?_, ?_, by simp [setPc], by simp [setPc], ?_, ?_, by simp [setPc]⟩
      · intro p hp
        rcases List.mem_cons.mp hp with rfl | hp
        · exact ⟨hR, rfl, hlt', i1⟩
        · exact i2 p hp
      · intro q hq v hv
        by_cases hq0 : q = 0
        · subst hq0; simp [setPc] at hv
        · exact i3 q hq v (by simpa [setPc, hq0] using hv)
      · intro hh; simp [phaseA, setPc] at hh
      · intro _
        refine ⟨pre, p0, fun v hv => ?_⟩
        have hfl := inFlight_set_eq hR s.pc .asking v (by rw [hs]; simp) (by simp)
        have := hb v hv
        simp only [cnt, hfl, logCount_cons, mkBatch_start] at this ⊢
        rw [if_congr (dvd_lt_add hB i1) rfl rfl]
        by_cases hv0 : v = s.la
        · subst hv0; simp at this ⊢; omega
        · have h2 : s.la ≠ v := fun h => hv0 h.symm
          simp only [h2, if_false, hv0, or_false] ; omega
    · rw [if_neg hlt]
      have hge : c.laMax ≤ s.la := Nat.le_of_not_lt hlt
      refine ⟨Nat.dvd_add i1 (dvd_refl _), i2, ?_, by simp [setPc], by simp [setPc], ?_, ?_, ?_⟩
      · intro q hq v hv
        by_cases hq0 : q = 0
        · subst hq0; simp [setPc] at hv
        · exact i3 q hq v (by simpa [setPc, hq0] using hv)
      · intro hh; simp [phaseA, setPc] at hh
      · intro _
        refine ⟨pre, p0, fun v hv => ?_⟩
        have hfl := inFlight_set_eq hR s.pc .finished v (by rw [hs]; simp) (by simp)
        have := hb v hv
        simp only [cnt, hfl] at this ⊢
        rw [if_congr (dvd_lt_add hB i1) rfl rfl]
        have hv0 : ¬ v = s.la := by omega
        simp only [hv0, or_false]; exact this
      · intro _; show c.laMax ≤ s.la + c.B; omega
  | serve r hr0 hr hs =>
    have hpa : phaseA { s with la := s.la + c.B, pc := setPc s.pc r (.replied s.la) } ↔ phaseA s :=
      phaseA_other _ (by omega) _ _ _
    have h00 : setPc s.pc r (.replied s.la) 0 = s.pc 0 := setPc_other _ _ (by omega)
    have hfl : ∀ v, inFlight c.R (setPc s.pc r (.replied s.la)) v
        = inFlight c.R s.pc v + (if v = s.la then 1 else 0) := by
      intro v
      have := inFlight_set hr s.pc (.replied s.la) v
      rw [hs] at this
      by_cases hv : v = s.la
      · subst hv; simpa using this
      · have h2 : ¬ s.la = v := fun h => hv h.symm
        simpa [hv, h2] using this
    refine ⟨Nat.dvd_add i1 (dvd_refl _), i2, ?_, by simpa [h00] using i4, by simpa [h00] using iw, ?_, ?_, ?_⟩
    · intro q hq v hv
      by_cases hq0 : q = r
      · subst hq0; simp [setPc] at hv; subst hv; exact i1
      · exact i3 q hq v (by simpa [setPc, hq0] using hv)
    · intro hh
      obtain ⟨a, b⟩ := iA (hpa.mp hh)
      refine ⟨fun hp => Nat.le_trans (a hp) (Nat.le_add_right _ _), fun hg v hv => ?_⟩
      have := b hg v hv
      rcases hg with hg | hg
      · have hv0 : ¬ v = s.la := by have := a hg; omega
        simp only [cnt, hfl, hv0, if_false] at this ⊢; exact this
      · omega
    · intro hh
      obtain ⟨pre, a, b⟩ := iB (fun h => hh (hpa.mpr h))
      refine ⟨pre, a, fun v hv => ?_⟩
      have := b v hv
      simp only [cnt, hfl] at this ⊢
      rw [if_congr (dvd_lt_add hB i1) rfl rfl]
      by_cases hv0 : v = s.la
      · subst hv0; simp at this ⊢; omega
      · simp only [hv0, if_false, or_false]; omega
    · intro h; change setPc s.pc r (.replied s.la) 0 = .finished at h; rw [h00] at h; show c.laMax ≤ s.la + c.B
      have := i5 h; omega
  | recv r v hr0 hr hs =>
    have hvB := i3 r hr v hs
    unfold useValue
    by_cases hlt : (mkBatch c v).laStart < c.laMax
    · rw [if_pos hlt]
      have hlt' : v < c.laMax := hlt
      have hpa : phaseA { s with pc := setPc s.pc r .asking, log := (r, mkBatch c v) :: s.log } ↔ phaseA s :=
        phaseA_other _ (by omega) _ _ _
      have h00 : setPc s.pc r .asking 0 = s.pc 0 := setPc_other _ _ (by omega)
      have hc : ∀ w, cnt c { s with pc := setPc s.pc r .asking, log := (r, mkBatch c v) :: s.log } w = cnt c s w := by
        intro w
        have := inFlight_set hr s.pc .asking w
        rw [hs] at this
        simp only [cnt, logCount_cons, mkBatch_start]
        by_cases hw : v = w
        · subst hw; simp at this ⊢; omega
        · simp [hw] at this ⊢; omega
      refine ⟨i1, ?_, ?_, by simpa [h00] using i4, by simpa [h00] using iw, ?_, ?_, by simpa [h00] using i5⟩
      · intro p hp
        rcases List.mem_cons.mp hp with rfl | hp
        · exact ⟨hr, rfl, hlt', hvB⟩
        · exact i2 p hp
      · intro q hq w hw
        by_cases hq0 : q = r
        · subst hq0; simp [setPc] at hw
        · exact i3 q hq w (by simpa [setPc, hq0] using hw)
      · intro hh
        obtain ⟨a, b⟩ := iA (hpa.mp hh)
        exact ⟨a, fun hg w hw => by rw [hc]; exact b hg w hw⟩
      · intro hh
        obtain ⟨pre, a, b⟩ := iB (fun h => hh (hpa.mpr h))
        exact ⟨pre, a, fun w hw => by rw [hc]; exact b w hw⟩
    · rw [if_neg hlt]
      have hge : c.laMax ≤ v := Nat.le_of_not_lt hlt
      have hpa : phaseA { s with pc := setPc s.pc r .finished } ↔ phaseA s :=
        phaseA_other _ (by omega) _ _ _
      have h00 : setPc s.pc r .finished 0 = s.pc 0 := setPc_other _ _ (by omega)
      have hc : ∀ w < c.laMax, cnt c { s with pc := setPc s.pc r .finished } w = cnt c s w := fun w hw =>
        cnt_set hr _ w _ _ (by rw [hs]; intro h; cases h; omega) (by simp)
      refine ⟨i1, i2, ?_, by simpa [h00] using i4, by simpa [h00] using iw, ?_, ?_, by simpa [h00] using i5⟩
      · intro q hq w hw
        by_cases hq0 : q = r
        · subst hq0; simp [setPc] at hw
        · exact i3 q hq w (by simpa [setPc, hq0] using hw)
      · intro hh
        obtain ⟨a, b⟩ := iA (hpa.mp hh)
        exact ⟨a, fun hg w hw => by rw [hc w hw]; exact b hg w hw⟩
      · intro hh
        obtain ⟨pre, a, b⟩ := iB (fun h => hh (hpa.mpr h))
        exact ⟨pre, a, fun w hw => by rw [hc w hw]; exact b w hw⟩

theorem dinv_next {c : DistCfg} (hR : 0 < c.R) {s t : DistState} (hi : DInv c s)
    (h : DistNext c s t) : DInv c t := by
  cases h with
  | barrier2 hs =>
    have hz : ∀ v, cnt c { s with pc := fun _ => .start, log := [], pass := s.pass + 1 } v = 0 := by
      intro v
      have := inFlight_zero (R := c.R) (pc := fun _ => RankPc.start) (v := v) (by simp)
      simp [cnt, this]; simp [logCount]
    exact ⟨hi.dvd, by simp, by simp, by simp, by simp,
      fun _ => ⟨fun _ => hi.fin (hs 0 hR), fun _ v _ => hz v⟩, fun h => absurd (.inl rfl) h, by simp⟩

theorem dinv_reach {c : DistCfg} (hB : 0 < c.B) (hR : 0 < c.R) {s : DistState} (h : DistReach c s) :
    DInv c s := by
  induction h with
  | init => exact dinv_init c
  | step _ h ih => exact dinv_step hB hR ih h
  | next _ h ih => exact dinv_next hR ih h

/-- Coverage of `w` by log batches equals the count of starts `(w / B) * B`. -/
theorem timesSolved_log {c : DistCfg} (hB : 0 < c.B) {l : List (Nat × WaveBatch)}
    (hl : ∀ p ∈ l, p.2 = mkBatch c p.2.laStart ∧ c.B ∣ p.2.laStart) {w : Nat} (hw : w < c.laMax) :
    timesSolved (l.map (·.2)) w = logCount l (c.B * (w / c.B)) := by
  induction l with
  | nil => rfl
  | cons x xs ih =>
    have ih := ih (fun p hp => hl p (List.mem_cons_of_mem _ hp))
    obtain ⟨h1, k, h2⟩ := hl x (List.mem_cons_self ..)
    rw [logCount_cons, ← ih]
    have key : (x.2.laStart ≤ w ∧ w < x.2.laEnd) ↔ x.2.laStart = c.B * (w / c.B) := by
      have he : x.2.laEnd = min (x.2.laStart + c.B) c.laMax := by rw [h1]; rfl
      have hd := Nat.div_add_mod w c.B
      have hm := Nat.mod_lt w hB
      rw [he, h2]
      constructor
      · rintro ⟨ha, hb⟩
        have hb' : w < c.B * k + c.B := by omega
        congr 1
        have l1 : k ≤ w / c.B := (Nat.le_div_iff_mul_le hB).mpr (by rw [Nat.mul_comm]; exact ha)
        have l2 : w / c.B < k + 1 := (Nat.div_lt_iff_lt_mul hB).mpr (by rw [Nat.add_mul, Nat.mul_comm k]; omega)
        omega
      · intro hk; rw [hk]; omega
    unfold timesSolved
    by_cases hk : x.2.laStart = c.B * (w / c.B)
    · have hd : decide (x.2.laStart ≤ w ∧ w < x.2.laEnd) = true := decide_eq_true (key.mpr hk)
      rw [if_pos hk, List.map_cons, List.filter_cons_of_pos (by exact hd), List.length_cons]; omega
    · have : ¬ (x.2.laStart ≤ w ∧ w < x.2.laEnd) := fun h => hk (key.mp h)
      simp [this, hk]

/-! ### termination -/

/-- batches still to hand out before the counter passes `laMax` -/
def remB (c : DistCfg) (la : Nat) : Nat := (c.laMax - la + c.B - 1) / c.B

def pcW (c : DistCfg) : RankPc → Nat
  | .start => 5
  | .released => 4
  | .asking => 3
  | .waiting => 2
  | .replied v => if v < c.laMax then 4 else 1
  | .finished => 0

theorem pw1 (c : DistCfg) : pcW c .start = 5 := rfl
theorem pw2 (c : DistCfg) : pcW c .released = 4 := rfl
theorem pw3 (c : DistCfg) : pcW c .asking = 3 := rfl
theorem pw4 (c : DistCfg) : pcW c .waiting = 2 := rfl
theorem pw5 (c : DistCfg) (v) : pcW c (.replied v) = if v < c.laMax then 4 else 1 := rfl
theorem pw6 (c : DistCfg) : pcW c .finished = 0 := rfl

instance (s : DistState) : Decidable (phaseA s) := by unfold phaseA; infer_instance

def distMeasure (c : DistCfg) (s : DistState) : Nat :=
  (∑ r ∈ range c.R, pcW c (s.pc r)) + 3 * (remB c s.la + if phaseA s then remB c 0 else 0)

theorem remB_zero {c : DistCfg} {la : Nat} (hB : 0 < c.B) (h : c.laMax ≤ la) : remB c la = 0 := by
  unfold remB; rw [Nat.sub_eq_zero_of_le h]; apply Nat.div_eq_of_lt; omega

theorem remB_step {c : DistCfg} {la : Nat} (hB : 0 < c.B) (h : la < c.laMax) :
    remB c (la + c.B) + 1 = remB c la := by
  unfold remB
  by_cases hc : la + c.B ≤ c.laMax
  · have : c.laMax - la + c.B - 1 = (c.laMax - (la + c.B) + c.B - 1) + c.B := by omega
    rw [this, Nat.add_div_right _ hB]
  · have h1 : (c.laMax - (la + c.B) + c.B - 1) / c.B = 0 := Nat.div_eq_of_lt (by omega)
    have h2 : c.laMax - la + c.B - 1 = (c.laMax - la - 1) + c.B := by omega
    rw [h1, h2, Nat.add_div_right _ hB, Nat.div_eq_of_lt (by omega)]

theorem measure_step {c : DistCfg} (hB : 0 < c.B) (hR : 0 < c.R) {s t : DistState} (h : DistStep c s t) :
    distMeasure c t < distMeasure c s := by
  have key : ∀ (r : Nat), r < c.R → ∀ p : RankPc, _ := fun r hr p => sum_setPc hr s.pc p (pcW c)
  unfold distMeasure
  cases h with
  | barrier1 hb hs =>
    have h1 : ∑ r ∈ range c.R, pcW c (s.pc r) = ∑ r ∈ range c.R, 5 :=
      Finset.sum_congr rfl fun r hr => by rw [hs r (mem_range.mp hr)]; rfl
    have h2 : ∑ r ∈ range c.R, pcW c RankPc.released = ∑ r ∈ range c.R, 4 := rfl
    have hA : phaseA s := .inl (hs 0 hR)
    have hA' : phaseA { s with pc := fun _ => RankPc.released } := .inr rfl
    simp only [h1, h2, sum_const, card_range, smul_eq_mul, hA, hA', if_true]; omega
  | enter r hb hr hs =>
    have k := key r hr .released
    rw [hs] at k
    have hA : phaseA { s with pc := setPc s.pc r .released } ↔ phaseA s := by
      by_cases h0 : r = 0
      · subst h0; exact ⟨fun _ => .inl hs, fun _ => .inr (by simp [setPc])⟩
      · exact phaseA_other _ (by omega) _ _ _
    simp only [hA]; simp only [pw1, pw2, pw3, pw4, pw5, pw6] at k; omega
  | reset0 _ hs =>
    have k := key 0 hR .asking
    rw [hs] at k
    have hA : phaseA s := .inr hs
    have hA' : ¬ phaseA { s with la := 0, pc := setPc s.pc 0 .asking } := by simp [phaseA, setPc]
    simp only [hA, hA', if_true, if_false]; simp only [pw1, pw2, pw3, pw4, pw5, pw6] at k; omega
  | resetR r hr0 hr hs =>
    have k := key r hr .asking
    rw [hs] at k
    have hA : phaseA { s with pc := setPc s.pc r .asking } ↔ phaseA s := phaseA_other _ (by omega) _ _ _
    simp only [hA]; simp only [pw1, pw2, pw3, pw4, pw5, pw6] at k; omega
  | send r hr0 hr hs =>
    have k := key r hr .waiting
    rw [hs] at k
    have hA : phaseA { s with pc := setPc s.pc r .waiting } ↔ phaseA s := phaseA_other _ (by omega) _ _ _
    simp only [hA]; simp only [pw1, pw2, pw3, pw4, pw5, pw6] at k; omega
  | take0 _ hs =>
    have hA : ¬ phaseA s := by simp [phaseA, hs]
    unfold useValue
    by_cases hlt : (mkBatch c s.la).laStart < c.laMax
    · rw [if_pos hlt]
      have k := key 0 hR .asking
      rw [hs] at k
      have hA' : ∀ l, ¬ phaseA { s with la := s.la + c.B, pc := setPc s.pc 0 .asking, log := l } := by simp [phaseA, setPc]
      have := remB_step hB (show s.la < c.laMax from hlt)
      simp only [hA, hA', if_false]; simp only [pw1, pw2, pw3, pw4, pw5, pw6] at k; omega
    · rw [if_neg hlt]
      have k := key 0 hR .finished
      rw [hs] at k
      have hA' : ¬ phaseA { s with la := s.la + c.B, pc := setPc s.pc 0 .finished } := by simp [phaseA, setPc]
      have hge : c.laMax ≤ s.la := Nat.le_of_not_lt hlt
      simp only [hA, hA', if_false, remB_zero hB hge, remB_zero hB (Nat.le_trans hge (Nat.le_add_right _ _))]
      simp only [pw1, pw2, pw3, pw4, pw5, pw6] at k; omega
  | serve r hr0 hr hs =>
    have k := key r hr (.replied s.la)
    rw [hs] at k
    have hA : phaseA { s with la := s.la + c.B, pc := setPc s.pc r (.replied s.la) } ↔ phaseA s :=
      phaseA_other _ (by omega) _ _ _
    simp only [hA]
    by_cases hlt : s.la < c.laMax
    · have := remB_step hB hlt
      simp only [pw1, pw2, pw3, pw4, pw5, pw6, hlt, if_true, if_false] at k; omega
    · have hge : c.laMax ≤ s.la := Nat.le_of_not_lt hlt
      simp only [remB_zero hB hge, remB_zero hB (Nat.le_trans hge (Nat.le_add_right _ _))]
      simp only [pw1, pw2, pw3, pw4, pw5, pw6, hlt, if_true, if_false] at k; omega
  | recv r v hr0 hr hs =>
    unfold useValue
    by_cases hlt : (mkBatch c v).laStart < c.laMax
    · rw [if_pos hlt]
      have k := key r hr .asking
      rw [hs] at k
      have hA : phaseA { s with pc := setPc s.pc r .asking, log := (r, mkBatch c v) :: s.log } ↔ phaseA s :=
        phaseA_other _ (by omega) _ _ _
      have : v < c.laMax := hlt
      simp only [hA]; simp only [pw1, pw2, pw3, pw4, pw5, pw6, this, if_true, if_false] at k; omega
    · rw [if_neg hlt]
      have k := key r hr .finished
      rw [hs] at k
      have hA : phaseA { s with pc := setPc s.pc r .finished } ↔ phaseA s := phaseA_other _ (by omega) _ _ _
      have : ¬ v < c.laMax := hlt
      simp only [hA]; simp only [pw1, pw2, pw3, pw4, pw5, pw6, this, if_true, if_false] at k; omega

end DexRT

namespace DexRT

theorem bar_inv {c : DistCfg} {s : DistState} (h : DistReach c s) (hb : c.bar s.pass = true) :
    (∀ r < c.R, s.pc r = .start) ∨ (∀ r < c.R, s.pc r ≠ .start) := by
  have upd : ∀ (s : DistState) (r : Nat) (p : RankPc), r < c.R → s.pc r ≠ .start → p ≠ .start →
      ((∀ r < c.R, s.pc r = .start) ∨ (∀ r < c.R, s.pc r ≠ .start)) →
      ((∀ q < c.R, setPc s.pc r p q = .start) ∨ (∀ q < c.R, setPc s.pc r p q ≠ .start)) := by
    intro s r p hr h1 h2 h
    rcases h with h | h
    · exact absurd (h r hr) h1
    · right
      intro q hq
      by_cases hqr : q = r
      · subst hqr; simpa [setPc] using h2
      · simpa [setPc, hqr] using h q hq
  induction h with
  | init => left; intro r _; rfl
  | next _ h _ => cases h; left; intro r _; rfl
  | @step s t hr h ih =>
    cases h with
    | barrier1 hb hs => right; intro r _; simp
    | enter r hb' hr hs => simp at hb; rw [hb] at hb'; simp at hb'
    | reset0 h0 hs => exact upd s 0 _ h0 (by rw [hs]; simp) (by simp) (ih hb)
    | resetR r h0 hr hs => exact upd s r _ hr (by rw [hs]; simp) (by simp) (ih hb)
    | send r h0 hr hs => exact upd s r _ hr (by rw [hs]; simp) (by simp) (ih hb)
    | serve r h0 hr hs => exact upd s r _ hr (by rw [hs]; simp) (by simp) (ih hb)
    | take0 h0 hs =>
      unfold useValue at hb ⊢
      split at hb
      · rename_i hh; rw [if_pos hh]; exact upd s 0 _ h0 (by rw [hs]; simp) (by simp) (ih hb)
      · rename_i hh; rw [if_neg hh]; exact upd s 0 _ h0 (by rw [hs]; simp) (by simp) (ih hb)
    | recv r v h0 hr hs =>
      unfold useValue at hb ⊢
      split at hb
      · rename_i hh; rw [if_pos hh]; exact upd s r _ hr (by rw [hs]; simp) (by simp) (ih hb)
      · rename_i hh; rw [if_neg hh]; exact upd s r _ hr (by rw [hs]; simp) (by simp) (ih hb)

theorem dist_progress {c : DistCfg} (hB : 0 < c.B) (hR : 0 < c.R) {s : DistState} (h : DistReach c s)
    {r : Nat} (hr : r < c.R) (hf : s.pc r ≠ .finished) : ∃ t, DistStep c s t := by
  have hi := dinv_reach hB hR h
  by_cases h0 : r = 0
  · subst h0
    rcases hp : s.pc 0 with _ | _ | _ | _ | v | _
    · cases hb : c.bar s.pass with
      | false => exact ⟨_, .enter s 0 hb hr hp⟩
      | true =>
        rcases bar_inv h hb with h1 | h1
        · exact ⟨_, .barrier1 s hb h1⟩
        · exact absurd hp (h1 0 hr)
    · exact ⟨_, .reset0 s hR hp⟩
    · exact ⟨_, .take0 s hR hp⟩
    · exact absurd hp hi.zerow
    · exact absurd hp (hi.zero v)
    · exact absurd hp hf
  · have hr0 : 0 < r := by omega
    rcases hp : s.pc r with _ | _ | _ | _ | v | _
    · cases hb : c.bar s.pass with
      | false => exact ⟨_, .enter s r hb hr hp⟩
      | true =>
        rcases bar_inv h hb with h1 | h1
        · exact ⟨_, .barrier1 s hb h1⟩
        · exact absurd hp (h1 r hr)
    · exact ⟨_, .resetR s r hr0 hr hp⟩
    · exact ⟨_, .send s r hr0 hr hp⟩
    · exact ⟨_, .serve s r hr0 hr hp⟩
    · exact ⟨_, .recv s r v hr0 hr hp⟩
    · exact absurd hp hf

theorem batchesOk_log {c : DistCfg} (hB : 0 < c.B) {l : List (Nat × WaveBatch)}
    (hl : ∀ p ∈ l, p.2 = mkBatch c p.2.laStart ∧ p.2.laStart < c.laMax) :
    BatchesOk c.laMax c.B (l.map (·.2)) := by
  intro b hb
  obtain ⟨p, hp, rfl⟩ := List.mem_map.mp hb
  obtain ⟨h1, h2⟩ := hl p hp
  have : p.2.laEnd = min (p.2.laStart + c.B) c.laMax := by rw [h1]; rfl
  omega

theorem cnt_le_one_B {c : DistCfg} {s : DistState} (hi : DInv c s) (hg : 0 < s.pass ∨ c.R = 1)
    {v : Nat} (hv : v < c.laMax) : cnt c s v ≤ 1 := by
  by_cases hA : phaseA s
  · rw [(hi.A hA).2 hg v hv]; omega
  · obtain ⟨pre, p0, hb⟩ := hi.Bp hA
    rw [hb v hv, p0 hg]; split <;> omega

/-! ### static mode -/

theorem timesSolved_append (a b : List WaveBatch) (w) :
    timesSolved (a ++ b) w = timesSolved a w + timesSolved b w := by simp [timesSolved]

theorem timesSolved_cons (x : WaveBatch) (l : List WaveBatch) (w) :
    timesSolved (x :: l) w = (if x.laStart ≤ w ∧ w < x.laEnd then 1 else 0) + timesSolved l w := by
  unfold timesSolved
  by_cases h : x.laStart ≤ w ∧ w < x.laEnd <;> simp [h]; omega

theorem covers_iff {B n a w : Nat} (hB : 0 < B) (hw : w < n) :
    (B * a ≤ w ∧ w < min (B * a + B) n) ↔ w / B = a := by
  rw [Nat.div_eq_iff hB]
  rw [Nat.mul_comm B a]
  omega

/-- the loop ends: with more fuel than wavelengths it always returns (`n + 1` iterations suffice) -/
theorem staticLoop_some (R B n : Nat) (hs : 0 < R * B) : ∀ fuel la, n < la + fuel → 0 < fuel →
    ∃ bs, staticLoop R B n fuel la = some bs
  | fuel + 1, la, h, _ => by
    unfold staticLoop
    by_cases hl : la < n
    · have hf : 0 < fuel := by omega
      obtain ⟨bs, hb⟩ := staticLoop_some R B n hs fuel (la + R * B) (by omega) hf
      exact ⟨_, by simp only [hl, if_true, hb, Option.map_some]; rfl⟩
    · exact ⟨[], by simp only [hl, if_false]⟩

theorem staticLoop_ok (R B n : Nat) (hB : 0 < B) : ∀ fuel la bs, staticLoop R B n fuel la = some bs →
    BatchesOk n B bs
  | 0, la, bs, h => by simp [staticLoop] at h
  | fuel + 1, la, bs, h => by
    unfold staticLoop at h
    by_cases hl : la < n
    · simp only [hl, if_true] at h
      obtain ⟨cs, hc, rfl⟩ := Option.map_eq_some_iff.mp h
      intro b hb
      rcases List.mem_cons.mp hb with rfl | hb
      · simp only; omega
      · exact staticLoop_ok R B n hB fuel _ cs hc b hb
    · simp only [hl, if_false] at h
      cases h; intro b hb; cases hb

theorem staticLoop_times (R B n w : Nat) (hB : 0 < B) (hR : 0 < R) (hw : w < n) :
    ∀ fuel a bs, staticLoop R B n fuel (B * a) = some bs →
    timesSolved bs w = if a ≤ w / B ∧ (w / B) % R = a % R then 1 else 0
  | 0, la, bs, h => by simp [staticLoop] at h
  | fuel + 1, a, bs, h => by
    unfold staticLoop at h
    by_cases hl : B * a < n
    · simp only [hl, if_true] at h
      obtain ⟨cs, hc, rfl⟩ := Option.map_eq_some_iff.mp h
      rw [show B * a + R * B = B * (a + R) by rw [Nat.mul_add, Nat.mul_comm R]] at hc
      rw [timesSolved_cons, staticLoop_times R B n w hB hR hw fuel _ cs hc, if_congr (covers_iff hB hw) rfl rfl]
      rw [Nat.add_mod_right]
      by_cases h1 : w / B = a
      · have : ¬ (a + R ≤ w / B) := by omega
        simp [h1]; omega
      · simp only [h1, if_false, Nat.zero_add]
        apply if_congr _ rfl rfl
        constructor
        · rintro ⟨x, y⟩; exact ⟨by omega, y⟩
        · rintro ⟨x, y⟩
          refine ⟨?_, y⟩
          by_contra hc
          have hlt : w / B - a < R := by omega
          have : (w / B - a) % R = 0 := by
            have e : w / B = a + (w / B - a) := by omega
            rw [e] at y
            have y' : (a + (w / B - a)) % R = (a + 0) % R := by simpa using y
            have := Nat.ModEq.add_left_cancel' a (show a + (w / B - a) ≡ a + 0 [MOD R] from y')
            simpa [Nat.ModEq] using this
          rw [Nat.mod_eq_of_lt hlt] at this; omega
    · simp only [hl, if_false] at h
      cases h
      have : w / B < a := (Nat.div_lt_iff_lt_mul hB).mpr (by rw [Nat.mul_comm]; omega)
      have : ¬ (a ≤ w / B) := by omega
      simp [timesSolved, this]

theorem givenLoop_eq (W n : Nat) : ∀ fuel la, givenLoop W n fuel la = staticLoop 1 W n fuel la
  | 0, _ => rfl
  | fuel + 1, la => by
    unfold givenLoop staticLoop
    rw [givenLoop_eq W n fuel, Nat.one_mul]

theorem timesSolved_flatMap (f : Nat → List WaveBatch) (w : Nat) : ∀ R,
    timesSolved ((List.range R).flatMap f) w = ∑ r ∈ Finset.range R, timesSolved (f r) w
  | 0 => rfl
  | R + 1 => by
    rw [List.range_succ, List.flatMap_append, timesSolved_append, timesSolved_flatMap f w R,
      Finset.sum_range_succ]
    simp

end DexRT
