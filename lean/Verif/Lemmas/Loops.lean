import Verif.Model.Loops
import Mathlib.Tactic.Linarith
import Mathlib.Tactic.Ring
import Mathlib.Tactic.Positivity
import Mathlib.Data.List.Nodup
/-! Helper lemmas for the loop model. -/
namespace DexRT

/-- plain product -/
def prodZ : List Int → Int
  | [] => 1
  | b :: bs => b * prodZ bs

theorem prodZ_pos : ∀ {bs : List Int}, (∀ b ∈ bs, 0 < b) → 0 < prodZ bs
  | [], _ => by simp [prodZ]
  | b :: bs, h => by
    have h1 := h b (by simp)
    have h2 := prodZ_pos (bs := bs) (fun x hx => h x (by simp [hx]))
    simp only [prodZ]; positivity

theorem foldl_mul (bs : List Int) (a : Int) : bs.foldl (· * ·) a = a * prodZ bs := by
  induction bs generalizing a with
  | nil => simp [prodZ]
  | cons b bs ih => simp only [List.foldl_cons, ih, prodZ]; ring

theorem numIter_eq (bs : List Int) : numIter bs = prodZ bs := by
  simp [numIter, foldl_mul]

theorem fitsI32_iff {v : Int} : fitsI32 v = true ↔ -2147483648 ≤ v ∧ v ≤ 2147483647 := by
  simp [fitsI32]

theorem prodI32_foldl : ∀ (bs : List Int) (a : Int), 0 < a → (∀ b ∈ bs, 0 < b) →
    a * prodZ bs ≤ i32Max →
    bs.foldl (fun acc x => do mulI32 (← acc) x) (Outcome.ok a) = .ok (a * prodZ bs)
  | [], a, _, _, _ => by simp [prodZ]
  | b :: bs, a, ha, h, hle => by
    have hb := h b (by simp)
    have hbs : ∀ x ∈ bs, 0 < x := fun x hx => h x (by simp [hx])
    have hp := prodZ_pos hbs
    simp only [prodZ] at hle
    have hab : 0 < a * b := by positivity
    have h1 : a * b * prodZ bs ≤ i32Max := by rw [mul_assoc]; exact hle
    have h2 : a * b ≤ i32Max := by nlinarith
    have h3 : fitsI32 (a * b) = true := by rw [fitsI32_iff]; simp only [i32Max] at h2; omega
    have := prodI32_foldl bs (a * b) hab hbs h1
    simp only [List.foldl_cons, Outcome.ok_bind, mulI32, h3, if_true] at this ⊢
    rw [this]; simp [prodZ, mul_assoc]

theorem prodI32_foldl_ub (bs : List Int) :
    bs.foldl (fun acc x => do mulI32 (← acc) x) (Outcome.ub) = (.ub : Outcome Int) := by
  induction bs with
  | nil => rfl
  | cons b bs ih => simpa using ih

theorem prodI32_foldl_over : ∀ (bs : List Int) (a : Int), 0 < a → a ≤ i32Max → (∀ b ∈ bs, 0 < b) →
    i32Max < a * prodZ bs →
    bs.foldl (fun acc x => do mulI32 (← acc) x) (Outcome.ok a) = .ub
  | [], a, _, hle, _, h => by simp [prodZ] at h; omega
  | b :: bs, a, ha, hle, h, hgt => by
    have hb := h b (by simp)
    have hbs : ∀ x ∈ bs, 0 < x := fun x hx => h x (by simp [hx])
    have hab : 0 < a * b := by positivity
    simp only [prodZ, ← mul_assoc] at hgt
    simp only [List.foldl_cons, Outcome.ok_bind, mulI32]
    by_cases h2 : a * b ≤ i32Max
    · have h3 : fitsI32 (a * b) = true := by rw [fitsI32_iff]; simp only [i32Max] at h2; omega
      have := prodI32_foldl_over bs (a * b) hab h2 hbs hgt
      simp only [mulI32] at this
      simpa [h3] using this
    · have h3 : fitsI32 (a * b) = false := by
        rw [Bool.eq_false_iff]; intro h; rw [fitsI32_iff] at h; simp only [i32Max] at h2; omega
      have := prodI32_foldl_ub bs
      simp only [mulI32] at this
      simpa [h3] using this

theorem prodI32_ok {b : Int} {bs : List Int} (h : ∀ x ∈ b :: bs, 0 < x)
    (hle : prodZ (b :: bs) ≤ i32Max) : prodI32 (b :: bs) = .ok (prodZ (b :: bs)) := by
  simp only [prodI32]
  rw [prodI32_foldl bs b (h b (by simp)) (fun x hx => h x (by simp [hx])) hle]; rfl

theorem prodI32_over {b : Int} {bs : List Int} (h : ∀ x ∈ b :: bs, 0 < x) (hb : b ≤ i32Max)
    (hgt : i32Max < prodZ (b :: bs)) : prodI32 (b :: bs) = .ub := by
  simp only [prodI32]
  exact prodI32_foldl_over bs b (h b (by simp)) hb (fun x hx => h x (by simp [hx])) hgt

theorem toI32_id {v : Int} (h : 0 ≤ v) (h2 : v ≤ i32Max) : toI32 v = v := by
  simp only [toI32, i32Max] at *; omega

/-- mixed-radix value of a tuple -/
def radixVal : List Int → List Int → Int
  | _ :: bs, k :: ks => k * prodZ bs + radixVal bs ks
  | _, _ => 0

/-- tuple inside the box -/
def Box : List Int → List Int → Prop
  | [], [] => True
  | b :: bs, k :: ks => 0 ≤ k ∧ k < b ∧ Box bs ks
  | _, _ => False

theorem radixVal_range : ∀ {bs ks : List Int}, Box bs ks → 0 ≤ radixVal bs ks ∧ radixVal bs ks < prodZ bs
  | [], [], _ => by simp [radixVal, prodZ]
  | b :: bs, k :: ks, ⟨h0, h1, h2⟩ => by
    obtain ⟨h3, h4⟩ := radixVal_range h2
    have hp : 0 < prodZ bs := by omega
    simp only [radixVal, prodZ]
    constructor
    · positivity
    · nlinarith
  | [], _ :: _, h => h.elim
  | _ :: _, [], h => h.elim

theorem radixVal_inj : ∀ {bs ks ls : List Int}, Box bs ks → Box bs ls →
    radixVal bs ks = radixVal bs ls → ks = ls
  | [], [], [], _, _, _ => rfl
  | b :: bs, k :: ks, l :: ls, ⟨h0, h1, h2⟩, ⟨g0, g1, g2⟩, he => by
    obtain ⟨h3, h4⟩ := radixVal_range h2
    obtain ⟨g3, g4⟩ := radixVal_range g2
    have hp : 0 < prodZ bs := by omega
    simp only [radixVal] at he
    have hk : k = l := by
      have e1 : (k * prodZ bs + radixVal bs ks) / prodZ bs = k := by
        rw [add_comm, Int.add_mul_ediv_right _ _ (by omega), Int.ediv_eq_zero_of_lt h3 h4]; omega
      have e2 : (l * prodZ bs + radixVal bs ls) / prodZ bs = l := by
        rw [add_comm, Int.add_mul_ediv_right _ _ (by omega), Int.ediv_eq_zero_of_lt g3 g4]; omega
      rw [← e1, he, e2]
    subst hk
    rw [radixVal_inj h2 g2 (by omega)]
  | [], _ :: _, _, h, _, _ => h.elim
  | _ :: _, [], _, h, _, _ => h.elim
  | [], [], _ :: _, _, h, _ => h.elim
  | _ :: _, _ :: _, [], _, h, _ => h.elim

theorem unpackGo_ok : ∀ (rest : List Int) (b0 i off : Int), (∀ b ∈ rest, 0 < b ∧ b ≤ i32Max) →
    b0 ≤ i32Max → prodZ rest ≤ i32Max →
    0 ≤ i - off → i - off < prodZ (b0 :: rest) →
    ∃ t, unpackGo rest i off = .ok t ∧ Box (b0 :: rest) t ∧ radixVal (b0 :: rest) t = i - off
  | [], b0, i, off, _, hb, _, h0, h1 => by
    simp only [prodZ, mul_one] at h1
    refine ⟨[i - off], ?_, ?_, ?_⟩
    · simp only [unpackGo]; rw [toI32_id h0 (by omega)]
    · simp [Box]; omega
    · simp [radixVal, prodZ]
  | b :: bs, b0, i, off, hr, hb, hp, h0, h1 => by
    have hpos : ∀ x ∈ b :: bs, 0 < x := fun x hx => (hr x hx).1
    have hpp := prodZ_pos hpos
    have hpbs := prodZ_pos (bs := bs) (fun x hx => hpos x (by simp [hx]))
    have hb1 := hr b (by simp)
    generalize hd : prodZ (b :: bs) = d at *
    have hdd : prodZ (b0 :: b :: bs) = b0 * d := by rw [← hd]; rfl
    rw [hdd] at h1
    have hk0 : 0 ≤ (i - off) / d := Int.ediv_nonneg h0 (by omega)
    have hk1 : (i - off) / d < b0 := Int.ediv_lt_of_lt_mul hpp h1
    have hem := Int.mul_ediv_add_emod (i - off) d
    have hm0 := Int.emod_nonneg (i - off) (b := d) (by omega)
    have hm1 := Int.emod_lt_of_pos (i - off) hpp
    have hk : toI32 ((i - off).tdiv d) = (i - off) / d := by
      rw [Int.tdiv_eq_ediv_of_nonneg h0, toI32_id hk0 (by omega)]
    have hbs2 : prodZ bs ≤ i32Max := by
      have : prodZ bs ≤ d := by rw [← hd]; simp only [prodZ]; nlinarith
      omega
    have hmm : (i - off) / d * d = d * ((i - off) / d) := mul_comm _ _
    obtain ⟨t, ht, hbox, hval⟩ := unpackGo_ok bs b i (off + (i - off) / d * d)
      (fun x hx => hr x (by simp [hx])) hb1.2 hbs2 (by omega) (by rw [hd]; omega)
    refine ⟨(i - off) / d :: t, ?_, ⟨hk0, hk1, hbox⟩, ?_⟩
    · have : prodI32 (b :: bs) = .ok d := by rw [← hd]; exact prodI32_ok hpos (by rw [hd]; exact hp)
      simp only [unpackGo, this, Outcome.ok_bind, hk, ht]
    · simp only [radixVal] at hval ⊢
      simp only [prodZ] at hd
      simp only [prodZ, hd]; rw [hval]; omega

theorem growBlocks_cover (lead trail : Nat) :
    lead * trail ≤ (growBlocks lead trail).1 * (growBlocks lead trail).2 := by
  induction lead, trail using growBlocks.induct with
  | case1 l t h ih =>
    rw [growBlocks, if_pos h]
    refine le_trans ?_ ih
    have : t ≤ 2 * ((t + 1) / 2) := by omega
    calc l * t ≤ l * (2 * ((t + 1) / 2)) := Nat.mul_le_mul_left _ this
      _ = l * 2 * ((t + 1) / 2) := by ring
  | case2 l t h => rw [growBlocks, if_neg h]

theorem capBlocks_cover (lead trail : Nat) :
    lead * trail ≤ (capBlocks lead trail).1 * (capBlocks lead trail).2 := by
  induction lead, trail using capBlocks.induct with
  | case1 l t h ih =>
    rw [capBlocks, if_pos h]
    refine le_trans ?_ ih
    have : l ≤ (l + 1) / 2 * 2 := by omega
    calc l * t ≤ (l + 1) / 2 * 2 * t := Nat.mul_le_mul_right _ this
      _ = (l + 1) / 2 * (t * 2) := by ring
  | case2 l t h => rw [capBlocks, if_neg h]

theorem fillBlocks_cover (lead trail : Nat) :
    lead * trail ≤ (fillBlocks lead trail).1 * (fillBlocks lead trail).2 := by
  induction lead, trail using fillBlocks.induct with
  | case1 l t h ih =>
    rw [fillBlocks, if_pos h]
    refine le_trans ?_ ih
    have : l ≤ (l + 1) / 2 * 2 := by omega
    calc l * t ≤ (l + 1) / 2 * 2 * t := Nat.mul_le_mul_right _ this
      _ = (l + 1) / 2 * (t * 2) := by ring
  | case2 l t h => rw [fillBlocks, if_neg h]

theorem balance_cover {b0 n : Nat} (hd : b0 ∣ n) :
    n ≤ (balanceWork b0 n).1 * (balanceWork b0 n).2 := by
  simp only [balanceWork]
  refine le_trans ?_ (fillBlocks_cover _ _)
  refine le_trans ?_ (capBlocks_cover _ _)
  refine le_trans ?_ (growBlocks_cover _ _)
  rw [Nat.mul_div_cancel' hd]

theorem capBlocks_lt (lead trail : Nat) : (capBlocks lead trail).1 < 8192 := by
  induction lead, trail using capBlocks.induct with
  | case1 l t h ih => rw [capBlocks, if_pos h]; exact ih
  | case2 l t h => rw [capBlocks, if_neg h]; show l < 8192; omega

theorem fillBlocks_le (lead trail : Nat) :
    (fillBlocks lead trail).1 ≤ lead := by
  induction lead, trail using fillBlocks.induct with
  | case1 l t h ih => rw [fillBlocks, if_pos h]; omega
  | case2 l t h => rw [fillBlocks, if_neg h]

theorem fillBlocks_work (lead trail : Nat) (h0 : 0 < trail) :
    128 ≤ (fillBlocks lead trail).2 := by
  induction lead, trail using fillBlocks.induct with
  | case1 l t h ih => rw [fillBlocks, if_pos h]; exact ih (by omega)
  | case2 l t h => rw [fillBlocks, if_neg h]; show 128 ≤ t; omega

theorem growBlocks_pos (lead trail : Nat) (h : 0 < trail) : 0 < (growBlocks lead trail).2 := by
  induction lead, trail using growBlocks.induct with
  | case1 l t h1 ih => rw [growBlocks, if_pos h1]; exact ih (by omega)
  | case2 l t h1 => rw [growBlocks, if_neg h1]; exact h

theorem capBlocks_pos (lead trail : Nat) (h : 0 < trail) : 0 < (capBlocks lead trail).2 := by
  induction lead, trail using capBlocks.induct with
  | case1 l t h1 ih => rw [capBlocks, if_pos h1]; exact ih (by omega)
  | case2 l t h1 => rw [capBlocks, if_neg h1]; exact h

/-- flat (block, thread) enumeration -/
theorem flatMap_filter_nodup (B T : Nat) (p : Nat → Bool) :
    ((List.range B).flatMap fun r => (List.range T).filterMap fun j =>
      if p (r * T + j) then some (r * T + j) else none).Nodup := by
  rw [List.nodup_flatMap]
  constructor
  · intro r _
    apply List.Nodup.filterMap _ List.nodup_range
    intro a b c h1 h2
    simp only [Option.mem_def] at h1 h2
    split at h1 <;> split at h2 <;> simp_all
    omega
  · have : List.Pairwise (fun a b => a ≠ b) (List.range B) := List.nodup_range
    refine this.imp ?_
    intro a b hab x hx hy
    simp only [List.mem_filterMap, List.mem_range] at hx hy
    obtain ⟨j, hj, h1⟩ := hx
    obtain ⟨k, hk, h2⟩ := hy
    split at h1 <;> split at h2 <;> simp_all
    have e1 : (a * T + j) / T = a := by
      rw [Nat.add_comm, Nat.add_mul_div_right _ _ (by omega), Nat.div_eq_of_lt hj]; omega
    have e2 : (b * T + k) / T = b := by
      rw [Nat.add_comm, Nat.add_mul_div_right _ _ (by omega), Nat.div_eq_of_lt hk]; omega
    apply hab
    rw [← e1, h1, ← h2, e2]

theorem mem_flatMap_filter {B T : Nat} {p : Nat → Bool} {x : Nat} :
    (x ∈ (List.range B).flatMap fun r => (List.range T).filterMap fun j =>
      if p (r * T + j) then some (r * T + j) else none) ↔ x < B * T ∧ p x = true := by
  simp only [List.mem_flatMap, List.mem_range, List.mem_filterMap]
  constructor
  · rintro ⟨r, hr, j, hj, h⟩
    split at h
    · rename_i hp
      simp only [Option.some.injEq] at h
      subst h
      refine ⟨?_, hp⟩
      calc r * T + j < r * T + T := by omega
        _ = (r + 1) * T := by ring
        _ ≤ B * T := Nat.mul_le_mul_right _ hr
    · simp at h
  · rintro ⟨h, hp⟩
    have hT : 0 < T := by rcases Nat.eq_zero_or_pos T with h0 | h0; · simp [h0] at h
                          · exact h0
    have he : x / T * T + x % T = x := by rw [mul_comm]; exact Nat.div_add_mod x T
    refine ⟨x / T, (Nat.div_lt_iff_lt_mul hT).2 h, x % T, Nat.mod_lt _ hT, ?_⟩
    rw [he, hp]; simp

end DexRT
