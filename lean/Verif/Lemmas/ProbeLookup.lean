import Verif.Model.ProbeLookup
import Verif.Lemmas.FormalSol2c
import Verif.Lemmas.FormalSol3c
/-! Helper lemmas for the probe lookup. -/
namespace DexRT.Lookup
open DexRT DexRT.Fs

/-- `dense_coord3` with the exact range of the products: `z * stride` stays in range for every plane. -/
theorem coord3_wide (W D H i : Nat) (hW0 : 0 < W) (hD0 : 0 < D) (hs : W * D ≤ 2147483647)
    (hcl : W * D * (H - 1) ≤ 2147483647) (hi : i < W * D * H) :
    Probes3.coord { sparse := false, np := { x := W, y := D, z := H }, active := [] } i =
      .ok { x := ((i % W : Nat) : Int), y := ((i / W % D : Nat) : Int), z := ((i / W / D : Nat) : Int) } := by
  have eWD : (W : Int) * D = ((W * D : Nat) : Int) := by push_cast; ring
  have hstride : mulI32 (W : Int) D = .ok ((W * D : Nat) : Int) := by
    unfold mulI32; rw [eWD, if_pos]; rw [fitsI32_iff]; omega
  have hm : i % W < W := Nat.mod_lt _ hW0
  have hyD : i / W % D < D := Nat.mod_lt _ hD0
  have hdm := Nat.div_add_mod i W
  have hdm2 := Nat.div_add_mod (i / W) D
  have htd : i / (W * D) = i / W / D := (Nat.div_div_eq_div_mul i W D).symm
  have hzH : i / W / D < H := by
    rw [← htd]; exact Nat.div_lt_of_lt_mul (by simpa [Nat.mul_comm, Nat.mul_left_comm] using hi)
  have etd : (i : Int).tdiv ((W * D : Nat) : Int) = ((i / W / D : Nat) : Int) := by
    rw [Int.tdiv_eq_ediv_of_nonneg (by omega), ← htd]; push_cast; rfl
  generalize hq : i / W = q at *
  generalize i % W = m at *
  generalize hz : q / D = z at *
  generalize q % D = y at *
  have hq2 : i = m + W * (y + D * z) := by rw [← hdm, ← hdm2]; ring
  have hzle : z * (W * D) ≤ 2147483647 := by
    refine le_trans ?_ hcl
    rw [Nat.mul_comm]; exact Nat.mul_le_mul_left _ (by omega)
  have hyle : W * y ≤ 2147483647 := le_trans (Nat.mul_le_mul_left _ hyD.le) hs
  have hoff : mulI32 (z : Int) ((W * D : Nat) : Int) = .ok ((z * (W * D) : Nat) : Int) := by
    unfold mulI32
    rw [show (z : Int) * ((W * D : Nat) : Int) = ((z * (W * D) : Nat) : Int) by push_cast; ring, if_pos]
    rw [fitsI32_iff]; omega
  have hremI : (i : Int) - ((z * (W * D) : Nat) : Int) = ((m + W * y : Nat) : Int) := by
    rw [hq2]; push_cast; ring
  have htd2 : (((m + W * y : Nat) : Int)).tdiv (W : Int) = (y : Int) := by
    rw [Int.tdiv_eq_ediv_of_nonneg (by omega)]
    have : (m + W * y) / W = y := mix_div hm
    rw [← Int.natCast_ediv, this]
  have ho2 : mulI32 (y : Int) (W : Int) = .ok ((W * y : Nat) : Int) := by
    unfold mulI32
    rw [show (y : Int) * (W : Int) = ((W * y : Nat) : Int) by push_cast; ring, if_pos]
    rw [fitsI32_iff]; omega
  unfold Probes3.coord
  simp only [Bool.false_eq_true, if_false]
  rw [hstride]
  simp only [Outcome.ok_bind, etd, hoff, hremI, htd2, ho2]
  congr 2
  push_cast at hremI
  push_cast
  linarith

/-- the first probe of the last plane: if `stride * (H-1)` is out of range, so is the kernel -/
theorem coord3_over (W D H : Nat) (hW0 : 0 < W) (hD0 : 0 < D) (hs : W * D ≤ 2147483647)
    (hcl : 2147483647 < W * D * (H - 1)) :
    Probes3.coord { sparse := false, np := { x := W, y := D, z := H }, active := [] } (W * D * (H - 1)) = .ub := by
  have eWD : (W : Int) * D = ((W * D : Nat) : Int) := by push_cast; ring
  have hstride : mulI32 (W : Int) D = .ok ((W * D : Nat) : Int) := by
    unfold mulI32; rw [eWD, if_pos]; rw [fitsI32_iff]; omega
  have etd : ((W * D * (H - 1) : Nat) : Int).tdiv ((W * D : Nat) : Int) = ((H - 1 : Nat) : Int) := by
    rw [Int.tdiv_eq_ediv_of_nonneg (by omega), ← Int.natCast_ediv,
      Nat.mul_div_cancel_left _ (Nat.mul_pos hW0 hD0)]
  have hoff : mulI32 ((H - 1 : Nat) : Int) ((W * D : Nat) : Int) = .ub := by
    unfold mulI32
    rw [show ((H - 1 : Nat) : Int) * ((W * D : Nat) : Int) = ((W * D * (H - 1) : Nat) : Int) by push_cast; ring, if_neg]
    rw [fitsI32_iff]; omega
  unfold Probes3.coord
  simp only [Bool.false_eq_true, if_false]
  rw [hstride]
  simp only [Outcome.ok_bind, etd, hoff, Outcome.ub_bind]

theorem forall₂_get {α β : Type} {R : α → β → Prop} {l : List α} {bs : List β} (h : List.Forall₂ R l bs) (i : Nat) (a : α)
    (ha : l[i]? = some a) : ∃ b, bs[i]? = some b ∧ R a b := by
  induction h generalizing i with
  | nil => simp at ha
  | @cons x y xs ys hxy _ ih =>
    cases i with
    | zero => simp at ha; subst ha; exact ⟨y, by simp, hxy⟩
    | succ i => simpa using ih i (by simpa using ha)

theorem dims2 (cfg : RcCfg) (c0 : Casc2) (n : Nat) :
    (cascadeSize cfg c0 n).np0 = probesOn c0.np0 n ∧ (cascadeSize cfg c0 n).np1 = probesOn c0.np1 n :=
  np_probesOn cfg c0 n

end DexRT.Lookup
