import Verif.Spec.Mipmap
import Verif.Lemmas.Sparse
import Verif.Props.MultiLevel
import Mathlib.Algebra.BigOperators.Ring.Finset
import Mathlib.Algebra.BigOperators.Group.Finset.Basic
import Mathlib.Tactic.Ring
import Mathlib.Tactic.Abel
/-! Lemmas for C34 and C35. -/
namespace DexRT

section generic
variable {F : Type} [Field F]

/-- A kernel whose iterations write disjointly from what they read. -/
theorem kernelLoop_sum {P : Type} (f : P → (Int → F) → Outcome (Int × F)) (key : P → Int)
    (rd : P → List Int) (scale : F) (l0 : List P)
    (hf : ∀ p ∈ l0, ∀ m, f p m = .ok (key p, ((rd p).map m).sum * scale))
    (hdis : ∀ p ∈ l0, ∀ q ∈ l0, key p ∉ rd q)
    (hinj : ∀ p ∈ l0, ∀ q ∈ l0, key q = key p → rd q = rd p) :
    ∀ (l : List P), l ⊆ l0 → ∀ m, ∃ m', kernelLoop f l m = .ok m' ∧
      (∀ k, (∀ p ∈ l, key p ≠ k) → m' k = m k) ∧
      (∀ p ∈ l, m' (key p) = ((rd p).map m).sum * scale) := by
  intro l
  induction l with
  | nil => intro _ m; exact ⟨m, rfl, fun _ _ => rfl, fun p hp => by simp at hp⟩
  | cons p ps ih =>
    intro hl m
    have hp := hl (List.mem_cons_self)
    have hps : ps ⊆ l0 := fun q hq => hl (List.mem_cons_of_mem _ hq)
    obtain ⟨m', e, h1, h2⟩ := ih hps (fun k' => if k' = key p then ((rd p).map m).sum * scale else m k')
    have hmap : ∀ q ∈ l0, (rd q).map (fun k' => if k' = key p then ((rd p).map m).sum * scale else m k') =
        (rd q).map m := by
      intro q hq
      refine List.map_congr_left fun a ha => ?_
      rw [if_neg]
      rintro rfl; exact hdis p hp q hq ha
    refine ⟨m', ?_, ?_, ?_⟩
    · unfold kernelLoop; rw [hf p hp]; exact e
    · intro k hk
      rw [h1 k (fun q hq => hk q (List.mem_cons_of_mem _ hq)),
        if_neg (fun h => hk p List.mem_cons_self h.symm)]
    · intro q hq
      have hq0 := hl hq
      by_cases hin : ∃ r ∈ ps, key r = key q
      · obtain ⟨r, hr, hrk⟩ := hin
        rw [← hrk, h2 r hr, hmap r (hps hr), hinj q hq0 r (hps hr) hrk]
      · rw [h1 (key q) (fun r hr hk => hin ⟨r, hr, hk⟩)]
        rcases List.mem_cons.1 hq with rfl | hq
        · rw [if_pos rfl]
        · exact absurd ⟨q, hq, rfl⟩ hin

end generic

/-- Storage facts of an accepted multi-resolution map: addresses are in range and (level, tile, offset)
can be read off an address. -/
theorem mip_storage (E k D : Nat) (hD : 0 < D) (numActive : Int) (hna : 0 ≤ numActive) (maxMip : Nat)
    (off : Nat → Int) (ho : mipOffsets E (2 ^ k) D numActive maxMip = .ok off) :
    (∀ l i b, l ≤ maxMip → 0 ≤ i → i < numActive → 0 ≤ b →
      b < (((2 ^ k) ^ D / (2 ^ l) ^ D : Nat) : Int) →
      0 ≤ mipLoopIdx (2 ^ k) D off l i b ∧
      mipLoopIdx (2 ^ k) D off l i b < mipBufferLen (2 ^ k) D numActive off maxMip) ∧
    (∀ l i b l' i' b', l ≤ maxMip → 0 ≤ i → i < numActive → 0 ≤ b →
      b < (((2 ^ k) ^ D / (2 ^ l) ^ D : Nat) : Int) → l' ≤ maxMip → 0 ≤ i' → i' < numActive → 0 ≤ b' →
      b' < (((2 ^ k) ^ D / (2 ^ l') ^ D : Nat) : Int) →
      mipLoopIdx (2 ^ k) D off l i b = mipLoopIdx (2 ^ k) D off l' i' b' → l = l' ∧ i = i' ∧ b = b') := by
  have hE : maxMip + 1 ≤ 2 ^ E - 1 := by
    by_contra h
    rw [C08_reject E _ D numActive maxMip (by omega)] at ho
    cases ho
  obtain ⟨off', ho', hr, hu⟩ := C08_storage E k D hD numActive hna maxMip hE
  rw [ho] at ho'; injection ho' with ho'; subst ho'
  refine ⟨fun l i b h1 h2 h3 h4 h5 => hr (l, i, b) ⟨h1, ⟨h2, h3⟩, h4, h5⟩, ?_⟩
  intro l i b l' i' b' h1 h2 h3 h4 h5 h1' h2' h3' h4' h5' he
  have c1 := hr (l, i, b) ⟨h1, ⟨h2, h3⟩, h4, h5⟩
  obtain ⟨q, _, hq⟩ := hu _ c1.1 c1.2
  have e1 := hq (l, i, b) ⟨⟨h1, ⟨h2, h3⟩, h4, h5⟩, rfl⟩
  have e2 := hq (l', i', b') ⟨⟨h1', ⟨h2', h3'⟩, h4', h5'⟩, he.symm⟩
  rw [← e2] at e1
  simpa using e1

theorem sum_pow_succ {F : Type} [AddCommMonoid F] (n : Nat) (g : Nat → F) :
    ∑ a ∈ Finset.range (2 ^ (n + 1)), g a =
      ∑ a ∈ Finset.range (2 ^ n), g a + ∑ a ∈ Finset.range (2 ^ n), g (2 ^ n + a) := by
  rw [pow_succ, mul_two, Finset.sum_range_add]

theorem w_level (k l : Nat) (h : l ≤ k) : ((2 ^ k) >>> l : Nat) = 2 ^ (k - l) := by
  rw [Nat.shiftRight_eq_div_pow, Nat.pow_div h (by omega)]

theorem w_mul (k l : Nat) (h : l ≤ k) : ((2 ^ (k - l) : Nat) : Int) * (2 ^ l : Nat) = (2 ^ k : Nat) := by
  rw [← Nat.cast_mul, ← pow_add, Nat.sub_add_cancel h]

section two
variable {F : Type} [Field F]

/-- Address of voxel (z, x) of tile number `i` at level `l`. -/
def A2 (k : Nat) (off : Nat → Int) (l : Nat) (i z x : Int) : Int :=
  mipLoopIdx (2 ^ k) 2 off l i (z * (2 ^ (k - l) : Nat) + x)

variable {E k nx nz : Nat} {Active : Coord2 → Prop} {mr : MRMap Coord2} {maxMip : Nat}

theorem MipMap2.na (h : MipMap2 E k nx nz Active mr maxMip) : 0 ≤ mr.bm.numActive := by
  rw [← h.map.numbering.count]; omega

theorem off_range (w z x : Int) (hz : 0 ≤ z) (hz' : z < w) (hx : 0 ≤ x) (hx' : x < w) :
    0 ≤ z * w + x ∧ z * w + x < w * w := by
  have h1 : 0 ≤ z * w := mul_nonneg hz (by omega)
  have h2 : (z + 1) * w ≤ w * w := mul_le_mul_of_nonneg_right (by omega) (by omega)
  rw [add_mul, one_mul] at h2
  omega

theorem off_inj (w z x z' x' : Int) (hx : 0 ≤ x) (hxw : x < w) (hx' : 0 ≤ x') (hxw' : x' < w)
    (e : z * w + x = z' * w + x') : z = z' ∧ x = x' := by
  have hw : 0 < w := by omega
  have g1 : (z * w + x) / w = z := by
    rw [add_comm, Int.add_mul_ediv_right _ _ (ne_of_gt hw), Int.ediv_eq_zero_of_lt hx hxw]; omega
  have g2 : (z' * w + x') / w = z' := by
    rw [add_comm, Int.add_mul_ediv_right _ _ (ne_of_gt hw), Int.ediv_eq_zero_of_lt hx' hxw']; omega
  have : z = z' := by rw [← g1, e, g2]
  subst this
  exact ⟨rfl, by omega⟩

theorem mipCells2 (k l : Nat) (h : l ≤ k) :
    (((2 ^ k) ^ 2 / (2 ^ l) ^ 2 : Nat) : Int) = ((2 ^ (k - l) : Nat) : Int) * (2 ^ (k - l) : Nat) := by
  rw [cells_level k 2 l (by omega), w_level k l h, pow_two, Nat.cast_mul]

theorem MipMap2.range (h : MipMap2 E k nx nz Active mr maxMip) (l : Nat) (hl : l ≤ maxMip) (i z x : Int)
    (hi : 0 ≤ i) (hi' : i < mr.bm.numActive) (hz : 0 ≤ z) (hz' : z < (2 ^ (k - l) : Nat)) (hx : 0 ≤ x)
    (hx' : x < (2 ^ (k - l) : Nat)) :
    0 ≤ A2 k mr.off l i z x ∧ A2 k mr.off l i z x < mipBufferLen (2 ^ k) 2 mr.bm.numActive mr.off maxMip := by
  have := (mip_storage E k 2 (by omega) _ h.na maxMip mr.off h.offs).1
  obtain ⟨o1, o2⟩ := off_range _ z x hz hz' hx hx'
  refine this l i _ hl hi hi' o1 ?_
  rw [mipCells2 k l (by have := h.levels; omega)]; exact o2

theorem MipMap2.inj (h : MipMap2 E k nx nz Active mr maxMip) (l l' : Nat) (hl : l ≤ maxMip)
    (hl' : l' ≤ maxMip) (i z x i' z' x' : Int)
    (hi : 0 ≤ i) (hi' : i < mr.bm.numActive) (hz : 0 ≤ z) (hz' : z < (2 ^ (k - l) : Nat)) (hx : 0 ≤ x)
    (hx' : x < (2 ^ (k - l) : Nat))
    (gi : 0 ≤ i') (gi' : i' < mr.bm.numActive) (gz : 0 ≤ z') (gz' : z' < (2 ^ (k - l') : Nat)) (gx : 0 ≤ x')
    (gx' : x' < (2 ^ (k - l') : Nat)) (e : A2 k mr.off l i z x = A2 k mr.off l' i' z' x') :
    l = l' ∧ i = i' ∧ z = z' ∧ x = x' := by
  have := (mip_storage E k 2 (by omega) _ h.na maxMip mr.off h.offs).2
  have hk := h.levels
  obtain ⟨o1, o2⟩ := off_range _ z x hz hz' hx hx'
  obtain ⟨o3, o4⟩ := off_range _ z' x' gz gz' gx gx'
  obtain ⟨e1, e2, e3⟩ := this l i _ l' i' _ hl hi hi' o1 (by rw [mipCells2 k l (by omega)]; exact o2) hl' gi gi' o3
    (by rw [mipCells2 k l' (by omega)]; exact o4) e
  subst e1
  obtain ⟨e4, e5⟩ := off_inj _ _ _ _ _ hx hx' gx gx' e3
  exact ⟨rfl, e2, e4, e5⟩

/-- Address of a data cell. -/
theorem MipMap2.idx (h : MipMap2 E k nx nz Active mr maxMip) (s : MIdxState Coord2)
    (hs : (mgeo2 (2 ^ k)).Inv mr s) (l : Nat) (hl : l ≤ maxMip) (t c : Coord2)
    (ht : GridTile2 (2 ^ k) (nx * (2 ^ k : Nat)) (nz * (2 ^ k : Nat)) t) (ha : Active t)
    (hc : InTile2 (2 ^ k) t c) :
    ∃ s', (mgeo2 (2 ^ k)).idx mr s l c = .ok (A2 k mr.off l (mr.bm.lookup t)
      ((c.z - t.z * (2 ^ k : Nat)) / (2 ^ l : Nat)) ((c.x - t.x * (2 ^ k : Nat)) / (2 ^ l : Nat)), s') ∧
      (mgeo2 (2 ^ k)).Inv mr s' := by
  have hB : 0 < 2 ^ k := Nat.two_pow_pos k
  have hti : (mgeo2 (2 ^ k)).tileOf c = t := (tileOf2_iff k c t).2 hc
  have hdim : (mgeo2 (2 ^ k)).inDims mr.bm.dims t = true := by
    rw [h.map.dims]; exact (grid2_iff (2 ^ k) nx nz hB t).1 ht
  obtain ⟨_, a2, _, _⟩ := (mgeo2 (2 ^ k)).idx_cases mr s hs l c
  rw [hti] at a2
  obtain ⟨s', h1, h2, _⟩ := a2 hdim (h.map.numbering.active t ht ha).1 (by have := h.store; omega)
  refine ⟨s', ?_, h2⟩
  rw [h1]
  show Outcome.ok (mipBase (2 ^ k) 2 mr.off l (mr.bm.lookup t) + mipInner2 (2 ^ k) l (innerOf2 (2 ^ k) c), s') = _
  have hti' : tileOf2 (2 ^ k) c = t := hti
  unfold A2 mipLoopIdx mipInner2 innerOf2
  rw [hti', Int.shiftRight_eq_div_pow, Int.shiftRight_eq_div_pow, w_level k l (by have := h.levels; omega)]

/-- Voxels read by one iteration of the level `l + 1` kernel. -/
def rd2 (k : Nat) (off : Nat → Int) (l : Nat) (p : Nat × Int) : List Int :=
  let w : Int := (2 ^ (k - (l + 1)) : Nat)
  let z := p.2 / w
  let x := p.2 % w
  [A2 k off l p.1 (2 * z) (2 * x), A2 k off l p.1 (2 * z) (2 * x + 1),
   A2 k off l p.1 (2 * z + 1) (2 * x), A2 k off l p.1 (2 * z + 1) (2 * x + 1)]

/-- Ranges of an iteration. -/
theorem MipMap2.iter (h : MipMap2 E k nx nz Active mr maxMip) (l : Nat) (hl : l ≤ maxMip) (p : Nat × Int)
    (hp : p ∈ mipIters (2 ^ k) 2 l mr.bm) :
    p.1 < mr.bm.activeTiles.length ∧ (p.1 : Int) < mr.bm.numActive ∧ 0 ≤ p.2 ∧
      p.2 < (((2 ^ k) ^ 2 / (2 ^ l) ^ 2 : Nat) : Int) ∧
      0 ≤ p.2 / (2 ^ (k - l) : Nat) ∧ p.2 / (2 ^ (k - l) : Nat) < (2 ^ (k - l) : Nat) ∧
      0 ≤ p.2 % (2 ^ (k - l) : Nat) ∧ p.2 % (2 ^ (k - l) : Nat) < (2 ^ (k - l) : Nat) ∧
      p.2 / (2 ^ (k - l) : Nat) * (2 ^ (k - l) : Nat) + p.2 % (2 ^ (k - l) : Nat) = p.2 := by
  obtain ⟨h1, h2, h3⟩ := (mem_loopIters _ _ p).1 hp
  have hc := h.map.numbering.count
  have hw : (0 : Int) < (2 ^ (k - l) : Nat) := by exact_mod_cast Nat.two_pow_pos (k - l)
  refine ⟨by omega, h1, h2, h3, Int.ediv_nonneg h2 hw.le, ?_, Int.emod_nonneg _ (ne_of_gt hw),
    Int.emod_lt_of_pos _ hw, ?_⟩
  · rw [mipCells2 k l (by have := h.levels; omega)] at h3
    exact Int.ediv_lt_of_lt_mul hw h3
  · rw [mul_comm]; exact Int.mul_ediv_add_emod _ _

theorem sub_div (l : Nat) (z d : Int) (hd : 0 ≤ d) (hd' : d < 2) :
    (z * (2 ^ (l + 1) : Nat) + d * (2 ^ l : Nat)) / (2 ^ l : Nat) = 2 * z + d := by
  have hp : (0 : Int) < (2 ^ l : Nat) := by exact_mod_cast Nat.two_pow_pos l
  rw [show z * ((2 ^ (l + 1) : Nat) : Int) + d * (2 ^ l : Nat) = (2 * z + d) * (2 ^ l : Nat) by
    rw [pow_succ]; push_cast; ring, Int.mul_ediv_cancel _ (ne_of_gt hp)]

/-- The sub-cell corner stays in the tile. -/
theorem sub_in (k l : Nat) (hl : l + 1 ≤ k) (z d : Int) (hz : 0 ≤ z) (hz' : z < (2 ^ (k - (l + 1)) : Nat))
    (hd : 0 ≤ d) (hd' : d < 2) :
    0 ≤ z * (2 ^ (l + 1) : Nat) + d * (2 ^ l : Nat) ∧
      z * (2 ^ (l + 1) : Nat) + d * (2 ^ l : Nat) < (2 ^ k : Nat) := by
  have hp : (0 : Int) < (2 ^ l : Nat) := by exact_mod_cast Nat.two_pow_pos l
  have e : ((2 ^ (l + 1) : Nat) : Int) = 2 * (2 ^ l : Nat) := by rw [pow_succ]; push_cast; ring
  have h2 : (z + 1) * (2 ^ (l + 1) : Nat) ≤ (2 ^ k : Nat) := by
    rw [← w_mul k (l + 1) hl]
    exact mul_le_mul_of_nonneg_right (by omega) (by omega)
  have h1 : 0 ≤ z * (2 ^ (l + 1) : Nat) := mul_nonneg hz (by omega)
  have h3 : 0 ≤ d * (2 ^ l : Nat) := mul_nonneg hd (by omega)
  have h4 : d * (2 ^ l : Nat) < 2 * (2 ^ l : Nat) := mul_lt_mul_of_pos_right hd' hp
  rw [add_mul, one_mul] at h2
  omega

theorem half_pow (l : Nat) : (2 : Int) ^ (l + 1) / 2 = (2 ^ l : Nat) := by
  rw [pow_succ, Int.mul_ediv_cancel _ (by omega)]; push_cast; rfl

theorem MipMap2.body (h : MipMap2 E k nx nz Active mr maxMip) (scale : F) (l : Nat) (hl : l + 1 ≤ maxMip)
    (p : Nat × Int) (hp : p ∈ mipIters (2 ^ k) 2 (l + 1) mr.bm) (m : Int → F) :
    mipBody2 (2 ^ k) mr (mipBufferLen (2 ^ k) 2 mr.bm.numActive mr.off maxMip) scale l p m =
      .ok (mipLoopIdx (2 ^ k) 2 mr.off (l + 1) p.1 p.2, ((rd2 k mr.off l p).map m).sum * scale) := by
  obtain ⟨hi, hi', hb0, hb1, hz0, hz1, hx0, hx1, hsum⟩ := h.iter (l + 1) hl p hp
  have hk := h.levels
  obtain ⟨g1, g2, g3⟩ := h.map.numbering.listed p.1 hi
  have hw := w_level k (l + 1) (by omega)
  set w : Int := ((2 ^ (k - (l + 1)) : Nat) : Int) with hwdef
  set t := decodeMorton2 mr.bm.activeTiles[p.1] with ht
  have hwl : ((2 ^ (k - l) : Nat) : Int) = 2 * w := by
    rw [hwdef, show k - l = (k - (l + 1)) + 1 by omega, pow_succ]; push_cast; ring
  have hcoord : mipLoopCoord2 (2 ^ k) mr.bm (l + 1) p.1 p.2 =
      .ok { x := t.x * (2 ^ k : Nat) + p.2 % w * (2 ^ (l + 1) : Nat),
            z := t.z * (2 ^ k : Nat) + p.2 / w * (2 ^ (l + 1) : Nat) } := by
    unfold mipLoopCoord2
    rw [List.getElem?_eq_getElem hi]
    simp only [mipTileInner2, hw, ← ht, ← hwdef]
    rw [Int.tdiv_eq_ediv_of_nonneg hb0, ← Int.emod_def]
    push_cast; rfl
  -- one sub-cell
  have sub : ∀ (s : MIdxState Coord2), (mgeo2 (2 ^ k)).Inv mr s → ∀ (c : Coord2) (dz dx : Int), 0 ≤ dz → dz < 2 →
      0 ≤ dx → dx < 2 →
      c.x = t.x * (2 ^ k : Nat) + (p.2 % w * (2 ^ (l + 1) : Nat) + dx * (2 ^ l : Nat)) →
      c.z = t.z * (2 ^ k : Nat) + (p.2 / w * (2 ^ (l + 1) : Nat) + dz * (2 ^ l : Nat)) →
      ∃ s', (mgeo2 (2 ^ k)).idx mr s l c =
        .ok (A2 k mr.off l p.1 (2 * (p.2 / w) + dz) (2 * (p.2 % w) + dx), s') ∧ (mgeo2 (2 ^ k)).Inv mr s' ∧
        0 ≤ A2 k mr.off l p.1 (2 * (p.2 / w) + dz) (2 * (p.2 % w) + dx) ∧
        A2 k mr.off l p.1 (2 * (p.2 / w) + dz) (2 * (p.2 % w) + dx) <
          mipBufferLen (2 ^ k) 2 mr.bm.numActive mr.off maxMip := by
    intro s hs c dz dx a1 a2 a3 a4 ex ez
    have rx := sub_in k l (by omega) (p.2 % w) dx hx0 hx1 a3 a4
    have rz := sub_in k l (by omega) (p.2 / w) dz hz0 hz1 a1 a2
    have hin : InTile2 (2 ^ k) t c := by
      unfold InTile2; simp only [add_mul, one_mul]; omega
    obtain ⟨s', e, hinv⟩ := h.idx s hs l (by omega) t c g1 g2 hin
    rw [ex, ez, show ∀ u v : Int, u + v - u = v by intros; ring, show ∀ u v : Int, u + v - u = v by intros; ring,
      sub_div l _ _ a1 a2, sub_div l _ _ a3 a4, g3] at e
    exact ⟨s', e, hinv, h.range l (by omega) _ _ _ (by omega) hi' (by omega) (by omega) (by omega) (by omega)⟩
  obtain ⟨s0, e0, i0, r0, r0'⟩ := sub _ ((mgeo2 (2 ^ k)).inv_fresh mr)
    { x := t.x * (2 ^ k : Nat) + p.2 % w * (2 ^ (l + 1) : Nat),
      z := t.z * (2 ^ k : Nat) + p.2 / w * (2 ^ (l + 1) : Nat) } 0 0 (by omega) (by omega) (by omega) (by omega)
    (by simp) (by simp)
  obtain ⟨s1, e1, i1, r1, r1'⟩ := sub s0 i0
    { x := t.x * (2 ^ k : Nat) + p.2 % w * (2 ^ (l + 1) : Nat) + (2 ^ l : Nat),
      z := t.z * (2 ^ k : Nat) + p.2 / w * (2 ^ (l + 1) : Nat) } 0 1 (by omega) (by omega) (by omega) (by omega)
    (by simp only; ring) (by simp)
  obtain ⟨s2, e2, i2, r2, r2'⟩ := sub s1 i1
    { x := t.x * (2 ^ k : Nat) + p.2 % w * (2 ^ (l + 1) : Nat),
      z := t.z * (2 ^ k : Nat) + p.2 / w * (2 ^ (l + 1) : Nat) + (2 ^ l : Nat) } 1 0 (by omega) (by omega) (by omega)
    (by omega) (by simp) (by simp only; ring)
  obtain ⟨s3, e3, i3, r3, r3'⟩ := sub s2 i2
    { x := t.x * (2 ^ k : Nat) + p.2 % w * (2 ^ (l + 1) : Nat) + (2 ^ l : Nat),
      z := t.z * (2 ^ k : Nat) + p.2 / w * (2 ^ (l + 1) : Nat) + (2 ^ l : Nat) } 1 1 (by omega) (by omega) (by omega)
    (by omega) (by simp only; ring) (by simp only; ring)
  have rk := (mip_storage E k 2 (by omega) _ h.na maxMip mr.off h.offs).1 (l + 1) p.1 p.2 hl (by omega) hi' hb0 hb1
  simp only [add_zero] at e0 e1 e2 e3 r0 r0' r1 r1' r2 r2' r3 r3'
  unfold mipBody2
  simp only [hcoord, Outcome.ok_bind, half_pow, e0, e1, e2, e3, mipRead, r0, r0', r1, r1', r2, r2', r3, r3',
    and_self, if_true, rk, not_true, if_false]
  congr 2
  simp only [rd2, ← hwdef, List.map_cons, List.map_nil, List.sum_cons, List.sum_nil]
  congr 1
  ring

/-- Sum of the base cells under voxel (z, x) of level `l`. -/
def boxSum2 (v : Int → Int → F) (l : Nat) (z x : Int) : F :=
  ∑ a ∈ Finset.range (2 ^ l), ∑ b ∈ Finset.range (2 ^ l),
    v (z * (2 ^ l : Nat) + a) (x * (2 ^ l : Nat) + b)

theorem boxSum2_succ (v : Int → Int → F) (l : Nat) (z x : Int) :
    boxSum2 v (l + 1) z x = boxSum2 v l (2 * z) (2 * x) + boxSum2 v l (2 * z) (2 * x + 1) +
      boxSum2 v l (2 * z + 1) (2 * x) + boxSum2 v l (2 * z + 1) (2 * x + 1) := by
  unfold boxSum2
  have e : ∀ (y : Int) (a : Nat), y * ((2 ^ (l + 1) : Nat) : Int) + a = 2 * y * (2 ^ l : Nat) + a := by
    intro y a; rw [pow_succ]; push_cast; ring
  have e' : ∀ (y : Int) (a : Nat), 2 * y * ((2 ^ l : Nat) : Int) + ((2 ^ l + a : Nat) : Int) =
      (2 * y + 1) * (2 ^ l : Nat) + a := by
    intro y a; push_cast; ring
  rw [sum_pow_succ]
  simp only [sum_pow_succ, e, e', Finset.sum_add_distrib]
  ac_rfl

/-- After `n` levels: every voxel up to level `n` holds `scale ^ l` times the sum of its base cells, and
nothing above level `n` has been touched. -/
theorem MipMap2.chain (h : MipMap2 E k nx nz Active mr maxMip) (scale : F) (sched : Nat → List (Nat × Int))
    (m0 : Int → F) : ∀ n, n ≤ maxMip → (∀ l < n, ∀ p, p ∈ sched l ↔ p ∈ mipIters (2 ^ k) 2 (l + 1) mr.bm) →
    ∃ m, mipChain2 (2 ^ k) mr (mipBufferLen (2 ^ k) 2 mr.bm.numActive mr.off maxMip) scale sched n m0 = .ok m ∧
      (∀ a, (∀ l < n, ∀ p ∈ mipIters (2 ^ k) 2 (l + 1) mr.bm, mipLoopIdx (2 ^ k) 2 mr.off (l + 1) p.1 p.2 ≠ a) →
        m a = m0 a) ∧
      ∀ l ≤ n, ∀ i z x : Int, 0 ≤ i → i < mr.bm.numActive → 0 ≤ z → z < (2 ^ (k - l) : Nat) → 0 ≤ x →
        x < (2 ^ (k - l) : Nat) →
        m (A2 k mr.off l i z x) = scale ^ l * boxSum2 (fun z x => m0 (A2 k mr.off 0 i z x)) l z x := by
  intro n
  induction n with
  | zero =>
    intro _ _
    refine ⟨m0, rfl, fun _ _ => rfl, ?_⟩
    intro l hl i z x _ _ _ _ _ _
    have : l = 0 := by omega
    subst this
    simp [boxSum2]
  | succ n ih =>
    intro hn hsched
    obtain ⟨m, e, hkeep, hval⟩ := ih (by omega) (fun l hl => hsched l (by omega))
    have hk := h.levels
    have hspec := hsched n (by omega)
    -- any iteration's voxel coordinates
    have hkey : ∀ p ∈ mipIters (2 ^ k) 2 (n + 1) mr.bm, mipLoopIdx (2 ^ k) 2 mr.off (n + 1) p.1 p.2 =
        A2 k mr.off (n + 1) p.1 (p.2 / (2 ^ (k - (n + 1)) : Nat)) (p.2 % (2 ^ (k - (n + 1)) : Nat)) := by
      intro p hp
      unfold A2
      rw [(h.iter (n + 1) hn p hp).2.2.2.2.2.2.2.2]
    have hwl : ((2 ^ (k - n) : Nat) : Int) = 2 * ((2 ^ (k - (n + 1)) : Nat) : Int) := by
      rw [show k - n = (k - (n + 1)) + 1 by omega, pow_succ]; push_cast; ring
    have hne : ∀ p ∈ mipIters (2 ^ k) 2 (n + 1) mr.bm, ∀ l ≤ n, ∀ i z x : Int, 0 ≤ i → i < mr.bm.numActive →
        0 ≤ z → z < (2 ^ (k - l) : Nat) → 0 ≤ x → x < (2 ^ (k - l) : Nat) →
        mipLoopIdx (2 ^ k) 2 mr.off (n + 1) p.1 p.2 ≠ A2 k mr.off l i z x := by
      intro p hp l hl i z x a1 a2 a3 a4 a5 a6 he
      obtain ⟨_, b2, _, _, b5, b6, b7, b8, _⟩ := h.iter (n + 1) hn p hp
      rw [hkey p hp] at he
      have := (h.inj (n + 1) l hn (by omega) _ _ _ _ _ _ (by omega) b2 b5 b6 b7 b8 a1 a2 a3 a4 a5 a6 he).1
      omega
    obtain ⟨m', e', h1, h2⟩ := kernelLoop_sum (mipBody2 (2 ^ k) mr
      (mipBufferLen (2 ^ k) 2 mr.bm.numActive mr.off maxMip) scale n)
      (fun p => mipLoopIdx (2 ^ k) 2 mr.off (n + 1) p.1 p.2) (rd2 k mr.off n) scale (sched n)
      (fun p hp m => h.body scale n hn p ((hspec p).1 hp) m)
      (by
        intro p hp q hq hmem
        obtain ⟨_, b2, _, _, b5, b6, b7, b8, _⟩ := h.iter (n + 1) hn q ((hspec q).1 hq)
        have hh := hne p ((hspec p).1 hp) n (le_refl _) q.1
        simp only [rd2, List.mem_cons, List.not_mem_nil, or_false] at hmem
        rcases hmem with he | he | he | he
        · exact hh _ _ (by omega) b2 (by omega) (by omega) (by omega) (by omega) he
        · exact hh _ _ (by omega) b2 (by omega) (by omega) (by omega) (by omega) he
        · exact hh _ _ (by omega) b2 (by omega) (by omega) (by omega) (by omega) he
        · exact hh _ _ (by omega) b2 (by omega) (by omega) (by omega) (by omega) he)
      (by
        intro p hp q hq he
        obtain ⟨_, b2, b3, b4, _⟩ := h.iter (n + 1) hn p ((hspec p).1 hp)
        obtain ⟨_, c2, c3, c4, _⟩ := h.iter (n + 1) hn q ((hspec q).1 hq)
        obtain ⟨_, d2, d3⟩ := (mip_storage E k 2 (by omega) _ h.na maxMip mr.off h.offs).2 (n + 1) q.1 q.2
          (n + 1) p.1 p.2 hn (by omega) c2 c3 c4 hn (by omega) b2 b3 b4 he
        unfold rd2; rw [d2, d3])
      (sched n) (List.Subset.refl _) m
    refine ⟨m', ?_, ?_, ?_⟩
    · show (mipChain2 _ _ _ _ _ n m0 >>= fun m' => kernelLoop _ (sched n) m') = _
      rw [e]; exact e'
    · intro a ha
      rw [h1 a (fun p hp => ha n (by omega) p ((hspec p).1 hp))]
      exact hkeep a (fun l hl => ha l (by omega))
    · intro l hl i z x a1 a2 a3 a4 a5 a6
      by_cases hln : l ≤ n
      · rw [h1 _ (fun p hp => hne p ((hspec p).1 hp) l hln i z x a1 a2 a3 a4 a5 a6)]
        exact hval l hln i z x a1 a2 a3 a4 a5 a6
      · have hl' : l = n + 1 := by omega
        subst hl'
        set w : Int := ((2 ^ (k - (n + 1)) : Nat) : Int) with hw
        have hw0 : 0 < w := by omega
        obtain ⟨o1, o2⟩ := off_range w z x a3 a4 a5 a6
        have hp : (i.toNat, z * w + x) ∈ mipIters (2 ^ k) 2 (n + 1) mr.bm := by
          refine (mem_loopIters _ _ _).2 ⟨by omega, o1, ?_⟩
          rw [mipCells2 k (n + 1) (by omega)]; exact o2
        have g1 : (z * w + x) / w = z := by
          rw [add_comm, Int.add_mul_ediv_right _ _ (ne_of_gt hw0), Int.ediv_eq_zero_of_lt a5 a6]; omega
        have g2 : (z * w + x) % w = x := by
          rw [add_comm, Int.add_mul_emod_self_right, Int.emod_eq_of_lt a5 a6]
        have := h2 _ ((hspec _).2 hp)
        simp only [rd2, ← hw, g1, g2, Int.toNat_of_nonneg a1, List.map_cons, List.map_nil, List.sum_cons,
          List.sum_nil] at this
        have hA : mipLoopIdx (2 ^ k) 2 mr.off (n + 1) i (z * w + x) = A2 k mr.off (n + 1) i z x := rfl
        rw [hA] at this
        rw [this, hval n (le_refl _) i _ _ a1 a2 (by omega) (by omega) (by omega) (by omega),
          hval n (le_refl _) i _ _ a1 a2 (by omega) (by omega) (by omega) (by omega),
          hval n (le_refl _) i _ _ a1 a2 (by omega) (by omega) (by omega) (by omega),
          hval n (le_refl _) i _ _ a1 a2 (by omega) (by omega) (by omega) (by omega), boxSum2_succ]
        ring

end two

section three
variable {F : Type} [Field F]

/-- Address of voxel (z, y, x) of tile number `i` at level `l`. -/
def A3 (k : Nat) (off : Nat → Int) (l : Nat) (i z y x : Int) : Int :=
  mipLoopIdx (2 ^ k) 3 off l i ((z * (2 ^ (k - l) : Nat) + y) * (2 ^ (k - l) : Nat) + x)

variable {E k nx ny nz : Nat} {Active : Coord3 → Prop} {mr : MRMap Coord3} {maxMip : Nat}

theorem MipMap3.na (h : MipMap3 E k nx ny nz Active mr maxMip) : 0 ≤ mr.bm.numActive := by
  rw [← h.map.numbering.count]; omega

theorem off_range3 (w z y x : Int) (hz : 0 ≤ z) (hz' : z < w) (hy : 0 ≤ y) (hy' : y < w) (hx : 0 ≤ x)
    (hx' : x < w) : 0 ≤ (z * w + y) * w + x ∧ (z * w + y) * w + x < w * w * w := by
  obtain ⟨a, b⟩ := off_range w z y hz hz' hy hy'
  have h1 : 0 ≤ (z * w + y) * w := mul_nonneg a (by omega)
  have h2 : (z * w + y + 1) * w ≤ w * w * w := mul_le_mul_of_nonneg_right (by omega) (by omega)
  rw [add_mul, one_mul] at h2
  omega

theorem mipCells3 (k l : Nat) (h : l ≤ k) :
    (((2 ^ k) ^ 3 / (2 ^ l) ^ 3 : Nat) : Int) =
      ((2 ^ (k - l) : Nat) : Int) * (2 ^ (k - l) : Nat) * (2 ^ (k - l) : Nat) := by
  rw [cells_level k 3 l (by omega), w_level k l h, pow_succ, pow_two, Nat.cast_mul, Nat.cast_mul]

theorem MipMap3.range (h : MipMap3 E k nx ny nz Active mr maxMip) (l : Nat) (hl : l ≤ maxMip) (i z y x : Int)
    (hi : 0 ≤ i) (hi' : i < mr.bm.numActive) (hz : 0 ≤ z) (hz' : z < (2 ^ (k - l) : Nat)) (hy : 0 ≤ y)
    (hy' : y < (2 ^ (k - l) : Nat)) (hx : 0 ≤ x) (hx' : x < (2 ^ (k - l) : Nat)) :
    0 ≤ A3 k mr.off l i z y x ∧
      A3 k mr.off l i z y x < mipBufferLen (2 ^ k) 3 mr.bm.numActive mr.off maxMip := by
  have := (mip_storage E k 3 (by omega) _ h.na maxMip mr.off h.offs).1
  obtain ⟨o1, o2⟩ := off_range3 _ z y x hz hz' hy hy' hx hx'
  refine this l i _ hl hi hi' o1 ?_
  rw [mipCells3 k l (by have := h.levels; omega)]; exact o2

theorem MipMap3.inj (h : MipMap3 E k nx ny nz Active mr maxMip) (l l' : Nat) (hl : l ≤ maxMip)
    (hl' : l' ≤ maxMip) (i z y x i' z' y' x' : Int)
    (hi : 0 ≤ i) (hi' : i < mr.bm.numActive) (hz : 0 ≤ z) (hz' : z < (2 ^ (k - l) : Nat)) (hy : 0 ≤ y)
    (hy' : y < (2 ^ (k - l) : Nat)) (hx : 0 ≤ x) (hx' : x < (2 ^ (k - l) : Nat))
    (gi : 0 ≤ i') (gi' : i' < mr.bm.numActive) (gz : 0 ≤ z') (gz' : z' < (2 ^ (k - l') : Nat)) (gy : 0 ≤ y')
    (gy' : y' < (2 ^ (k - l') : Nat)) (gx : 0 ≤ x')
    (gx' : x' < (2 ^ (k - l') : Nat)) (e : A3 k mr.off l i z y x = A3 k mr.off l' i' z' y' x') :
    l = l' ∧ i = i' ∧ z = z' ∧ y = y' ∧ x = x' := by
  have := (mip_storage E k 3 (by omega) _ h.na maxMip mr.off h.offs).2
  have hk := h.levels
  obtain ⟨o1, o2⟩ := off_range3 _ z y x hz hz' hy hy' hx hx'
  obtain ⟨o3, o4⟩ := off_range3 _ z' y' x' gz gz' gy gy' gx gx'
  obtain ⟨e1, e2, e3⟩ := this l i _ l' i' _ hl hi hi' o1 (by rw [mipCells3 k l (by omega)]; exact o2) hl' gi gi' o3
    (by rw [mipCells3 k l' (by omega)]; exact o4) e
  subst e1
  obtain ⟨e4, e5⟩ := off_inj _ _ _ _ _ hx hx' gx gx' e3
  obtain ⟨e6, e7⟩ := off_inj _ _ _ _ _ hy hy' gy gy' e4
  exact ⟨rfl, e2, e6, e7, e5⟩

/-- Address of a data cell. -/
theorem MipMap3.idx (h : MipMap3 E k nx ny nz Active mr maxMip) (s : MIdxState Coord3)
    (hs : (mgeo3 (2 ^ k)).Inv mr s) (l : Nat) (hl : l ≤ maxMip) (t c : Coord3)
    (ht : GridTile3 (2 ^ k) (nx * (2 ^ k : Nat)) (ny * (2 ^ k : Nat)) (nz * (2 ^ k : Nat)) t) (ha : Active t)
    (hc : InTile3 (2 ^ k) t c) :
    ∃ s', (mgeo3 (2 ^ k)).idx mr s l c = .ok (A3 k mr.off l (mr.bm.lookup t)
      ((c.z - t.z * (2 ^ k : Nat)) / (2 ^ l : Nat)) ((c.y - t.y * (2 ^ k : Nat)) / (2 ^ l : Nat))
      ((c.x - t.x * (2 ^ k : Nat)) / (2 ^ l : Nat)), s') ∧
      (mgeo3 (2 ^ k)).Inv mr s' := by
  have hB : 0 < 2 ^ k := Nat.two_pow_pos k
  have hti : (mgeo3 (2 ^ k)).tileOf c = t := (tileOf3_iff k c t).2 hc
  have hdim : (mgeo3 (2 ^ k)).inDims mr.bm.dims t = true := by
    rw [h.map.dims]; exact (grid3_iff (2 ^ k) nx ny nz hB t).1 ht
  obtain ⟨_, a2, _, _⟩ := (mgeo3 (2 ^ k)).idx_cases mr s hs l c
  rw [hti] at a2
  obtain ⟨s', h1, h2, _⟩ := a2 hdim (h.map.numbering.active t ht ha).1 (by have := h.store; omega)
  refine ⟨s', ?_, h2⟩
  rw [h1]
  show Outcome.ok (mipBase (2 ^ k) 3 mr.off l (mr.bm.lookup t) + mipInner3 (2 ^ k) l (innerOf3 (2 ^ k) c), s') = _
  have hti' : tileOf3 (2 ^ k) c = t := hti
  unfold A3 mipLoopIdx mipInner3 innerOf3
  rw [hti', Int.shiftRight_eq_div_pow, Int.shiftRight_eq_div_pow, Int.shiftRight_eq_div_pow,
    w_level k l (by have := h.levels; omega)]

/-- z, y, x of an in-tile offset. -/
def vz3 (w b : Int) : Int := b / (w * w)
def vy3 (w b : Int) : Int := (b - b / (w * w) * (w * w)) / w
def vx3 (w b : Int) : Int := b - (b / (w * w) * (w * w) + (b - b / (w * w) * (w * w)) / w * w)

theorem v3_spec (w b : Int) (hw : 0 < w) (hb : 0 ≤ b) (hb' : b < w * w * w) :
    (0 ≤ vz3 w b ∧ vz3 w b < w) ∧ (0 ≤ vy3 w b ∧ vy3 w b < w) ∧ (0 ≤ vx3 w b ∧ vx3 w b < w) ∧
      (vz3 w b * w + vy3 w b) * w + vx3 w b = b := by
  have hww : 0 < w * w := by positivity
  have e := Int.mul_ediv_add_emod b (w * w)
  have l := Int.emod_nonneg b (ne_of_gt hww)
  have u := Int.emod_lt_of_pos b hww
  have er : b - b / (w * w) * (w * w) = b % (w * w) := by rw [Int.emod_def, mul_comm]
  have e2 := Int.mul_ediv_add_emod (b % (w * w)) w
  have l2 := Int.emod_nonneg (b % (w * w)) (ne_of_gt hw)
  have u2 := Int.emod_lt_of_pos (b % (w * w)) hw
  unfold vz3 vy3 vx3
  rw [er]
  refine ⟨⟨Int.ediv_nonneg hb hww.le, Int.ediv_lt_of_lt_mul hww (by rw [← mul_assoc]; exact hb')⟩,
    ⟨Int.ediv_nonneg l hw.le, Int.ediv_lt_of_lt_mul hw u⟩, ?_, by ring⟩
  have : b - (b / (w * w) * (w * w) + b % (w * w) / w * w) = b % (w * w) % w := by
    rw [mul_comm (b % (w * w) / w) w]; linarith [er]
  rw [this]; exact ⟨l2, u2⟩

theorem v3_of (w z y x : Int) (hw : 0 < w) (hz : 0 ≤ z) (hz' : z < w) (hy : 0 ≤ y) (hy' : y < w) (hx : 0 ≤ x)
    (hx' : x < w) : vz3 w ((z * w + y) * w + x) = z ∧ vy3 w ((z * w + y) * w + x) = y ∧
      vx3 w ((z * w + y) * w + x) = x := by
  obtain ⟨o1, o2⟩ := off_range3 w z y x hz hz' hy hy' hx hx'
  obtain ⟨⟨a1, a2⟩, ⟨a3, a4⟩, ⟨a5, a6⟩, a7⟩ := v3_spec w _ hw o1 o2
  obtain ⟨e1, e2⟩ := off_inj w _ _ _ _ a5 a6 hx hx' a7
  obtain ⟨e3, e4⟩ := off_inj w _ _ _ _ a3 a4 hy hy' e1
  exact ⟨e3, e4, e2⟩

/-- Voxels read by one iteration of the level `l + 1` kernel. -/
def rd3 (k : Nat) (off : Nat → Int) (l : Nat) (p : Nat × Int) : List Int :=
  let w : Int := (2 ^ (k - (l + 1)) : Nat)
  let z := vz3 w p.2
  let y := vy3 w p.2
  let x := vx3 w p.2
  [A3 k off l p.1 (2 * z) (2 * y) (2 * x), A3 k off l p.1 (2 * z) (2 * y) (2 * x + 1),
   A3 k off l p.1 (2 * z) (2 * y + 1) (2 * x), A3 k off l p.1 (2 * z) (2 * y + 1) (2 * x + 1),
   A3 k off l p.1 (2 * z + 1) (2 * y) (2 * x), A3 k off l p.1 (2 * z + 1) (2 * y) (2 * x + 1),
   A3 k off l p.1 (2 * z + 1) (2 * y + 1) (2 * x), A3 k off l p.1 (2 * z + 1) (2 * y + 1) (2 * x + 1)]

/-- Ranges of an iteration. -/
theorem MipMap3.iter (h : MipMap3 E k nx ny nz Active mr maxMip) (l : Nat) (hl : l ≤ maxMip) (p : Nat × Int)
    (hp : p ∈ mipIters (2 ^ k) 3 l mr.bm) :
    p.1 < mr.bm.activeTiles.length ∧ (p.1 : Int) < mr.bm.numActive ∧ 0 ≤ p.2 ∧
      p.2 < (((2 ^ k) ^ 3 / (2 ^ l) ^ 3 : Nat) : Int) ∧
      (0 ≤ vz3 (2 ^ (k - l) : Nat) p.2 ∧ vz3 (2 ^ (k - l) : Nat) p.2 < (2 ^ (k - l) : Nat)) ∧
      (0 ≤ vy3 (2 ^ (k - l) : Nat) p.2 ∧ vy3 (2 ^ (k - l) : Nat) p.2 < (2 ^ (k - l) : Nat)) ∧
      (0 ≤ vx3 (2 ^ (k - l) : Nat) p.2 ∧ vx3 (2 ^ (k - l) : Nat) p.2 < (2 ^ (k - l) : Nat)) ∧
      (vz3 (2 ^ (k - l) : Nat) p.2 * (2 ^ (k - l) : Nat) + vy3 (2 ^ (k - l) : Nat) p.2) * (2 ^ (k - l) : Nat) +
        vx3 (2 ^ (k - l) : Nat) p.2 = p.2 := by
  obtain ⟨h1, h2, h3⟩ := (mem_loopIters _ _ p).1 hp
  have hc := h.map.numbering.count
  have hw : (0 : Int) < (2 ^ (k - l) : Nat) := by exact_mod_cast Nat.two_pow_pos (k - l)
  refine ⟨by omega, h1, h2, h3, ?_⟩
  rw [mipCells3 k l (by have := h.levels; omega)] at h3
  exact v3_spec _ _ hw h2 h3

theorem MipMap3.body (h : MipMap3 E k nx ny nz Active mr maxMip) (scale : F) (l : Nat) (hl : l + 1 ≤ maxMip)
    (p : Nat × Int) (hp : p ∈ mipIters (2 ^ k) 3 (l + 1) mr.bm) (m : Int → F) :
    mipBody3 (2 ^ k) mr (mipBufferLen (2 ^ k) 3 mr.bm.numActive mr.off maxMip) scale l p m =
      .ok (mipLoopIdx (2 ^ k) 3 mr.off (l + 1) p.1 p.2, ((rd3 k mr.off l p).map m).sum * scale) := by
  obtain ⟨hi, hi', hb0, hb1, ⟨hz0, hz1⟩, ⟨hy0, hy1⟩, ⟨hx0, hx1⟩, hsum⟩ := h.iter (l + 1) hl p hp
  have hk := h.levels
  obtain ⟨g1, g2, g3⟩ := h.map.numbering.listed p.1 hi
  have hw := w_level k (l + 1) (by omega)
  set w : Int := ((2 ^ (k - (l + 1)) : Nat) : Int) with hwdef
  have hwpos : 0 < w := by rw [hwdef]; exact_mod_cast Nat.two_pow_pos (k - (l + 1))
  set t := decodeMorton3 mr.bm.activeTiles[p.1] with ht
  have hwl : ((2 ^ (k - l) : Nat) : Int) = 2 * w := by
    rw [hwdef, show k - l = (k - (l + 1)) + 1 by omega, pow_succ]; push_cast; ring
  have hcoord : mipLoopCoord3 (2 ^ k) mr.bm (l + 1) p.1 p.2 =
      .ok { x := t.x * (2 ^ k : Nat) + vx3 w p.2 * (2 ^ (l + 1) : Nat),
            y := t.y * (2 ^ k : Nat) + vy3 w p.2 * (2 ^ (l + 1) : Nat),
            z := t.z * (2 ^ k : Nat) + vz3 w p.2 * (2 ^ (l + 1) : Nat) } := by
    unfold mipLoopCoord3
    rw [List.getElem?_eq_getElem hi]
    have hr : 0 ≤ p.2 - p.2 / (w * w) * (w * w) := by
      have := Int.emod_nonneg p.2 (ne_of_gt (mul_pos hwpos hwpos))
      rw [Int.emod_def, mul_comm (w * w)] at this; exact this
    simp only [mipTileInner3, hw, ← ht, ← hwdef]
    rw [Int.tdiv_eq_ediv_of_nonneg hb0, Int.tdiv_eq_ediv_of_nonneg hr]
    unfold vx3 vy3 vz3
    push_cast; rfl
  -- one sub-cell
  have sub : ∀ (s : MIdxState Coord3), (mgeo3 (2 ^ k)).Inv mr s → ∀ (c : Coord3) (dz dy dx : Int), 0 ≤ dz → dz < 2 →
      0 ≤ dy → dy < 2 → 0 ≤ dx → dx < 2 →
      c.x = t.x * (2 ^ k : Nat) + (vx3 w p.2 * (2 ^ (l + 1) : Nat) + dx * (2 ^ l : Nat)) →
      c.y = t.y * (2 ^ k : Nat) + (vy3 w p.2 * (2 ^ (l + 1) : Nat) + dy * (2 ^ l : Nat)) →
      c.z = t.z * (2 ^ k : Nat) + (vz3 w p.2 * (2 ^ (l + 1) : Nat) + dz * (2 ^ l : Nat)) →
      ∃ s', (mgeo3 (2 ^ k)).idx mr s l c =
        .ok (A3 k mr.off l p.1 (2 * vz3 w p.2 + dz) (2 * vy3 w p.2 + dy) (2 * vx3 w p.2 + dx), s') ∧
        (mgeo3 (2 ^ k)).Inv mr s' ∧
        0 ≤ A3 k mr.off l p.1 (2 * vz3 w p.2 + dz) (2 * vy3 w p.2 + dy) (2 * vx3 w p.2 + dx) ∧
        A3 k mr.off l p.1 (2 * vz3 w p.2 + dz) (2 * vy3 w p.2 + dy) (2 * vx3 w p.2 + dx) <
          mipBufferLen (2 ^ k) 3 mr.bm.numActive mr.off maxMip := by
    intro s hs c dz dy dx a1 a2 a5 a6 a3 a4 ex ey ez
    have rx := sub_in k l (by omega) (vx3 w p.2) dx hx0 hx1 a3 a4
    have ry := sub_in k l (by omega) (vy3 w p.2) dy hy0 hy1 a5 a6
    have rz := sub_in k l (by omega) (vz3 w p.2) dz hz0 hz1 a1 a2
    have hin : InTile3 (2 ^ k) t c := by
      unfold InTile3; simp only [add_mul, one_mul]; omega
    obtain ⟨s', e, hinv⟩ := h.idx s hs l (by omega) t c g1 g2 hin
    rw [ex, ey, ez, show ∀ u v : Int, u + v - u = v by intros; ring, show ∀ u v : Int, u + v - u = v by intros; ring,
      show ∀ u v : Int, u + v - u = v by intros; ring,
      sub_div l _ _ a1 a2, sub_div l _ _ a3 a4, sub_div l _ _ a5 a6, g3] at e
    exact ⟨s', e, hinv, h.range l (by omega) _ _ _ _ (by omega) hi' (by omega) (by omega) (by omega) (by omega)
      (by omega) (by omega)⟩
  obtain ⟨s0, e0, i0, r0, r0'⟩ := sub _ ((mgeo3 (2 ^ k)).inv_fresh mr)
    { x := t.x * (2 ^ k : Nat) + vx3 w p.2 * (2 ^ (l + 1) : Nat),
      y := t.y * (2 ^ k : Nat) + vy3 w p.2 * (2 ^ (l + 1) : Nat),
      z := t.z * (2 ^ k : Nat) + vz3 w p.2 * (2 ^ (l + 1) : Nat) } 0 0 0 (by omega) (by omega) (by omega) (by omega) (by omega) (by omega)
    (by simp) (by simp) (by simp)
  obtain ⟨s1, e1, i1, r1, r1'⟩ := sub s0 i0
    { x := t.x * (2 ^ k : Nat) + vx3 w p.2 * (2 ^ (l + 1) : Nat) + (2 ^ l : Nat),
      y := t.y * (2 ^ k : Nat) + vy3 w p.2 * (2 ^ (l + 1) : Nat),
      z := t.z * (2 ^ k : Nat) + vz3 w p.2 * (2 ^ (l + 1) : Nat) } 0 0 1 (by omega) (by omega) (by omega) (by omega) (by omega) (by omega)
    (by simp only; ring) (by simp) (by simp)
  obtain ⟨s2, e2, i2, r2, r2'⟩ := sub s1 i1
    { x := t.x * (2 ^ k : Nat) + vx3 w p.2 * (2 ^ (l + 1) : Nat),
      y := t.y * (2 ^ k : Nat) + vy3 w p.2 * (2 ^ (l + 1) : Nat) + (2 ^ l : Nat),
      z := t.z * (2 ^ k : Nat) + vz3 w p.2 * (2 ^ (l + 1) : Nat) } 0 1 0 (by omega) (by omega) (by omega) (by omega) (by omega) (by omega)
    (by simp) (by simp only; ring) (by simp)
  obtain ⟨s3, e3, i3, r3, r3'⟩ := sub s2 i2
    { x := t.x * (2 ^ k : Nat) + vx3 w p.2 * (2 ^ (l + 1) : Nat) + (2 ^ l : Nat),
      y := t.y * (2 ^ k : Nat) + vy3 w p.2 * (2 ^ (l + 1) : Nat) + (2 ^ l : Nat),
      z := t.z * (2 ^ k : Nat) + vz3 w p.2 * (2 ^ (l + 1) : Nat) } 0 1 1 (by omega) (by omega) (by omega) (by omega) (by omega) (by omega)
    (by simp only; ring) (by simp only; ring) (by simp)
  obtain ⟨s4, e4, i4, r4, r4'⟩ := sub s3 i3
    { x := t.x * (2 ^ k : Nat) + vx3 w p.2 * (2 ^ (l + 1) : Nat),
      y := t.y * (2 ^ k : Nat) + vy3 w p.2 * (2 ^ (l + 1) : Nat),
      z := t.z * (2 ^ k : Nat) + vz3 w p.2 * (2 ^ (l + 1) : Nat) + (2 ^ l : Nat) } 1 0 0 (by omega) (by omega) (by omega) (by omega) (by omega) (by omega)
    (by simp) (by simp) (by simp only; ring)
  obtain ⟨s5, e5, i5, r5, r5'⟩ := sub s4 i4
    { x := t.x * (2 ^ k : Nat) + vx3 w p.2 * (2 ^ (l + 1) : Nat) + (2 ^ l : Nat),
      y := t.y * (2 ^ k : Nat) + vy3 w p.2 * (2 ^ (l + 1) : Nat),
      z := t.z * (2 ^ k : Nat) + vz3 w p.2 * (2 ^ (l + 1) : Nat) + (2 ^ l : Nat) } 1 0 1 (by omega) (by omega) (by omega) (by omega) (by omega) (by omega)
    (by simp only; ring) (by simp) (by simp only; ring)
  obtain ⟨s6, e6, i6, r6, r6'⟩ := sub s5 i5
    { x := t.x * (2 ^ k : Nat) + vx3 w p.2 * (2 ^ (l + 1) : Nat),
      y := t.y * (2 ^ k : Nat) + vy3 w p.2 * (2 ^ (l + 1) : Nat) + (2 ^ l : Nat),
      z := t.z * (2 ^ k : Nat) + vz3 w p.2 * (2 ^ (l + 1) : Nat) + (2 ^ l : Nat) } 1 1 0 (by omega) (by omega) (by omega) (by omega) (by omega) (by omega)
    (by simp) (by simp only; ring) (by simp only; ring)
  obtain ⟨s7, e7, i7, r7, r7'⟩ := sub s6 i6
    { x := t.x * (2 ^ k : Nat) + vx3 w p.2 * (2 ^ (l + 1) : Nat) + (2 ^ l : Nat),
      y := t.y * (2 ^ k : Nat) + vy3 w p.2 * (2 ^ (l + 1) : Nat) + (2 ^ l : Nat),
      z := t.z * (2 ^ k : Nat) + vz3 w p.2 * (2 ^ (l + 1) : Nat) + (2 ^ l : Nat) } 1 1 1 (by omega) (by omega) (by omega) (by omega) (by omega) (by omega)
    (by simp only; ring) (by simp only; ring) (by simp only; ring)
  have rk := (mip_storage E k 3 (by omega) _ h.na maxMip mr.off h.offs).1 (l + 1) p.1 p.2 hl (by omega) hi' hb0 hb1
  simp only [add_zero] at e0 e1 e2 e3 e4 e5 e6 e7 r0 r0' r1 r1' r2 r2' r3 r3' r4 r4' r5 r5' r6 r6' r7 r7'
  unfold mipBody3
  simp only [hcoord, Outcome.ok_bind, half_pow, e0, e1, e2, e3, e4, e5, e6, e7, mipRead, r0, r0', r1, r1', r2, r2', r3, r3', r4, r4', r5, r5', r6, r6', r7, r7',
    and_self, if_true, rk, not_true, if_false]
  congr 2
  simp only [rd3, ← hwdef, List.map_cons, List.map_nil, List.sum_cons, List.sum_nil]
  congr 1
  ring

/-- Sum of the base cells under voxel (z, y, x) of level `l`. -/
def boxSum3 (v : Int → Int → Int → F) (l : Nat) (z y x : Int) : F :=
  ∑ a ∈ Finset.range (2 ^ l), ∑ b ∈ Finset.range (2 ^ l), ∑ c ∈ Finset.range (2 ^ l),
    v (z * (2 ^ l : Nat) + a) (y * (2 ^ l : Nat) + b) (x * (2 ^ l : Nat) + c)

theorem boxSum3_succ (v : Int → Int → Int → F) (l : Nat) (z y x : Int) :
    boxSum3 v (l + 1) z y x =
      boxSum3 v l (2 * z) (2 * y) (2 * x) + boxSum3 v l (2 * z) (2 * y) (2 * x + 1) + boxSum3 v l (2 * z) (2 * y + 1) (2 * x) + boxSum3 v l (2 * z) (2 * y + 1) (2 * x + 1) + boxSum3 v l (2 * z + 1) (2 * y) (2 * x) + boxSum3 v l (2 * z + 1) (2 * y) (2 * x + 1) + boxSum3 v l (2 * z + 1) (2 * y + 1) (2 * x) + boxSum3 v l (2 * z + 1) (2 * y + 1) (2 * x + 1) := by
  unfold boxSum3
  have e : ∀ (y : Int) (a : Nat), y * ((2 ^ (l + 1) : Nat) : Int) + a = 2 * y * (2 ^ l : Nat) + a := by
    intro y a; rw [pow_succ]; push_cast; ring
  have e' : ∀ (y : Int) (a : Nat), 2 * y * ((2 ^ l : Nat) : Int) + ((2 ^ l + a : Nat) : Int) =
      (2 * y + 1) * (2 ^ l : Nat) + a := by
    intro y a; push_cast; ring
  rw [sum_pow_succ]
  simp only [sum_pow_succ, e, e', Finset.sum_add_distrib]
  ac_rfl

/-- 3D version of `MipMap2.chain`. -/
theorem MipMap3.chain (h : MipMap3 E k nx ny nz Active mr maxMip) (scale : F) (sched : Nat → List (Nat × Int))
    (m0 : Int → F) : ∀ n, n ≤ maxMip → (∀ l < n, ∀ p, p ∈ sched l ↔ p ∈ mipIters (2 ^ k) 3 (l + 1) mr.bm) →
    ∃ m, mipChain3 (2 ^ k) mr (mipBufferLen (2 ^ k) 3 mr.bm.numActive mr.off maxMip) scale sched n m0 = .ok m ∧
      (∀ a, (∀ l < n, ∀ p ∈ mipIters (2 ^ k) 3 (l + 1) mr.bm, mipLoopIdx (2 ^ k) 3 mr.off (l + 1) p.1 p.2 ≠ a) →
        m a = m0 a) ∧
      ∀ l ≤ n, ∀ i z y x : Int, 0 ≤ i → i < mr.bm.numActive → 0 ≤ z → z < (2 ^ (k - l) : Nat) → 0 ≤ y →
        y < (2 ^ (k - l) : Nat) → 0 ≤ x → x < (2 ^ (k - l) : Nat) →
        m (A3 k mr.off l i z y x) =
          scale ^ l * boxSum3 (fun z y x => m0 (A3 k mr.off 0 i z y x)) l z y x := by
  intro n
  induction n with
  | zero =>
    intro _ _
    refine ⟨m0, rfl, fun _ _ => rfl, ?_⟩
    intro l hl i z y x _ _ _ _ _ _ _ _
    have : l = 0 := by omega
    subst this
    simp [boxSum3]
  | succ n ih =>
    intro hn hsched
    obtain ⟨m, e, hkeep, hval⟩ := ih (by omega) (fun l hl => hsched l (by omega))
    have hk := h.levels
    have hspec := hsched n (by omega)
    have hkey : ∀ p ∈ mipIters (2 ^ k) 3 (n + 1) mr.bm, mipLoopIdx (2 ^ k) 3 mr.off (n + 1) p.1 p.2 =
        A3 k mr.off (n + 1) p.1 (vz3 (2 ^ (k - (n + 1)) : Nat) p.2) (vy3 (2 ^ (k - (n + 1)) : Nat) p.2)
          (vx3 (2 ^ (k - (n + 1)) : Nat) p.2) := by
      intro p hp
      unfold A3
      rw [(h.iter (n + 1) hn p hp).2.2.2.2.2.2.2]
    have hwl : ((2 ^ (k - n) : Nat) : Int) = 2 * ((2 ^ (k - (n + 1)) : Nat) : Int) := by
      rw [show k - n = (k - (n + 1)) + 1 by omega, pow_succ]; push_cast; ring
    have hne : ∀ p ∈ mipIters (2 ^ k) 3 (n + 1) mr.bm, ∀ l ≤ n, ∀ i z y x : Int, 0 ≤ i → i < mr.bm.numActive →
        0 ≤ z → z < (2 ^ (k - l) : Nat) → 0 ≤ y → y < (2 ^ (k - l) : Nat) → 0 ≤ x → x < (2 ^ (k - l) : Nat) →
        mipLoopIdx (2 ^ k) 3 mr.off (n + 1) p.1 p.2 ≠ A3 k mr.off l i z y x := by
      intro p hp l hl i z y x a1 a2 a3 a4 a7 a8 a5 a6 he
      obtain ⟨_, b2, _, _, ⟨b5, b6⟩, ⟨b7, b8⟩, ⟨b9, b10⟩, _⟩ := h.iter (n + 1) hn p hp
      rw [hkey p hp] at he
      have := (h.inj (n + 1) l hn (by omega) _ _ _ _ _ _ _ _ (by omega) b2 b5 b6 b7 b8 b9 b10 a1 a2 a3 a4 a7 a8
        a5 a6 he).1
      omega
    obtain ⟨m', e', h1, h2⟩ := kernelLoop_sum (mipBody3 (2 ^ k) mr
      (mipBufferLen (2 ^ k) 3 mr.bm.numActive mr.off maxMip) scale n)
      (fun p => mipLoopIdx (2 ^ k) 3 mr.off (n + 1) p.1 p.2) (rd3 k mr.off n) scale (sched n)
      (fun p hp m => h.body scale n hn p ((hspec p).1 hp) m)
      (by
        intro p hp q hq hmem
        obtain ⟨_, b2, _, _, ⟨b5, b6⟩, ⟨b7, b8⟩, ⟨b9, b10⟩, _⟩ := h.iter (n + 1) hn q ((hspec q).1 hq)
        have hh := hne p ((hspec p).1 hp) n (le_refl _) q.1
        simp only [rd3, List.mem_cons, List.not_mem_nil, or_false] at hmem
        rcases hmem with he | he | he | he | he | he | he | he <;>
          exact hh _ _ _ (by omega) b2 (by omega) (by omega) (by omega) (by omega) (by omega) (by omega) he)
      (by
        intro p hp q hq he
        obtain ⟨_, b2, b3, b4, _⟩ := h.iter (n + 1) hn p ((hspec p).1 hp)
        obtain ⟨_, c2, c3, c4, _⟩ := h.iter (n + 1) hn q ((hspec q).1 hq)
        obtain ⟨_, d2, d3⟩ := (mip_storage E k 3 (by omega) _ h.na maxMip mr.off h.offs).2 (n + 1) q.1 q.2
          (n + 1) p.1 p.2 hn (by omega) c2 c3 c4 hn (by omega) b2 b3 b4 he
        unfold rd3; rw [d2, d3])
      (sched n) (List.Subset.refl _) m
    refine ⟨m', ?_, ?_, ?_⟩
    · show (mipChain3 _ _ _ _ _ n m0 >>= fun m' => kernelLoop _ (sched n) m') = _
      rw [e]; exact e'
    · intro a ha
      rw [h1 a (fun p hp => ha n (by omega) p ((hspec p).1 hp))]
      exact hkeep a (fun l hl => ha l (by omega))
    · intro l hl i z y x a1 a2 a3 a4 a7 a8 a5 a6
      by_cases hln : l ≤ n
      · rw [h1 _ (fun p hp => hne p ((hspec p).1 hp) l hln i z y x a1 a2 a3 a4 a7 a8 a5 a6)]
        exact hval l hln i z y x a1 a2 a3 a4 a7 a8 a5 a6
      · have hl' : l = n + 1 := by omega
        subst hl'
        set w : Int := ((2 ^ (k - (n + 1)) : Nat) : Int) with hw
        have hw0 : 0 < w := by omega
        obtain ⟨o1, o2⟩ := off_range3 w z y x a3 a4 a7 a8 a5 a6
        have hp : (i.toNat, (z * w + y) * w + x) ∈ mipIters (2 ^ k) 3 (n + 1) mr.bm := by
          refine (mem_loopIters _ _ _).2 ⟨by omega, o1, ?_⟩
          rw [mipCells3 k (n + 1) (by omega)]; exact o2
        obtain ⟨g1, g2, g3⟩ := v3_of w z y x hw0 a3 a4 a7 a8 a5 a6
        have := h2 _ ((hspec _).2 hp)
        simp only [rd3, ← hw, g1, g2, g3, Int.toNat_of_nonneg a1, List.map_cons, List.map_nil, List.sum_cons,
          List.sum_nil] at this
        have hA : mipLoopIdx (2 ^ k) 3 mr.off (n + 1) i ((z * w + y) * w + x) = A3 k mr.off (n + 1) i z y x := rfl
        rw [hA] at this
        have hv : ∀ z' y' x' : Int, 0 ≤ z' → z' < 2 * w → 0 ≤ y' → y' < 2 * w → 0 ≤ x' → x' < 2 * w →
            m (A3 k mr.off n i z' y' x') =
              scale ^ n * boxSum3 (fun z y x => m0 (A3 k mr.off 0 i z y x)) n z' y' x' := by
          intro z' y' x' q1 q2 q3 q4 q5 q6
          exact hval n (le_refl _) i _ _ _ a1 a2 q1 (by omega) q3 (by omega) q5 (by omega)
        rw [this]
        simp (discharger := omega) only [hv]
        rw [boxSum3_succ]
        ring

end three

section coords
variable {F : Type} [Field F]

theorem align_split (k l : Nat) (hl : l ≤ k) (t c : Int) :
    c - c % (2 ^ l : Nat) = t * (2 ^ k : Nat) + (c - t * (2 ^ k : Nat)) / (2 ^ l : Nat) * (2 ^ l : Nat) := by
  have hp : (0 : Int) < (2 ^ l : Nat) := by exact_mod_cast Nat.two_pow_pos l
  have e : c - t * (2 ^ k : Nat) = c + (-(t * (2 ^ (k - l) : Nat))) * (2 ^ l : Nat) := by
    rw [← w_mul k l hl]; ring
  rw [e, Int.add_mul_ediv_right _ _ (ne_of_gt hp), Int.emod_def, ← w_mul k l hl]
  ring

theorem in_block (k l : Nat) (hl : l ≤ k) (r : Int) (hr : 0 ≤ r) (hr' : r < (2 ^ k : Nat)) (a : Nat)
    (ha : a < 2 ^ l) : 0 ≤ r / (2 ^ l : Nat) ∧ r / (2 ^ l : Nat) < (2 ^ (k - l) : Nat) ∧
      0 ≤ r / (2 ^ l : Nat) * (2 ^ l : Nat) + a ∧ r / (2 ^ l : Nat) * (2 ^ l : Nat) + a < (2 ^ k : Nat) := by
  have hp : (0 : Int) < (2 ^ l : Nat) := by exact_mod_cast Nat.two_pow_pos l
  have h1 := Int.ediv_nonneg hr hp.le
  have h2 : r / (2 ^ l : Nat) < (2 ^ (k - l) : Nat) := Int.ediv_lt_of_lt_mul hp (by rw [w_mul k l hl]; exact hr')
  have h3 : 0 ≤ r / (2 ^ l : Nat) * (2 ^ l : Nat) := mul_nonneg h1 hp.le
  have h4 : (r / (2 ^ l : Nat) + 1) * (2 ^ l : Nat) ≤ (2 ^ k : Nat) := by
    rw [← w_mul k l hl]; exact mul_le_mul_of_nonneg_right (by omega) hp.le
  rw [add_mul, one_mul] at h4
  have h5 : (a : Int) < (2 ^ l : Nat) := by exact_mod_cast ha
  refine ⟨h1, h2, by omega, by omega⟩

theorem lift2 {E k nx nz : Nat} {Active : Coord2 → Prop} {mr : MRMap Coord2} {maxMip : Nat}
    (h : MipMap2 E k nx nz Active mr maxMip) (m0 m : Int → F) (scale : F) (n : Nat) (hn : n ≤ maxMip)
    (field : Coord2 → F) (h0 : StoredAt2 (2 ^ k) nx nz Active mr 0 m0 field)
    (hval : ∀ l ≤ n, ∀ i z x : Int, 0 ≤ i → i < mr.bm.numActive → 0 ≤ z → z < (2 ^ (k - l) : Nat) → 0 ≤ x →
        x < (2 ^ (k - l) : Nat) →
        m (A2 k mr.off l i z x) = scale ^ l * boxSum2 (fun z x => m0 (A2 k mr.off 0 i z x)) l z x) :
    ∀ l ≤ n, StoredAt2 (2 ^ k) nx nz Active mr l m (fun c => scale ^ l * blockSum2 field l c) := by
  intro l hl c hc
  obtain ⟨t, ht, ha, hin⟩ := hc
  have hk := h.levels
  obtain ⟨s', e, _⟩ := h.idx _ ((mgeo2 (2 ^ k)).inv_fresh mr) l (by omega) t c ht ha hin
  refine ⟨_, s', e, ?_⟩
  have hact := h.map.numbering.active t ht ha
  have hin' := hin
  unfold InTile2 at hin'
  simp only [add_mul, one_mul] at hin'
  have bx := fun a ha => in_block k l (by omega) (c.x - t.x * (2 ^ k : Nat)) (by omega) (by omega) a ha
  have bz := fun a ha => in_block k l (by omega) (c.z - t.z * (2 ^ k : Nat)) (by omega) (by omega) a ha
  have b0 := bx 0 (Nat.two_pow_pos l)
  have b1 := bz 0 (Nat.two_pow_pos l)
  rw [hval l hl _ _ _ hact.1 hact.2 b1.1 b1.2.1 b0.1 b0.2.1]
  congr 1
  unfold boxSum2 blockSum2
  refine Finset.sum_congr rfl fun a ha' => Finset.sum_congr rfl fun b hb' => ?_
  have ga := bz a (Finset.mem_range.1 ha')
  have gb := bx b (Finset.mem_range.1 hb')
  have hin2 : InTile2 (2 ^ k) t { x := c.x - c.x % (2 ^ l : Nat) + b, z := c.z - c.z % (2 ^ l : Nat) + a } := by
    unfold InTile2
    simp only [add_mul, one_mul]
    rw [align_split k l (by omega) t.x c.x, align_split k l (by omega) t.z c.z]
    omega
  obtain ⟨a', s2, e2, e3⟩ := h0 _ ⟨t, ht, ha, hin2⟩
  obtain ⟨s3, e4, _⟩ := h.idx _ ((mgeo2 (2 ^ k)).inv_fresh mr) 0 (by omega) t _ ht ha hin2
  rw [e4] at e2
  injection e2 with e2; injection e2 with e2 _
  rw [← e3, ← e2]
  simp only
  rw [align_split k l (by omega) t.x c.x, align_split k l (by omega) t.z c.z, pow_zero, Nat.cast_one, Int.ediv_one,
    Int.ediv_one]
  congr 2 <;> ring

theorem lift3 {E k nx ny nz : Nat} {Active : Coord3 → Prop} {mr : MRMap Coord3} {maxMip : Nat}
    (h : MipMap3 E k nx ny nz Active mr maxMip) (m0 m : Int → F) (scale : F) (n : Nat) (hn : n ≤ maxMip)
    (field : Coord3 → F) (h0 : StoredAt3 (2 ^ k) nx ny nz Active mr 0 m0 field)
    (hval : ∀ l ≤ n, ∀ i z y x : Int, 0 ≤ i → i < mr.bm.numActive → 0 ≤ z → z < (2 ^ (k - l) : Nat) → 0 ≤ y →
        y < (2 ^ (k - l) : Nat) → 0 ≤ x → x < (2 ^ (k - l) : Nat) →
        m (A3 k mr.off l i z y x) =
          scale ^ l * boxSum3 (fun z y x => m0 (A3 k mr.off 0 i z y x)) l z y x) :
    ∀ l ≤ n, StoredAt3 (2 ^ k) nx ny nz Active mr l m (fun c => scale ^ l * blockSum3 field l c) := by
  intro l hl c hc
  obtain ⟨t, ht, ha, hin⟩ := hc
  have hk := h.levels
  obtain ⟨s', e, _⟩ := h.idx _ ((mgeo3 (2 ^ k)).inv_fresh mr) l (by omega) t c ht ha hin
  refine ⟨_, s', e, ?_⟩
  have hact := h.map.numbering.active t ht ha
  have hin' := hin
  unfold InTile3 at hin'
  simp only [add_mul, one_mul] at hin'
  have bx := fun a ha => in_block k l (by omega) (c.x - t.x * (2 ^ k : Nat)) (by omega) (by omega) a ha
  have byy := fun a ha => in_block k l (by omega) (c.y - t.y * (2 ^ k : Nat)) (by omega) (by omega) a ha
  have bz := fun a ha => in_block k l (by omega) (c.z - t.z * (2 ^ k : Nat)) (by omega) (by omega) a ha
  have b0 := bx 0 (Nat.two_pow_pos l)
  have b1 := bz 0 (Nat.two_pow_pos l)
  have b2 := byy 0 (Nat.two_pow_pos l)
  rw [hval l hl _ _ _ _ hact.1 hact.2 b1.1 b1.2.1 b2.1 b2.2.1 b0.1 b0.2.1]
  congr 1
  unfold boxSum3 blockSum3
  refine Finset.sum_congr rfl fun a ha' => Finset.sum_congr rfl fun b hb' => Finset.sum_congr rfl fun d hd' => ?_
  have ga := bz a (Finset.mem_range.1 ha')
  have gb := byy b (Finset.mem_range.1 hb')
  have gd := bx d (Finset.mem_range.1 hd')
  have hin2 : InTile3 (2 ^ k) t 
      { x := c.x - c.x % (2 ^ l : Nat) + d, y := c.y - c.y % (2 ^ l : Nat) + b,
        z := c.z - c.z % (2 ^ l : Nat) + a } := by
    unfold InTile3
    simp only [add_mul, one_mul]
    rw [align_split k l (by omega) t.x c.x, align_split k l (by omega) t.y c.y, align_split k l (by omega) t.z c.z]
    omega
  obtain ⟨a', s2, e2, e3⟩ := h0 _ ⟨t, ht, ha, hin2⟩
  obtain ⟨s3, e4, _⟩ := h.idx _ ((mgeo3 (2 ^ k)).inv_fresh mr) 0 (by omega) t _ ht ha hin2
  rw [e4] at e2
  injection e2 with e2; injection e2 with e2 _
  rw [← e3, ← e2]
  simp only
  rw [align_split k l (by omega) t.x c.x, align_split k l (by omega) t.y c.y, align_split k l (by omega) t.z c.z,
    pow_zero, Nat.cast_one, Int.ediv_one, Int.ediv_one, Int.ediv_one]
  congr 2 <;> ring

theorem sum_range_mul' {M : Type} [AddCommMonoid M] (n : Nat) (g : Nat → M) : ∀ m : Nat,
    ∑ a ∈ Finset.range (m * n), g a = ∑ i ∈ Finset.range m, ∑ j ∈ Finset.range n, g (i * n + j) := by
  intro m
  induction m with
  | zero => simp
  | succ m ih => rw [add_mul, one_mul, Finset.sum_range_add, ih, Finset.sum_range_succ]

theorem align_tile (k l : Nat) (hl : l ≤ k) (t : Int) (i j : Nat) (hj : j < 2 ^ l) :
    t * (2 ^ k : Nat) + ((i * 2 ^ l + j : Nat) : Int) - (t * (2 ^ k : Nat) + ((i * 2 ^ l + j : Nat) : Int)) % (2 ^ l : Nat)
      = t * (2 ^ k : Nat) + ((i * 2 ^ l : Nat) : Int) := by
  have e : t * ((2 ^ k : Nat) : Int) + ((i * 2 ^ l + j : Nat) : Int) =
      (j : Int) + (t * (2 ^ (k - l) : Nat) + i) * (2 ^ l : Nat) := by
    rw [← w_mul k l hl]; push_cast; ring
  rw [e, Int.add_mul_emod_self_right, Int.emod_eq_of_lt (by omega) (by exact_mod_cast hj), ← w_mul k l hl]
  push_cast; ring

theorem total2 (k l : Nat) (hl : l ≤ k) (field : Coord2 → F) (t : Coord2) :
    tileTotal2 (2 ^ k) (blockSum2 field l) t = 2 ^ l * 2 ^ l * tileTotal2 (2 ^ k) field t := by
  have hkl : 2 ^ k = 2 ^ (k - l) * 2 ^ l := by rw [← pow_add, Nat.sub_add_cancel hl]
  unfold tileTotal2
  rw [show Finset.range (2 ^ k) = Finset.range (2 ^ (k - l) * 2 ^ l) by rw [hkl]]
  simp only [sum_range_mul']
  rw [Finset.mul_sum]
  refine Finset.sum_congr rfl fun i _ => ?_
  have step : ∀ a ∈ Finset.range (2 ^ l), (∑ i' ∈ Finset.range (2 ^ (k - l)), ∑ b ∈ Finset.range (2 ^ l),
      blockSum2 field l { x := t.x * (2 ^ k : Nat) + ((i' * 2 ^ l + b : Nat) : Int),
                          z := t.z * (2 ^ k : Nat) + ((i * 2 ^ l + a : Nat) : Int) }) =
      ∑ i' ∈ Finset.range (2 ^ (k - l)), 2 ^ l * ∑ a ∈ Finset.range (2 ^ l), ∑ b ∈ Finset.range (2 ^ l),
        field { x := t.x * (2 ^ k : Nat) + ((i' * 2 ^ l + b : Nat) : Int),
                z := t.z * (2 ^ k : Nat) + ((i * 2 ^ l + a : Nat) : Int) } := by
    intro a ha
    refine Finset.sum_congr rfl fun i' _ => ?_
    rw [Finset.sum_congr rfl (g := fun _ => ∑ a ∈ Finset.range (2 ^ l), ∑ b ∈ Finset.range (2 ^ l),
        field { x := t.x * (2 ^ k : Nat) + ((i' * 2 ^ l + b : Nat) : Int),
                z := t.z * (2 ^ k : Nat) + ((i * 2 ^ l + a : Nat) : Int) })]
    · rw [Finset.sum_const, Finset.card_range, nsmul_eq_mul]; push_cast; rfl
    · intro b hb
      unfold blockSum2
      simp only
      rw [align_tile k l hl t.x i' b (Finset.mem_range.1 hb), align_tile k l hl t.z i a (Finset.mem_range.1 ha)]
      refine Finset.sum_congr rfl fun a' _ => Finset.sum_congr rfl fun b' _ => ?_
      congr 2 <;> push_cast <;> ring
  rw [Finset.sum_congr rfl step, Finset.sum_const, Finset.card_range, nsmul_eq_mul, ← Finset.mul_sum]
  rw [Finset.sum_comm]
  push_cast; ring

theorem total3 (k l : Nat) (hl : l ≤ k) (field : Coord3 → F) (t : Coord3) :
    tileTotal3 (2 ^ k) (blockSum3 field l) t = 2 ^ l * 2 ^ l * 2 ^ l * tileTotal3 (2 ^ k) field t := by
  have hkl : 2 ^ k = 2 ^ (k - l) * 2 ^ l := by rw [← pow_add, Nat.sub_add_cancel hl]
  unfold tileTotal3
  rw [show Finset.range (2 ^ k) = Finset.range (2 ^ (k - l) * 2 ^ l) by rw [hkl]]
  simp only [sum_range_mul']
  rw [Finset.mul_sum]
  refine Finset.sum_congr rfl fun i _ => ?_
  let S : Nat → Nat → F := fun i' i'' => ∑ a ∈ Finset.range (2 ^ l), ∑ b ∈ Finset.range (2 ^ l),
      ∑ d ∈ Finset.range (2 ^ l),
        field { x := t.x * (2 ^ k : Nat) + ((i'' * 2 ^ l + d : Nat) : Int),
                y := t.y * (2 ^ k : Nat) + ((i' * 2 ^ l + b : Nat) : Int),
                z := t.z * (2 ^ k : Nat) + ((i * 2 ^ l + a : Nat) : Int) }
  have step : ∀ a ∈ Finset.range (2 ^ l), (∑ i' ∈ Finset.range (2 ^ (k - l)), ∑ b ∈ Finset.range (2 ^ l),
      ∑ i'' ∈ Finset.range (2 ^ (k - l)), ∑ d ∈ Finset.range (2 ^ l),
      blockSum3 field l { x := t.x * (2 ^ k : Nat) + ((i'' * 2 ^ l + d : Nat) : Int),
                          y := t.y * (2 ^ k : Nat) + ((i' * 2 ^ l + b : Nat) : Int),
                          z := t.z * (2 ^ k : Nat) + ((i * 2 ^ l + a : Nat) : Int) }) =
      2 ^ l * 2 ^ l * ∑ i' ∈ Finset.range (2 ^ (k - l)), ∑ i'' ∈ Finset.range (2 ^ (k - l)), S i' i'' := by
    intro a ha
    rw [Finset.mul_sum]
    refine Finset.sum_congr rfl fun i' _ => ?_
    rw [Finset.sum_congr rfl (g := fun _ => 2 ^ l * ∑ i'' ∈ Finset.range (2 ^ (k - l)), S i' i'')]
    · rw [Finset.sum_const, Finset.card_range, nsmul_eq_mul]; push_cast; ring
    · intro b hb
      rw [Finset.mul_sum]
      refine Finset.sum_congr rfl fun i'' _ => ?_
      rw [Finset.sum_congr rfl (g := fun _ => S i' i'')]
      · rw [Finset.sum_const, Finset.card_range, nsmul_eq_mul]; push_cast; rfl
      · intro d hd
        unfold blockSum3
        simp only
        rw [align_tile k l hl t.x i'' d (Finset.mem_range.1 hd), align_tile k l hl t.y i' b (Finset.mem_range.1 hb),
          align_tile k l hl t.z i a (Finset.mem_range.1 ha)]
        refine Finset.sum_congr rfl fun a' _ => Finset.sum_congr rfl fun b' _ => Finset.sum_congr rfl fun d' _ => ?_
        congr 2 <;> push_cast <;> ring
  rw [Finset.sum_congr rfl step, Finset.sum_const, Finset.card_range, nsmul_eq_mul]
  have e : ∑ a ∈ Finset.range (2 ^ l), ∑ i' ∈ Finset.range (2 ^ (k - l)), ∑ b ∈ Finset.range (2 ^ l),
      ∑ i'' ∈ Finset.range (2 ^ (k - l)), ∑ d ∈ Finset.range (2 ^ l),
        field { x := t.x * (2 ^ k : Nat) + ((i'' * 2 ^ l + d : Nat) : Int),
                y := t.y * (2 ^ k : Nat) + ((i' * 2 ^ l + b : Nat) : Int),
                z := t.z * (2 ^ k : Nat) + ((i * 2 ^ l + a : Nat) : Int) } =
      ∑ i' ∈ Finset.range (2 ^ (k - l)), ∑ i'' ∈ Finset.range (2 ^ (k - l)), S i' i'' := by
    rw [Finset.sum_comm]
    refine Finset.sum_congr rfl fun i' _ => ?_
    exact (Finset.sum_congr rfl fun a _ => Finset.sum_comm).trans Finset.sum_comm
  rw [e]; push_cast; ring

end coords
end DexRT
