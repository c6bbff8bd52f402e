import Verif.Model.BlockMap
import Verif.Lemmas.Morton
import Mathlib.Data.List.Nodup
import Mathlib.Data.List.Basic
/-! Helper lemmas for block-map construction. -/
namespace DexRT

variable {C : Type} [DecidableEq C]

/-- What `assignTiles` computes on duplicate-free in-bounds input. -/
theorem assignTiles_spec (inb : C → Bool) (dec : BitVec 32 → C) (act : C → Bool) :
    ∀ (ms : List (BitVec 32)) (e : Entries C) (g : Int),
      (∀ m ∈ ms, inb (dec m) = true) → (ms.map dec).Nodup →
      assignTiles inb dec act ms e g =
        .ok ((fun c => if c ∈ (ms.map dec).filter act then g + (((ms.map dec).filter act).idxOf c : Nat)
                        else e c),
             g + ((ms.map dec).filter act).length) := by
  intro ms
  induction ms with
  | nil => intro e g _ _; simp [assignTiles]
  | cons m ms ih =>
    intro e g hin hnd
    have hm := hin m (by simp)
    have hin' : ∀ m' ∈ ms, inb (dec m') = true := fun m' h => hin m' (by simp [h])
    rw [List.map_cons, List.nodup_cons] at hnd
    unfold assignTiles
    simp only [hm, Bool.not_true, Bool.false_eq_true, if_false, List.map_cons]
    by_cases ha : act (dec m) = true
    · simp only [ha, if_true, Entries.write, hm, Outcome.ok_bind]
      rw [ih _ _ hin' hnd.2, List.filter_cons_of_pos ha]
      have hnot : dec m ∉ (ms.map dec).filter act := fun h => hnd.1 (List.mem_of_mem_filter h)
      congr 2
      · funext c
        by_cases hc : c = dec m
        · subst hc
          simp [hnot, List.idxOf_cons_self]
        · have hc' : ¬ (dec m = c) := fun h => hc h.symm
          by_cases hmem : c ∈ (ms.map dec).filter act
          · rw [if_pos hmem, if_pos (List.mem_cons_of_mem _ hmem), List.idxOf_cons_ne _ hc']
            push_cast; omega
          · have : c ∉ dec m :: (ms.map dec).filter act := by simp [hc]; simpa using hmem
            rw [if_neg hmem, if_neg this, if_neg hc]
      · simp only [List.length_cons]; push_cast; omega
    · rw [if_neg ha, ih _ _ hin' hnd.2, List.filter_cons_of_neg ha]

/-- What the parallel writes leave behind when no two of them hit the same tile. -/
theorem writeTiles_spec (inb : C → Bool) (dec : BitVec 32 → C) :
    ∀ (sched : List (BitVec 32 × Nat)) (e : Entries C),
      (∀ p ∈ sched, inb (dec p.1) = true) → (sched.map (fun p => dec p.1)).Nodup →
      ∃ e', writeTiles inb dec sched e = .ok e' ∧
        (∀ p ∈ sched, e' (dec p.1) = p.2) ∧
        (∀ c, c ∉ sched.map (fun p => dec p.1) → e' c = e c) := by
  intro sched
  induction sched with
  | nil => intro e _ _; exact ⟨e, rfl, by simp, by simp⟩
  | cons p ps ih =>
    intro e hin hnd
    rw [List.map_cons, List.nodup_cons] at hnd
    obtain ⟨e', h1, h2, h3⟩ := ih (fun c' => if c' = dec p.1 then (p.2 : Int) else e c')
      (fun q hq => hin q (by simp [hq])) hnd.2
    refine ⟨e', ?_, ?_, ?_⟩
    · unfold writeTiles
      simp only [Entries.write, hin p (by simp), if_true, Outcome.ok_bind]
      exact h1
    · intro q hq
      rcases List.mem_cons.1 hq with rfl | hq
      · rw [h3 _ hnd.1, if_pos rfl]
      · exact h2 q hq
    · intro c hc
      rw [List.map_cons, List.mem_cons, not_or] at hc
      rw [h3 c hc.2, if_neg hc.1]

theorem mem_loopTo (n v : Int) : v ∈ loopTo n ↔ 0 ≤ v ∧ v < n := by
  unfold loopTo
  simp only [List.mem_map, List.mem_range]
  constructor
  · rintro ⟨k, hk, rfl⟩
    simp only [Int.ofNat_eq_natCast]; omega
  · rintro ⟨h0, h1⟩
    exact ⟨v.toNat, by omega, by simp only [Int.ofNat_eq_natCast]; omega⟩

theorem nodup_loopTo (n : Int) : (loopTo n).Nodup := by
  unfold loopTo
  exact List.nodup_range.map (fun a b h => by simpa using h)

theorem length_loopTo (n : Int) : (loopTo n).length = n.toNat := by simp [loopTo]

theorem insertCode_perm (m : BitVec 32) (l : List (BitVec 32)) : (insertCode m l).Perm (m :: l) := by
  induction l with
  | nil => exact List.Perm.refl _
  | cons k ks ih =>
    unfold insertCode
    split
    · exact List.Perm.refl _
    · exact (ih.cons k).trans (List.Perm.swap m k ks)

theorem sortCodes_perm (l : List (BitVec 32)) : (sortCodes l).Perm l := by
  induction l with
  | nil => exact List.Perm.refl _
  | cons m ms ih => exact (insertCode_perm m _).trans (ih.cons m)

theorem insertCode_sorted (m : BitVec 32) (l : List (BitVec 32))
    (h : l.Pairwise (fun a b => a.toNat ≤ b.toNat)) :
    (insertCode m l).Pairwise (fun a b => a.toNat ≤ b.toNat) := by
  induction l with
  | nil => simp [insertCode]
  | cons k ks ih =>
    rw [List.pairwise_cons] at h
    unfold insertCode
    split
    · rename_i hmk
      rw [List.pairwise_cons, List.pairwise_cons]
      refine ⟨?_, h⟩
      intro a ha
      rcases List.mem_cons.1 ha with rfl | ha
      · exact hmk
      · exact le_trans hmk (h.1 a ha)
    · rename_i hmk
      rw [List.pairwise_cons]
      refine ⟨?_, ih h.2⟩
      intro a ha
      rcases List.mem_cons.1 ((insertCode_perm m ks).mem_iff.1 ha) with rfl | ha
      · omega
      · exact h.1 a ha

theorem sortCodes_sorted (l : List (BitVec 32)) :
    (sortCodes l).Pairwise (fun a b => a.toNat ≤ b.toNat) := by
  induction l with
  | nil => exact List.Pairwise.nil
  | cons m ms ih => exact insertCode_sorted m _ ih

/-- The tiles enumerated in 2D, decoded. -/
theorem decoded_tiles2 (d : Coord2) (hx : d.x ≤ 65536) (hz : d.z ≤ 65536) :
    (tileCodes2 d).map decodeMorton2 =
      (loopTo d.z).flatMap fun z => (loopTo d.x).map fun x => ({ x := x, z := z } : Coord2) := by
  unfold tileCodes2
  rw [List.map_flatMap]
  apply List.flatMap_congr
  intro z hzm
  rw [List.map_map]
  apply List.map_congr_left
  intro x hxm
  rw [mem_loopTo] at hzm hxm
  exact decode_encode2 ⟨x, z⟩ hxm.1 (by show x < _; omega) hzm.1 (by show z < _; omega)

theorem decoded_tiles3 (d : Coord3) (hx : d.x ≤ 1024) (hy : d.y ≤ 1024) (hz : d.z ≤ 1024) :
    (tileCodes3 d).map decodeMorton3 =
      (loopTo d.z).flatMap fun z => (loopTo d.y).flatMap fun y => (loopTo d.x).map fun x =>
        ({ x := x, y := y, z := z } : Coord3) := by
  unfold tileCodes3
  rw [List.map_flatMap]
  apply List.flatMap_congr
  intro z hzm
  rw [List.map_flatMap]
  apply List.flatMap_congr
  intro y hym
  rw [List.map_map]
  apply List.map_congr_left
  intro x hxm
  rw [mem_loopTo] at hzm hxm hym
  exact decode_encode3 ⟨x, y, z⟩ hxm.1 (by show x < _; omega) hym.1 (by show y < _; omega) hzm.1
    (by show z < _; omega)

theorem nodup_tiles2 (d : Coord2) :
    ((loopTo d.z).flatMap fun z => (loopTo d.x).map fun x => ({ x := x, z := z } : Coord2)).Nodup := by
  rw [List.nodup_flatMap]
  refine ⟨fun z _ => (nodup_loopTo _).map (fun a b h => by simpa using h), ?_⟩
  apply (nodup_loopTo d.z).imp
  intro a b hab
  simp only [Function.onFun, List.disjoint_left, List.mem_map]
  rintro c ⟨x, _, rfl⟩ ⟨x', _, h⟩
  exact hab (by simpa using congrArg Coord2.z h.symm)

theorem nodup_tiles3 (d : Coord3) :
    ((loopTo d.z).flatMap fun z => (loopTo d.y).flatMap fun y => (loopTo d.x).map fun x =>
        ({ x := x, y := y, z := z } : Coord3)).Nodup := by
  rw [List.nodup_flatMap]
  refine ⟨fun z _ => ?_, ?_⟩
  · rw [List.nodup_flatMap]
    refine ⟨fun y _ => (nodup_loopTo _).map (fun a b h => by simpa using h), ?_⟩
    apply (nodup_loopTo d.y).imp
    intro a b hab
    simp only [Function.onFun, List.disjoint_left, List.mem_map]
    rintro c ⟨x, _, rfl⟩ ⟨x', _, h⟩
    exact hab (by simpa using congrArg Coord3.y h.symm)
  · apply (nodup_loopTo d.z).imp
    intro a b hab
    simp only [Function.onFun, List.disjoint_left, List.mem_map, List.mem_flatMap]
    rintro c ⟨y, _, x, _, rfl⟩ ⟨y', _, x', _, h⟩
    exact hab (by simpa using congrArg Coord3.z h.symm)

theorem mem_tiles2 (d c : Coord2) :
    c ∈ ((loopTo d.z).flatMap fun z => (loopTo d.x).map fun x => ({ x := x, z := z } : Coord2)) ↔
      inDims2 d c = true := by
  simp only [List.mem_flatMap, List.mem_map, mem_loopTo, inDims2, decide_eq_true_eq]
  constructor
  · rintro ⟨z, hz, x, hx, rfl⟩; exact ⟨hx.1, hx.2, hz.1, hz.2⟩
  · rintro ⟨h1, h2, h3, h4⟩; exact ⟨c.z, ⟨h3, h4⟩, c.x, ⟨h1, h2⟩, rfl⟩

theorem mem_tiles3 (d c : Coord3) :
    c ∈ ((loopTo d.z).flatMap fun z => (loopTo d.y).flatMap fun y => (loopTo d.x).map fun x =>
        ({ x := x, y := y, z := z } : Coord3)) ↔
      inDims3 d c = true := by
  simp only [List.mem_flatMap, List.mem_map, mem_loopTo, inDims3, decide_eq_true_eq]
  constructor
  · rintro ⟨z, hz, y, hy, x, hx, rfl⟩; exact ⟨hx.1, hx.2, hy.1, hy.2, hz.1, hz.2⟩
  · rintro ⟨h1, h2, h3, h4, h5, h6⟩; exact ⟨c.z, ⟨h5, h6⟩, c.y, ⟨h3, h4⟩, c.x, ⟨h1, h2⟩, rfl⟩

theorem length_tiles2 (d : Coord2) (hx : 0 ≤ d.x) (hz : 0 ≤ d.z) :
    ((tileCodes2 d).length : Int) = d.x * d.z := by
  unfold tileCodes2
  simp only [List.length_flatMap, List.length_map, length_loopTo, List.map_const', List.sum_replicate_nat]
  push_cast
  rw [Int.toNat_of_nonneg hx, Int.toNat_of_nonneg hz, Int.mul_comm]

theorem length_tiles3 (d : Coord3) (hx : 0 ≤ d.x) (hy : 0 ≤ d.y) (hz : 0 ≤ d.z) :
    ((tileCodes3 d).length : Int) = d.x * d.y * d.z := by
  unfold tileCodes3
  simp only [List.length_flatMap, List.length_map, length_loopTo, List.map_const', List.sum_replicate_nat]
  push_cast
  rw [Int.toNat_of_nonneg hx, Int.toNat_of_nonneg hy, Int.toNat_of_nonneg hz]
  ac_rfl

omit [DecidableEq C] in
theorem filter_map_dec (dec : BitVec 32 → C) (act : C → Bool) (l : List (BitVec 32)) :
    (l.filter (fun m => act (dec m))).map dec = (l.map dec).filter act := by
  rw [List.filter_map]; rfl

/-- Generic core: numbering the tiles of a duplicate-free list that enumerates the grid. -/
theorem assign_numbering (inb : C → Bool) (dec : BitVec 32 → C) (act : C → Bool)
    (order : List (BitVec 32)) (hin : ∀ m ∈ order, inb (dec m) = true) (hnd : (order.map dec).Nodup)
    (hall : ∀ c, inb c = true → c ∈ order.map dec) :
    ∃ e : Entries C,
      assignTiles inb dec act order Entries.init 0 =
        .ok (e, ((order.filter (fun m => act (dec m))).length : Int)) ∧
      (∀ c, inb c = true → act c = true →
        0 ≤ e c ∧ e c < ((order.filter (fun m => act (dec m))).length : Int)) ∧
      (∀ c, inb c = true → act c = false → e c = -1) ∧
      (∀ c c', inb c = true → inb c' = true → act c = true → act c' = true → e c = e c' → c = c') ∧
      (∀ i (h : i < (order.filter (fun m => act (dec m))).length),
        inb (dec (order.filter (fun m => act (dec m)))[i]) = true ∧
        act (dec (order.filter (fun m => act (dec m)))[i]) = true ∧
        e (dec (order.filter (fun m => act (dec m)))[i]) = i) := by
  refine ⟨fun c => if c ∈ (order.map dec).filter act then
      (((order.map dec).filter act).idxOf c : Nat) else -1, ?_, ?_, ?_, ?_, ?_⟩
  · rw [assignTiles_spec inb dec act order _ _ hin hnd, ← filter_map_dec, List.length_map]
    simp [Entries.init]
  · intro c hc ha
    have hmem : c ∈ (order.map dec).filter act := List.mem_filter.2 ⟨hall c hc, ha⟩
    simp only [hmem, if_true]
    have := List.idxOf_lt_length_of_mem hmem
    rw [← filter_map_dec, List.length_map] at this
    rw [← filter_map_dec]
    omega
  · intro c hc ha
    have hmem : c ∉ (order.map dec).filter act := by simp [List.mem_filter, ha]
    simp only [hmem, if_false]
  · intro c c' hc hc' ha ha' h
    have hmem : c ∈ (order.map dec).filter act := List.mem_filter.2 ⟨hall c hc, ha⟩
    have hmem' : c' ∈ (order.map dec).filter act := List.mem_filter.2 ⟨hall c' hc', ha'⟩
    simp only [hmem, hmem', if_true] at h
    exact (List.idxOf_inj hmem).1 (by exact_mod_cast h)
  · intro i h
    have hmf := List.getElem_mem h
    rw [List.mem_filter] at hmf
    have hmem : dec (order.filter (fun m => act (dec m)))[i] ∈ (order.map dec).filter act :=
      List.mem_filter.2 ⟨List.mem_map_of_mem hmf.1, hmf.2⟩
    refine ⟨hin _ hmf.1, hmf.2, ?_⟩
    simp only [hmem, if_true]
    have hnd' : ((order.map dec).filter act).Nodup := hnd.filter _
    have h' : i < ((order.map dec).filter act).length := by
      rw [← filter_map_dec, List.length_map]; exact h
    have e1 : dec (order.filter (fun m => act (dec m)))[i] = ((order.map dec).filter act)[i] := by
      rw [← List.getElem_map (f := dec) (h := by rw [List.length_map]; exact h)]
      congr 1
      exact filter_map_dec dec act order
    rw [e1, List.Nodup.idxOf_getElem hnd']

end DexRT
