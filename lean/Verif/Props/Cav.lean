import Verif.Lemmas.Cav
import Verif.Props.Emis
/-!
# C52, C53: precomputed line data
-/
namespace DexRT
open Emis

/-! ### C52: slots for the active lines -/

/-- C52 (2D): for every number of slots and every batch, filling the slots never writes out of bounds; if the lines active
anywhere in the batch fit, every one of them is in exactly one slot, nothing else is, and the used slots come first; if
they do not fit, the call is rejected. -/
theorem C52_slots (max : Nat) (sets : List (List Nat)) :
    if sets.flatten.toFinset.card ≤ max then
      ∃ d : List Nat, fillMapping2 max sets = .ok (d.map (fun k : Nat => (k : Int)) ++ List.replicate (max - d.length) (-1)) ∧
        d.Nodup ∧ d.length ≤ max ∧ ∀ kr, kr ∈ d ↔ ∃ s ∈ sets, kr ∈ s
    else fillMapping2 max sets = .throws := by
  unfold fillMapping2
  rw [start_eq]
  rcases fill_loop2 max sets.flatten [] (by simp) (by simp) with ⟨d, e1, e2, e3, e4⟩ | ⟨e1, e2⟩
  · have hc : sets.flatten.toFinset.card ≤ max := by
      have h1 := List.toFinset_card_of_nodup e2
      have h2 : sets.flatten.toFinset.card ≤ d.toFinset.card := Finset.card_le_card (by
        intro x hx
        rw [List.mem_toFinset] at hx ⊢
        exact (e4 x).mpr (Or.inr hx))
      omega
    rw [if_pos hc]
    refine ⟨d, ?_, e2, e3, fun kr => ?_⟩
    · rw [show (⟨enc max [], 0⟩ : Fill) = ⟨enc max [], ([] : List Nat).length⟩ from rfl, e1]; rfl
    · rw [e4]; simp
  · rw [if_neg (by simpa using e2)]
    rw [show (⟨enc max [], 0⟩ : Fill) = ⟨enc max [], ([] : List Nat).length⟩ from rfl, e1]

/-- C52 (3D, partial): if the active lines fit, each has its slot, in order. -/
theorem C52_slots_3d_partial (max : Nat) (set : List Nat) (h : set.length ≤ max) :
    fillMapping3 max set = .ok (set.map (fun k : Nat => (k : Int)) ++ List.replicate (max - set.length) (-1)) := by
  unfold fillMapping3
  rw [start_eq, show (⟨enc max [], 0⟩ : Fill) = ⟨enc max [], ([] : List Nat).length⟩ from rfl,
    fill_loop3 max set [] (by simp)]
  simp [h, enc]

/-- C52 (3D, refuted): whenever there are more active lines than slots, the array is overrun; the check that should reject
this case is never reached in time. -/
theorem C52_refuted_3d (max : Nat) (set : List Nat) :
    (max < set.length → fillMapping3 max set = .ub) ∧ fillMapping3 max set ≠ .throws := by
  unfold fillMapping3
  rw [start_eq, show (⟨enc max [], 0⟩ : Fill) = ⟨enc max [], ([] : List Nat).length⟩ from rfl,
    fill_loop3 max set [] (by simp)]
  simp only [List.length_nil, Nat.zero_add]
  constructor
  · intro h; rw [if_neg (by omega)]
  · by_cases h : set.length ≤ max <;> simp [h]

example : fillMapping2 4 [[3, 5], [5, 7], [7, 3]] = .ok [3, 5, 7, -1] ∧ fillMapping2 2 [[3, 5], [5, 7]] = .throws ∧
    fillMapping3 2 [3, 5] = .ok [3, 5] ∧ fillMapping3 2 [3, 5, 7] = .ub := by decide

/-! ### C53: values -/

variable (k : Consts) (phi : ℝ → ℝ → ℝ) (ad : AData)

/-- C53 (2D): for every batch whose active lines fit into the slots, every wavelength of the batch, every cell, velocity,
populations and Voigt function: adding up the precomputed lines gives the base value plus the textbook emissivity and
opacity of exactly the lines active at that wavelength. No access is out of bounds. -/
theorem C53_same_value (hw : EmisSpec.WellFormed ad) (h0 : ∀ l ∈ ad.lines, l.lambda0 ≠ 0) (n : Pops) (p : Point)
    (max laStart laEnd la : Nat) (h1 : laStart ≤ la) (h2 : la < laEnd) (mapping : List Int)
    (hm : fillMapping2 max ((List.range (laEnd - laStart)).map fun i => scan Line.isActive ad.lines (laStart + i)) = .ok mapping)
    (w : ℝ) (base : EO) :
    cavSample k phi ad n p max mapping (scan Line.isActive ad.lines la) w base =
      .ok (base.add (EmisSpec.lines k phi ad la n p w)) := by
  have h := C52_slots max ((List.range (laEnd - laStart)).map fun i => scan Line.isActive ad.lines (laStart + i))
  split at h
  · obtain ⟨d, e1, e2, e3, e4⟩ := h
    rw [hm] at e1
    rw [Outcome.ok.inj e1]
    refine cavSample_eq k phi ad hw h0 n p max la d e2 e3 (fun kr hk => (e4 kr).mpr ⟨_, List.mem_map.mpr
      ⟨la - laStart, List.mem_range.mpr (by omega), rfl⟩, ?_⟩) w base
    rw [show laStart + (la - laStart) = la by omega]; exact hk
  · rw [hm] at h; cases h

/-- C53 (3D). -/
theorem C53_same_value_3d (hw : EmisSpec.WellFormed ad) (h0 : ∀ l ∈ ad.lines, l.lambda0 ≠ 0) (n : Pops) (p : Point)
    (max la : Nat) (mapping : List Int) (hm : fillMapping3 max (scan Line.isActive ad.lines la) = .ok mapping) (w : ℝ)
    (base : EO) :
    cavSample k phi ad n p max mapping (scan Line.isActive ad.lines la) w base =
      .ok (base.add (EmisSpec.lines k phi ad la n p w)) := by
  rcases Nat.lt_or_ge max (scan Line.isActive ad.lines la).length with h | h
  · rw [(C52_refuted_3d max _).1 h] at hm; cases hm
  · rw [C52_slots_3d_partial max _ h] at hm
    rw [← Outcome.ok.inj hm]
    exact cavSample_eq k phi ad hw h0 n p max la _ (List.nodup_range.filter _) h (fun _ hk => hk) w base

/-- C53 (everything): the base value filled in for continua plus the precomputed lines is what the direct evaluation of
everything gives. -/
theorem C53_total (hw : EmisSpec.WellFormed ad) (h0 : ∀ l ∈ ad.lines, l.lambda0 ≠ 0) (n scratch : Pops) (p : Point)
    (max laStart laEnd la : Nat) (h1 : laStart ≤ la) (h2 : la < laEnd) (mapping : List Int)
    (hm : fillMapping2 max ((List.range (laEnd - laStart)).map fun i => scan Line.isActive ad.lines (laStart + i)) = .ok mapping)
    (w : ℝ) (hla : ad.wavelength[la]? = some w) :
    ∃ base s s' v, emisOpac k phi ad la n scratch p none none true .StaticOnly = .ok (base, s) ∧
      cavSample k phi ad n p max mapping (scan Line.isActive ad.lines la) w base = .ok v ∧
      emisOpac k phi ad la n scratch p none none true .All = .ok (v, s') := by
  have hA := emisOpac_eq k phi ad hw la w hla n scratch p none none (Or.inl rfl) (Or.inl rfl) true .All
  have hS := emisOpac_eq k phi ad hw la w hla n scratch p none none (Or.inl rfl) (Or.inl rfl) true .StaticOnly
  have hv : ∀ ns, EmisSpec.total k phi ad la n ns p w .All =
      (EmisSpec.total k phi ad la n ns p w .StaticOnly).add (EmisSpec.lines k phi ad la n p w) := by
    intro ns
    simp only [EmisSpec.total, EO.add, add_comm]
  rw [hv] at hA
  exact ⟨_, _, _, _, hS, C53_same_value k phi ad hw h0 n p max laStart laEnd la h1 h2 mapping hm w _, hA⟩

example : ∃ mapping, fillMapping2 4 ((List.range (3 - 0)).map fun i => scan Line.isActive demoData.lines (0 + i)) = .ok mapping ∧
    ∀ l ∈ demoData.lines, l.lambda0 ≠ 0 := by
  refine ⟨[0, -1, -1, -1], rfl, ?_⟩
  simp [demoData]

end DexRT
