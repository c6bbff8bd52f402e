import Verif.Model.Interp
import Mathlib.Algebra.Order.Group.Abs
/-!
Model of the assembly of atomic data, `to_atomic_data`, source/Populations.hpp:320-757, and of the slices into it,
source/Utils.hpp:154-181, source/Populations.hpp:759-876. Exact arithmetic over an ordered field.
-/
namespace DexRT
namespace Atomic
variable {K : Type} [Field K] [LinearOrder K]

/-- A radiative transition as far as the wavelength grid is concerned: its own grid and the reference wavelength
(`lambda0` of a line; `wavelength.back()` for a continuum, source/Populations.hpp:508-523). -/
structure Trans (K : Type) where
  waves : List K
  lambda0 : K

/-- `blue_wavelengths[t]`, `red_wavelengths[t]`: `front()` and `back()`, source/Populations.hpp:511, 512, 519, 520. -/
def Trans.blue (t : Trans K) : K := t.waves.headD 0
/-- See `Trans.blue`. -/
def Trans.red (t : Trans K) : K := t.waves.getLastD 0

/-- All lines and continua of all atoms, in the order of the concatenated arrays: lines first. -/
structure Model (K : Type) where
  lines : List (Trans K)
  conts : List (Trans K)

/-- Transitions by `trans_idx`: lines, then continua (source/Populations.hpp:469, 483). -/
def Model.trans (m : Model K) : List (Trans K) := m.lines ++ m.conts

/-- source/Populations.hpp:457-491: the entries `(wavelength, origin)` of `default_grid` before sorting:
continua, then lines. -/
def defaultGrid (m : Model K) : List (K × Nat) :=
  (m.conts.mapIdx fun kr t => t.waves.map fun w => (w, m.lines.length + kr)).flatten
    ++ (m.lines.mapIdx fun kr t => t.waves.map fun w => (w, kr)).flatten

/-- `is_active`, source/Populations.hpp:527-529. -/
def isActive (m : Model K) (w : K) (t : Nat) : Bool :=
  match m.trans[t]? with
  | some tr => decide (w ≥ tr.blue) && decide (w ≤ tr.red)
  | none => false

/-- `get_active_trans`, source/Populations.hpp:531-545. -/
def activeTrans (m : Model K) (w : K) : List Nat := (List.range m.trans.length).filter (isActive m w)

/-- `lambda0[t]`. -/
def lambda0 (m : Model K) (t : Nat) : K := ((m.trans[t]?).map (·.lambda0)).getD 0

/-- source/Populations.hpp:559-568: the scan for the governing transition, state `(min_weight,
governing_trans)`. -/
def govScan (m : Model K) (w : K) (linesOnly : Bool) (s : K × Nat) (t : Nat) : K × Nat :=
  if !linesOnly || decide (t < m.lines.length) then
    let invWeight := |w - lambda0 m t|
    if invWeight < s.1 then (invWeight, t) else s
  else s

/-- source/Populations.hpp:553-568: the governing transition of a wavelength; `none`: `active_trans[0]` does not
exist (UB). -/
def governing (m : Model K) (w : K) : Option Nat :=
  match activeTrans m w with
  | [] => none
  | a :: as =>
    let linesOnly := decide (a < m.lines.length)
    some (((a :: as).foldl (govScan m w linesOnly) (100000000, a)).2)

/-- source/Populations.hpp:547-586: `new_grid` with `gov_trans`, from the sorted `default_grid`. `none`: UB. -/
def newGrid (m : Model K) (sorted : List (K × Nat)) : Option (List (K × Nat)) :=
  match sorted with
  | [] => some []
  | (w, o) :: rest =>
    match governing m w with
    | none => none
    | some g =>
      match newGrid m rest with
      | none => none
      | some gr => some (if o = g then (w, g) :: gr else gr)

/-- `std::sort` of `default_grid` by wavelength (source/Populations.hpp:492-498): any permutation that is sorted; the
order of entries with equal wavelength is not specified. -/
def IsSorted (m : Model K) (sorted : List (K × Nat)) : Prop :=
  sorted.Perm (defaultGrid m) ∧ sorted.Pairwise fun a b => a.1 ≤ b.1

/-- source/Populations.hpp:594-599: `wavelength_bin`. Fewer than two wavelengths read out of bounds. -/
def wavelengthBin (g : List K) : Outcome (List K) :=
  if g.length < 2 then .ub
  else .ok ((List.range g.length).map fun la =>
    if la = 0 then (1 / 2) * (g.getD 1 0 - g.getD 0 0)
    else if la = g.length - 1 then (1 / 2) * (g.getD (g.length - 1) 0 - g.getD (g.length - 2) 0)
    else (1 / 2) * (g.getD (la + 1) 0 - g.getD (la - 1) 0))

/-- `std::lower_bound` / `std::upper_bound` on the grid, source/Populations.hpp:604-613: index of the first element
not less than (greater than) the value. Simplification: the library search is represented by its result. -/
def blueIdx (g : List K) (t : Trans K) : Nat := (g.takeWhile fun w => decide (w < t.blue)).length
/-- See `blueIdx`. -/
def redIdx (g : List K) (t : Trans K) : Nat := (g.takeWhile fun w => !decide (t.red < w)).length

/-- `CompLine::is_active` / `CompCont::is_active`, source/Types.hpp:677-679, 701-703. -/
def activeAt (g : List K) (t : Trans K) (la : Nat) : Bool := decide (la ≥ blueIdx g t) && decide (la < redIdx g t)

/-- source/Populations.hpp:692-716: the flat buffer of active transitions (narrowed to `u16` when stored) with
its start and end indices per wavelength, for one kind of transition. -/
def activeSets (g : List K) (ts : List (Trans K)) : List Nat × List (Nat × Nat) :=
  (List.range g.length).foldl (fun acc la =>
    let start := acc.1.length
    let buf := acc.1 ++ (((List.range ts.length).filter fun kr =>
      match ts[kr]? with | some t => activeAt g t la | none => false).map (· % 65536))
    (buf, acc.2 ++ [(start, buf.length)])) ([], [])

/-- `slice_active_set` / `slice_active_cont_set`, source/Utils.hpp:154-181. -/
def sliceActive (s : List Nat × List (Nat × Nat)) (la : Nat) : List Nat :=
  match s.2[la]? with
  | some (a, b) => (s.1.drop a).take (b - a)
  | none => []

/-- source/Populations.hpp:625-652: `sigma_start`, `sigma_end` of the continua. -/
def sigmaRanges (g : List K) (conts : List (Trans K)) : List (Nat × Nat) :=
  (conts.foldl (fun (acc : Nat × List (Nat × Nat)) t =>
    (acc.1 + (redIdx g t - blueIdx g t), acc.2 ++ [(acc.1, acc.1 + (redIdx g t - blueIdx g t))])) (0, [])).2

/-- source/Populations.hpp:625-652: the concatenated cross-sections; `f kr la` is the interpolated cross-section of
continuum `kr` at grid point `la`. Simplification: `sigma(sigma_offset + la - blue_idx) = ..` over consecutive `la` is
appending. -/
def sigmaFill (g : List K) (conts : List (Trans K)) (f : Nat → Nat → K) : List K :=
  (List.range conts.length).foldl (fun buf kr =>
    match conts[kr]? with
    | some t => buf ++ (List.range (redIdx g t - blueIdx g t)).map fun k => f kr (blueIdx g t + k)
    | none => buf) []

/-- source/Populations.hpp:358-374: start indices and counts of one kind of entry (levels, lines, continua or
collisions) per atom, and the total. -/
def ranges (counts : List Nat) : List (Nat × Nat) × Nat :=
  counts.foldl (fun acc c => (acc.1 ++ [(acc.2, c)], acc.2 + c)) ([], 0)

/-- source/Populations.hpp:382-389, 404-434, 445-454, 668-686: the concatenated array, filled entry by entry at
`start + i`. `none` is an element never written. -/
def concatFill {α : Type} (atoms : List (List α)) : List (Option α) :=
  let r := ranges (atoms.map List.length)
  (atoms.zip r.1).foldl (fun buf ar =>
    (ar.1.mapIdx fun i v => (ar.2.1 + i, v)).foldl (fun buf iv => buf.set iv.1 (some iv.2)) buf)
    (List.replicate r.2 none)

/-- An input model atom as far as its place in the list is concerned: mass and atomic number. -/
structure Element (K : Type) where
  mass : K
  Z : Nat

/-- `std::sort` of the models by mass, source/Populations.hpp:322-329: any sorted permutation. -/
def SortedByMass (models sorted : List (Element K)) : Prop :=
  sorted.Perm models ∧ sorted.Pairwise fun a b => a.mass ≤ b.mass

/-- source/Populations.hpp:768: `have_h_model`; `models[0]` of an empty list is UB. -/
def haveH (sorted : List (Element K)) : Outcome Bool :=
  match sorted with
  | [] => .ub
  | a :: _ => .ok (a.Z == 1)

end Atomic
end DexRT
