import Verif.Model.LineSweep
/-!
Specification for line sweeping: points of a line, the box, the family of parallel lines one step apart, sums of numbers of
samples, and the transfer along consecutive pieces. Nothing here follows the search or the loops of the code.
-/
namespace DexRT.LineSweep
open DexRT

/-- Point of a line at distance `t` from its origin. -/
def along (o d : Fin 2 → ℝ) (t : ℝ) : Fin 2 → ℝ := fun i => o i + t * d i

/-- The closed box. -/
def InBox (b : Box) (q : Fin 2 → ℝ) : Prop := ∀ i, (b.lo i : ℝ) ≤ q i ∧ q i ≤ b.hi i

/-- Origin of line `k` of the family: `k` steps along the axis `p` from `o`. -/
noncomputable def shifted (o : Fin 2 → ℝ) (p : Fin 2) (step : ℝ) (k : ℤ) : Fin 2 → ℝ := fun i => if i = p then o i + k * step else o i

/-- A direction, a box and a step that line sweeping can meet: a unit vector without zero component, a box not larger than
2^28 and with sides of at least half a step and half a voxel; step at least two (cascade 1 or above). -/
structure Geometry (b : Box) (d : Fin 2 → ℝ) (step : ℝ) : Prop where
  unitary : d 0 ^ 2 + d 1 ^ 2 = 1
  nz : ∀ i, d i ≠ 0
  size : ∀ i, (b.hi i - b.lo i : ℝ) ≤ 2 ^ 28
  wide : ∀ i, step / 2 + 1 / 2 ≤ (b.hi i - b.lo i : ℝ)
  two : 2 ≤ step

/-- Emission that comes out of consecutive pieces, the last one nearest: each piece is seen through the ones after it. -/
noncomputable def emerging : List (ℝ × ℝ) → ℝ
  | [] => 0
  | x :: l => x.1 * (l.map Prod.snd).prod + emerging l

/-- The loops that look for lines end, with the lines `ls`. -/
def IsSet (b : Box) (d : Fin 2 → ℝ) (step : ℝ) (ls : LineSet) : Prop :=
  ∃ F, ∀ fuel, F ≤ fuel → lineSet b d step fuel = .ok (some ls)

/-- Every line of the set has its stretch of samples in the storage `st`, from index `start[i]`. -/
structure Stored (ls : LineSet) (start : List ℤ) (st : List (ℝ × ℝ)) : Prop where
  len : start.length = ls.lines.length
  low : ∀ x ∈ start, 0 ≤ x
  high : ∀ i (h : i < ls.lines.length) (h' : i < start.length), start[i] + ls.lines[i].num ≤ st.length

/-- The probe at `p` is not before the first line of the set. -/
def Behind (ls : LineSet) (p : Fin 2 → ℝ) : Prop := ∀ l0, ls.lines[0]? = some l0 →
  ∃ s t : ℝ, 0 ≤ s ∧ ∀ i, p i = (if i = ls.axis then l0.o i + s else l0.o i) + t * ls.d i

end DexRT.LineSweep
