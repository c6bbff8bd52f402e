import Verif.Model.Crtaf
/-!
Specification of reading a model atom (C69): which entries can be understood, and what they describe.
-/
namespace DexRT
open Crtaf
variable {K : Type} [Field K] [LinearOrder K]

/-- The value of a natural broadening entry. -/
def naturalOf : BroadNode K → Option K
  | .natural v => some v
  | _ => none

/-- The parameters of a scaled broadening entry. -/
def scaledOf : BroadNode K → Option (Scaled K)
  | .scaled a b c d => some ⟨a, b, c, d⟩
  | _ => none

/-- A line entry that cannot be understood: unknown type, level name, broadening or grid, two natural broadenings, negative count. -/
def LineBad (f : File K) (l : LineNode K) : Prop :=
  (l.type ≠ "Voigt" ∧ l.type ≠ "PRD-Voigt") ∨ l.upper ∉ f.levels.map (·.key) ∨ l.lower ∉ f.levels.map (·.key) ∨
  BroadNode.other ∈ l.broad ∨ 2 ≤ (l.broad.filterMap naturalOf).length ∨ l.grid = .other ∨
  ∃ half n, l.grid = .linear half n ∧ n < 0

/-- A continuum entry that cannot be understood. -/
def ContBad (f : File K) (c : ContNode K) : Prop :=
  c.upper ∉ f.levels.map (·.key) ∨ c.lower ∉ f.levels.map (·.key) ∨ c.type ≠ "Tabulated"

/-- The collision types there are. -/
def collNames : List (String × CollType) :=
  [("Omega", .omega), ("CI", .ci), ("CE", .ce), ("CP", .cp), ("CH", .ch), ("ChargeExcH", .chargeExcH), ("ChargeExcP", .chargeExcP)]

/-- A collision entry that cannot be understood. -/
def CollBad (f : File K) (c : CollNode K) : Prop :=
  c.upper ∉ f.levels.map (·.key) ∨ c.lower ∉ f.levels.map (·.key) ∨ ∃ d ∈ c.data, d.type ∉ collNames.map (·.1)

/-- The level `i` of the atom is the one called `name`. -/
def Named (levels : List (Level K)) (i : ℕ) (name : String) : Prop := (levels[i]?).map (·.key) = some name

/-- The wavelengths a line entry asks for. -/
def GridOf (lambda0 : K) (n : GridNode K) (w : List (Option K)) : Prop :=
  match n with
  | .linear half n => w.length = n.toNat ∧ (n ≠ 1 → ∀ i : ℕ, i < n.toNat →
      w[i]? = some (some (lambda0 - half + (i : K) * (2 * half / ((n : K) - 1)))))
  | .tabulated l => w = l.map fun e => some (lambda0 + e)
  | .other => False

/-- A line as its entry describes it. -/
def LineOf (levels : List (Level K)) (n : LineNode K) (l : Line K) : Prop :=
  Named levels l.j n.upper ∧ Named levels l.i n.lower ∧ (l.prd = true ↔ n.type = "PRD-Voigt") ∧ l.f = n.f ∧ l.aji = n.aji ∧
  l.bji = n.bji ∧ l.bjiWave = n.bjiWave ∧ l.bij = n.bij ∧ l.bijWave = n.bijWave ∧ l.lambda0 = n.lambda0 ∧
  l.gNatural = (n.broad.filterMap naturalOf).head? ∧
  l.broad = (n.broad.filterMap scaledOf) ∧ GridOf n.lambda0 n.grid l.waves

/-- A continuum as its entry describes it. -/
def ContOf (levels : List (Level K)) (n : ContNode K) (c : Cont K) : Prop :=
  Named levels c.j n.upper ∧ Named levels c.i n.lower ∧ c.waves.zip c.sigma = n.value ∧ c.waves.length = c.sigma.length

/-- A collisional rate as entry `n.2` of `n.1` describes it. -/
def CollOf (levels : List (Level K)) (n : CollNode K × CollData K) (c : Coll K) : Prop :=
  Named levels c.j n.1.upper ∧ Named levels c.i n.1.lower ∧ (n.2.type, c.type) ∈ collNames ∧ c.temperature = n.2.temperature ∧
  c.data = n.2.data

/-- A file that cannot be understood. -/
def FileBad (f : File K) : Prop :=
  f.hasMeta = false ∨ f.level ≠ "simplified" ∨ (∃ l ∈ f.lines, LineBad f l) ∨ (∃ c ∈ f.conts, ContBad f c) ∨ ∃ c ∈ f.colls, CollBad f c

end DexRT
