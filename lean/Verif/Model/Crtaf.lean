import Verif.Model.AtomicData
/-!
Model of reading a model atom, `parse_crtaf_model`, source/CrtafParser.hpp:15-208, on the decoded YAML tree: that the fields
exist and have the right scalar types is left to the YAML library, which throws otherwise. Numbers are elements of an ordered field; a value
that is not a finite number, or that is never set, is `none`.
-/
namespace DexRT
namespace Crtaf
variable {K : Type} [Field K] [LinearOrder K]

/-- Entry of `levels`, source/CrtafParser.hpp:42-55, and `AtomicLevel`. -/
structure Level (K : Type) where
  key : String
  energy : K
  g : ℤ
  stage : ℤ

/-- Entry of `broadening`, source/CrtafParser.hpp:91-111. -/
inductive BroadNode (K : Type) where
  | natural (v : K)
  | scaled (scaling temperature hydrogen electron : K)
  | other

/-- `wavelength_grid`, source/CrtafParser.hpp:113-132. -/
inductive GridNode (K : Type) where
  | linear (half : K) (n : ℤ)
  | tabulated (l : List K)
  | other

/-- Entry of `lines`, source/CrtafParser.hpp:66-87. -/
structure LineNode (K : Type) where
  type : String
  upper : String
  lower : String
  f : K
  aji : K
  bji : K
  bjiWave : K
  bij : K
  bijWave : K
  lambda0 : K
  broad : List (BroadNode K)
  grid : GridNode K

/-- Entry of `continua`, source/CrtafParser.hpp:137-160. -/
structure ContNode (K : Type) where
  type : String
  upper : String
  lower : String
  value : List (K × K)

/-- Entry of `data` of a collision, source/CrtafParser.hpp:168-200. -/
structure CollData (K : Type) where
  type : String
  temperature : List K
  data : List K

/-- Entry of `collisions`, source/CrtafParser.hpp:162-167. -/
structure CollNode (K : Type) where
  upper : String
  lower : String
  data : List (CollData K)

/-- The file. -/
structure File (K : Type) where
  hasMeta : Bool
  level : String
  levels : List (Level K)
  lines : List (LineNode K)
  conts : List (ContNode K)
  colls : List (CollNode K)

/-- `ScaledExponentsBroadening`, source/Types.hpp:531-537. -/
structure Scaled (K : Type) where
  scaling : K
  temperature : K
  hydrogen : K
  electron : K

/-- `AtomicLine`, source/Types.hpp:539-566. `gNatural = none`: never assigned (no initialiser at source/Types.hpp:548, and
`AtomicLine<T> new_line;` leaves it indeterminate). -/
structure Line (K : Type) where
  prd : Bool
  j : ℕ
  i : ℕ
  f : K
  gNatural : Option K
  aji : K
  bji : K
  bjiWave : K
  bij : K
  bijWave : K
  lambda0 : K
  broad : List (Scaled K)
  waves : List (Option K)

/-- `AtomicContinuum`, source/Types.hpp:568-578. -/
structure Cont (K : Type) where
  j : ℕ
  i : ℕ
  waves : List K
  sigma : List K

/-- `CollRateType`, source/Types.hpp:580-595. -/
inductive CollType where
  | omega | ci | ce | cp | ch | chargeExcH | chargeExcP
deriving DecidableEq

/-- `InterpCollRate`, source/Types.hpp:597-608. -/
structure Coll (K : Type) where
  j : ℕ
  i : ℕ
  type : CollType
  temperature : List K
  data : List K

/-- `ModelAtom`, source/Types.hpp:625-644, without the element. -/
structure Atom (K : Type) where
  levels : List (Level K)
  lines : List (Line K)
  conts : List (Cont K)
  colls : List (Coll K)

/-- `std::sort` by energy, source/CrtafParser.hpp:57-59: any sorted permutation. -/
def SortedByEnergy (levels sorted : List (Level K)) : Prop :=
  sorted.Perm levels ∧ sorted.Pairwise fun a b => a.energy ≤ b.energy

/-- `level_idx_mapping`, source/CrtafParser.hpp:61-65: later entries overwrite earlier ones. -/
def mapping (levels : List (Level K)) : String → Option ℕ :=
  levels.zipIdx.foldl (fun m p => fun k => if k = p.1.key then some p.2 else m k) fun _ => none

/-- `level_idx_mapping.at(key)`: throws if there is no such key. -/
def at_ (levels : List (Level K)) (key : String) : Outcome ℕ :=
  match mapping levels key with
  | some i => .ok i
  | none => .throws

/-- The loop over `broadening`, source/CrtafParser.hpp:89-111: state `(g_natural, broadening)`; `got_natural` says whether the first is
set. -/
def broadStep (s : Option K × List (Scaled K)) : BroadNode K → Outcome (Option K × List (Scaled K))
  | .natural v => if s.1.isSome then .throws else .ok (some v, s.2)
  | .scaled sc t h e => .ok (s.1, s.2 ++ [⟨sc, t, h, e⟩])
  | .other => .throws

/-- `Linear` grid, source/CrtafParser.hpp:115-123. `reserve` of a negative number throws; with one point the step is
`2 * half / 0`, infinite or NaN, and `0 * step` is NaN. -/
def linearGrid (lambda0 half : K) (n : ℤ) : Outcome (List (Option K)) :=
  if n < 0 then .throws
  else .ok ((List.range n.toNat).map fun (i : ℕ) =>
    if n - 1 = 0 then none else some (lambda0 - half + (i : K) * ((half + half) / ((n - 1 : ℤ) : K))))

/-- Wavelength grid of a line, source/CrtafParser.hpp:113-132. -/
def grid (lambda0 : K) : GridNode K → Outcome (List (Option K))
  | .linear half n => linearGrid lambda0 half n
  | .tabulated l => .ok (l.map fun e => some (lambda0 + e))
  | .other => .throws

/-- A line, source/CrtafParser.hpp:66-135. -/
def parseLine (levels : List (Level K)) (l : LineNode K) : Outcome (Line K) := do
  let prd ← (if l.type = "Voigt" then .ok false else if l.type = "PRD-Voigt" then .ok true else .throws : Outcome Bool)
  let j ← at_ levels l.upper
  let i ← at_ levels l.lower
  let b ← l.broad.foldlM broadStep (none, [])
  let w ← grid l.lambda0 l.grid
  .ok { prd := prd, j := j, i := i, f := l.f, gNatural := b.1, aji := l.aji, bji := l.bji, bjiWave := l.bjiWave, bij := l.bij,
        bijWave := l.bijWave, lambda0 := l.lambda0, broad := b.2, waves := w }

/-- A continuum, source/CrtafParser.hpp:137-160 (`lambda_edge` is not used). -/
def parseCont (levels : List (Level K)) (c : ContNode K) : Outcome (Cont K) := do
  let j ← at_ levels c.upper
  let i ← at_ levels c.lower
  if c.type ≠ "Tabulated" then .throws
  else .ok { j := j, i := i, waves := c.value.map (·.1), sigma := c.value.map (·.2) }

/-- source/CrtafParser.hpp:173-191. -/
def collType (s : String) : Outcome CollType :=
  if s = "Omega" then .ok .omega else if s = "CI" then .ok .ci else if s = "CE" then .ok .ce else if s = "CP" then .ok .cp
  else if s = "CH" then .ok .ch else if s = "ChargeExcH" then .ok .chargeExcH else if s = "ChargeExcP" then .ok .chargeExcP
  else .throws

/-- A collision entry, source/CrtafParser.hpp:162-204: one rate per entry of its `data`. -/
def parseColl (levels : List (Level K)) (c : CollNode K) : Outcome (List (Coll K)) := do
  let j ← at_ levels c.upper
  let i ← at_ levels c.lower
  c.data.mapM fun d => do
    let t ← collType d.type
    .ok { j := j, i := i, type := t, temperature := d.temperature, data := d.data }

/-- `parse_crtaf_model`, source/CrtafParser.hpp:15-208; `levels` is what the sort made of the levels. -/
def parse (f : File K) (levels : List (Level K)) : Outcome (Atom K) :=
  if f.hasMeta then
    if f.level ≠ "simplified" then .throws
    else do
      let lines ← f.lines.mapM (parseLine levels)
      let conts ← f.conts.mapM (parseCont levels)
      let colls ← f.colls.mapM (parseColl levels)
      .ok { levels := levels, lines := lines, conts := conts, colls := colls.flatten }
  else .throws

/-! ### What `to_atomic_data` does with it -/

/-- The tables of the collisions, source/Populations.hpp:654-688: `temperature(temp_offset + temp_idx)`,
`coll_rates(temp_offset + temp_idx)` with `coll.data[temp_idx]`, which is out of bounds if there are fewer data than temperatures. Result:
temperatures, data, and `(start_idx, end_idx)` per collision. -/
def collTables (colls : List (Coll K)) : Outcome (List K × List K × List (ℕ × ℕ)) :=
  colls.foldlM (fun s c =>
    if c.data.length < c.temperature.length then .ub
    else .ok (s.1 ++ c.temperature, s.2.1 ++ c.data.take c.temperature.length, s.2.2 ++ [(s.1.length, s.1.length + c.temperature.length)]))
    ([], [], [])

/-- `front()` and `back()` of the wavelength grids, source/Populations.hpp:507-523: UB on empty grids. -/
def frontBack {α : Type} (w : List α) : Outcome (α × α) :=
  match w.head?, w.getLast? with
  | some a, some b => .ok (a, b)
  | _, _ => .ub

end Crtaf
end DexRT
