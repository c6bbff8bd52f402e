import Verif.Model.LteRun3
import Verif.Model.NlteRun
/-!
Model of a `NonLte` run in 3D: the loop of source/main_3d.cpp:807-880, from the LTE start on, with `dynamic_formal_sol_rc_3d`
(source/DynamicFormalSolution3d.cpp:849-893) including its additions to the rate matrices (lines 122-299),
`compute_collisions_to_gamma` (source/Collisions.cpp:4-49), `compute_profile_normalisation`
(source/ProfileNormalisation.cpp:26-143) and `stat_eq_impl` (source/Populations.cpp:380-633). Composed from the models of the
parts. Simplifications: those of the 3D `Lte` run (exact real arithmetic, one rank, all probes computed, no levels of detail);
no charge or pressure conservation, no Ng acceleration, no restart or special initial populations (the defaults); every atom is
solved (`AtomicTreatment::Active`, the default), so atom `ia` has matrix `Gamma[ia]` (C48).
-/
namespace DexRT.Nlte3
open DexRT DexRT.Fs DexRT.AtmosFile DexRT.Dir DexRT.Given3 DexRT.Emis DexRT.Lte3 DexRT.RadGamma DexRT.Rates Classical
open DexRT.Nlte (RawColl collsOf block setBlock sliceCol addOps passesG batchesCpuG batchesDevG writeCol solveCell)

/-- What a `NonLte` run depends on besides the atmosphere. -/
structure Setup where
  r : Lte3.Run
  /-- `FP(1e-20)` of the rates -/
  eps : ℝ
  /-- `wavelength_bin` -/
  bin : List ℝ
  /-- `(line_start, num_line)`, `(cont_start, num_cont)` of the atoms -/
  lineRange : List (Nat × Nat)
  contRange : List (Nat × Nat)
  /-- constants of the collisional rates -/
  ck : DexRT.Lte.Consts
  /-- the collisions of each atom -/
  colls : Nat → List RawColl
  /-- `ignore_change_below_ntot_frac`, source/main_3d.cpp:866-876 -/
  ignoreFrac : ℝ
  /-- `config.pop_tol`, `max_iter`, `initial_lambda_iterations` -/
  tol : ℝ
  maxIter : Nat
  initial : Nat

/-- What the rates read, source/DynamicFormalSolution3d.cpp:122-199. -/
def Setup.env (q : Setup) : RadGamma.Env :=
  { k := q.r.k, eps := q.eps, phi := q.r.phi, ad := q.r.ad, bin := q.bin, lineRange := q.lineRange, contRange := q.contRange,
    numLevel := q.r.ad.atoms.map fun a => a.top + 1 }

/-- Rays and quadrature, source/DynamicFormalSolution3d.cpp:122-163. -/
def Setup.quad (q : Setup) (Nx Ny Nz : Nat) : Quad3 := { cfg := q.r.s.cfg, c0 := c0Of q.r.s Nx Ny Nz, len := q.r.s.len, num := q.r.s.num }

/-! ### Collisions -/

/-- What the collisional rates read of cell `ks`, source/Collisions.hpp:45-175. -/
def collCell (st : Started) (ks : Nat) : DexRT.Lte.Cell :=
  { temperature := st.atmos.temperature ks, ne := st.atmos.ne ks, nhTot := st.atmos.nhTot ks, nh0 := st.nh0 ks }

/-- One thread of source/Collisions.cpp:31-45: atom and cell `t`. -/
noncomputable def collThread (q : Setup) (st : Started) (nStar : PopsField.Pops) (G : Elem → ℝ) (t : Nat × Nat) : Outcome (Elem → ℝ) := do
  let x ← readAt q.r.ad.atoms t.1
  let sl ← readAt (Atomic.ranges (PopsField.numLevels (LteRun.fieldAtoms q.r.ad))).1 t.1
  let cs ← collsOf (x.top + 1) (q.colls t.1)
  let ns ← sliceCol nStar sl (x.top + 1) t.2
  let C ← DexRT.Lte.computeCollisions q.ck x.lv (collCell st t.2) ns cs (block G t.1 (x.top + 1) t.2)
  .ok (setBlock G t.1 (x.top + 1) t.2 C)

/-- `compute_collisions_to_gamma`, source/Collisions.cpp:4-49: LTE populations into a new array (threads in the order `lte`, `old`
what memory held), matrices cleared, rates added (threads `sched`: atom, cell). -/
noncomputable def collGamma (q : Setup) (st : Started) (lte sched : List (Nat × Nat)) (old : Nat → ℝ) : Outcome (Elem → ℝ) := do
  let nStar ← PopsField.computeLtePops q.r.k.kB q.r.k.dbc q.r.k.fmin (LteRun.fieldAtoms q.r.ad) (LteRun.popAtmos st.atmos) lte { st.pops with mem := old }
  sched.foldlM (collThread q st nStar) (fun _ => 0)

/-! ### Rates -/

/-- What a thread of the rates reads of cell `ks` at coordinate `c`, source/DynamicFormalSolution3d.cpp:152-199. -/
def gammaCell (r : Lte3.Run) (st : Started) (scratch : Emis.Pops) (ks : Nat) (c : Coord3) : RadGamma.Cell :=
  { ks := ks, u := c.x.toNat, v := c.y.toNat, w := c.z.toNat, temperature := st.atmos.temperature ks, ne := st.atmos.ne ks,
    vturb := st.atmos.vturb ks, nhtot := st.atmos.nhTot ks, nh0 := st.nh0 ks, vx := st.atmos.vx ks, vy := st.atmos.vy ks,
    vz := st.atmos.vz ks, n := LteRun.popsAt r.ad st.pops ks, nStar := scratch }

/-- The cells of the loops over the map (`ks = loop_idx`, `loop_coord`), source/DynamicFormalSolution3d.cpp:142-160,
source/ProfileNormalisation.cpp:60-68. The threads run in any order (C80_threads3); here they are listed in the order of the tiles. -/
noncomputable def cellList (r : Lte3.Run) (st : Started) (scratch : Int → Emis.Pops) : Outcome (List RadGamma.Cell) :=
  opsLoop (fun p : Nat × Int => do
    let ks := (geo3 r.s.B).loopIdx p.1 p.2
    let c ← loopCoord3 r.s.B st.g.bm p.1 p.2
    if 0 ≤ ks ∧ ks < numActiveCells ((r.s.B : Int) * (r.s.B : Int) * (r.s.B : Int)) st.g.bm ∧ 0 ≤ c.x ∧ 0 ≤ c.y ∧ 0 ≤ c.z then .ok [gammaCell r st (scratch ks) ks.toNat c] else .ub)
    (loopIters (r.s.B * r.s.B * r.s.B) st.g.bm)

/-- `compute_profile_normalisation`, source/ProfileNormalisation.cpp:26-143: `wphi(kr, ks)` for all lines and cells. -/
noncomputable def allWphi (q : Setup) (st : Started) : Outcome (Nat → Nat → ℝ) := do
  let g := q.quad st.g.nx.toNat st.g.ny.toNat st.g.nz.toNat
  let cells ← cellList q.r st (fun _ _ _ => 0)
  let w ← Given.forAll (fun x : Nat × RadGamma.Cell => wphiOf q.env x.2 (normRays3 g x.2) x.1) 0
    ((List.range q.r.ad.lines.length).flatMap fun kr => cells.map fun c => (kr, c))
  .ok (fun ks kr => match cells.find? (fun c => c.ks = ks) with
    | some c => w (kr, c)
    | none => 0)

/-- `lte_scratch` of a cell after source/Mipmaps3d.cpp:68-102. -/
noncomputable def scratchVal (r : Run) (st : Started) (o : LaOrder) (la ks : Nat) : Outcome Emis.Pops := do
  let res ← emisOpac r.k r.phi r.ad la (LteRun.popsAt r.ad st.pops ks) (o.scratch ks) (pointAt st ks)
    (some (scan Line.isActive r.ad.lines la)) (some (scan Cont.isActive r.ad.conts la)) true .StaticOnly
  .ok res.2

/-- `dynamic_formal_sol_rc_3d`, source/DynamicFormalSolution3d.cpp:849-893, at wavelength `la`. -/
noncomputable def waveG (q : Setup) (st : Started) (o : LaOrder) (lam : Bool) (w : Nat → Nat → ℝ) (la : Nat) (G : Elem → ℝ) (J : Arr2 ℝ) :
    Outcome ((Elem → ℝ) × Arr2 ℝ) := do
  let r := q.r
  let A ← arrays r st o la
  let scr ← cellCol r.s st.g (scratchVal r st o la) o.b.copy (fun ks => o.scratch ks.toNat)
  let Nx := st.g.nx.toNat
  let Ny := st.g.ny.toNat
  let Nz := st.g.nz.toNat
  let e0 := envOf r.s Nx Ny Nz (fun _ _ _ => ⟨0, 0, 0⟩)
  let e := envOf r.s Nx Ny Nz (marchOf (memWorld r st o A) e0 r.s.len la)
  let cells ← cellList r st scr
  passesG (fun t m => pass3 e t lam (o.b.rc t) m)
    (fun t c0 ps => computeGamma3 q.env (q.quad Nx Ny Nz) (fun c kr => w c.ks kr) cells la t c0 ps)
    (fun t c0 J => mergeC0ToJ3 (mergeEnv r.s st.g.bm Nx Ny Nz) la c0 (o.b.j t) J)
    (List.range (subsetTasks3 r.s.cfg)) o.b.mem G J

/-! ### Statistical equilibrium -/

/-- source/Populations.cpp:421-633 for atom and cell `t`; `elim` is `i_elim`. The state is the populations and the running
maximum of the changes. Simplification: the kernel that solves all cells and the one that updates all cells are one (cells
do not read each other's populations). -/
noncomputable def statThread (q : Setup) (st : Started) (G : Elem → ℝ) (elim : Nat → Nat → Nat) (s : PopsField.Pops × ℝ) (t : Nat × Nat) :
    Outcome (PopsField.Pops × ℝ) := do
  let x ← readAt q.r.ad.atoms t.1
  let sl ← readAt (Atomic.ranges (PopsField.numLevels (LteRun.fieldAtoms q.r.ad))).1 t.1
  let ntot := st.atmos.nhTot t.2 * x.abundance
  let old ← sliceCol s.1 sl (x.top + 1) t.2
  let new ← solveCell (x.top + 1) (elim t.1 t.2) (block G t.1 (x.top + 1) t.2) ntot
  let p ← writeCol sl (x.top + 1) t.2 new s.1
  .ok (p, (List.finRange (x.top + 1)).foldl (fun c l => max c (StatEq.change q.ignoreFrac ntot (old l) (new l))) s.2)

/-- `stat_eq_impl`, source/Populations.cpp:380-633: populations and `global_max_change`. -/
noncomputable def statEq (q : Setup) (st : Started) (G : Elem → ℝ) (elim : Nat → Nat → Nat) (sched : List (Nat × Nat)) :
    Outcome (PopsField.Pops × ℝ) :=
  sched.foldlM (statThread q st G elim) (st.pops, 0)

/-! ### The loop -/

/-- Orders and old contents of memory of one iteration. -/
structure IterOrder where
  nh0 : List Nat
  lte : List (Nat × Nat)
  coll : List (Nat × Nat)
  oldStar : Nat → ℝ
  batch : Nat → LaOrder
  elim : Nat → Nat → Nat
  stat : List (Nat × Nat)

/-- What an iteration leaves: the state, J, the matrices and the largest change. -/
structure Iterated where
  st : Started
  J : Arr2 ℝ
  G : Elem → ℝ
  change : ℝ

/-- One pass through the loop body, source/main_3d.cpp:808-876. -/
noncomputable def iterate3 (q : Setup) (lam : Bool) (o : IterOrder) (st0 : Started) : Outcome Iterated := do
  let r := q.r
  let h ← PopsField.computeNh0 r.sahaConst r.ionE r.haveH (LteRun.popAtmos st0.atmos) st0.pops o.nh0 st0.nh0
  let st := { st0 with nh0 := h }
  let G0 ← collGamma q st o.lte o.coll o.oldStar
  let w ← allWphi q st
  let nw := st.g.nw.toNat
  let sol := fun la G J => waveG q st (o.batch la) lam w la G J
  let x ← if r.onCpu then
      batchesCpuG sol (fun la => min 1 (nw - la)) (List.range nw) G0 ⟨1, Given3.jCols r.s st.g, fun _ _ => 0⟩ ⟨nw, Given3.jCols r.s st.g, fun _ _ => 0⟩
    else batchesDevG sol (List.range nw) G0 ⟨nw, Given3.jCols r.s st.g, fun _ _ => 0⟩
  let p ← statEq q st x.1 o.elim o.stat
  .ok { st := { st with pops := p.1 }, J := x.2, G := x.1, change := p.2 }

/-- The loop, source/main_3d.cpp:807-880, from iteration `i` on with at most `fuel = max_iter - i` iterations to go; `last` is what
the iteration before left. The number of iterations and what the last one left. -/
noncomputable def loop3 (q : Setup) (o : Nat → IterOrder) : (fuel i : Nat) → Iterated → Outcome (Nat × Iterated)
  | 0, i, last => .ok (i, last)
  | fuel + 1, i, last =>
    if last.change > q.tol ∨ i < q.initial + 1 then do
      let next ← iterate3 q (decide (i < q.initial)) (o i) last.st
      loop3 q o fuel (i + 1) next
    else .ok (i, last)

/-- A whole run, source/main_3d.cpp:724-930: the number of iterations and the final state; `max_change` starts as 1. -/
noncomputable def runNlte3 {W : Type} (q : Setup) (cv : W → ℝ) (f : NcFile Coord3 W) (o0 : StartOrder) (o : Nat → IterOrder) :
    Outcome (Nat × Iterated) := do
  let st ← start3 q.r cv f o0
  loop3 q o q.maxIter 0 { st := st, J := ⟨st.g.nw.toNat, Given3.jCols q.r.s st.g, fun _ _ => 0⟩, G := fun _ => 0, change := 1 }

end DexRT.Nlte3
