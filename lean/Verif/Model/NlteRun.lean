import Verif.Model.LteRun
import Verif.Model.RadGamma
import Verif.Model.StatEq
/-!
Model of a `NonLte` run in 2D: the loop of source/main.cpp:980-1050, from the LTE start on, with `dynamic_formal_sol_rc`
(source/DynamicFormalSolution.cpp:407-513) including its additions to the rate matrices, `compute_collisions_to_gamma`
(source/Collisions.cpp:4-49), `compute_profile_normalisation` (source/ProfileNormalisation.cpp:26-143) and `stat_eq_impl`
(source/Populations.cpp:380-633). Composed from the models of the parts.
Simplifications: those of the `Lte` run (exact real arithmetic, one rank, all probes computed, no levels of detail); no charge
or pressure conservation, no Ng acceleration, no restart or special initial populations (the defaults); every atom is solved
(`AtomicTreatment::Active`, the default), so atom `ia` has matrix `Gamma[ia]` (C48).
-/
namespace DexRT.Nlte
open DexRT DexRT.Fs DexRT.AtmosFile DexRT.Dir DexRT.Given DexRT.Emis DexRT.LteRun DexRT.RadGamma DexRT.Rates Classical

/-- A collisional transition with its tables, `CompColl`, source/Types.hpp. -/
structure RawColl where
  type : DexRT.Lte.CollType
  i : Nat
  j : Nat
  temps : List ℝ
  rates : List ℝ

/-- What a `NonLte` run depends on besides the atmosphere. -/
structure Setup where
  r : LteRun.Lte
  /-- `FP(1e-20)` of the rates -/
  eps : ℝ
  /-- `wavelength_bin` -/
  bin : List ℝ
  /-- `(line_start, num_line)`, `(cont_start, num_cont)` of the atoms -/
  lineRange : List (Nat × Nat)
  contRange : List (Nat × Nat)
  /-- constants of the collisional rates -/
  ck : DexRT.Lte.Consts
  /-- the collisions of each atom -/
  colls : Nat → List RawColl
  /-- `ignore_change_below_ntot_frac`, source/main.cpp:1023 -/
  ignoreFrac : ℝ
  /-- `config.pop_tol`, `max_iter`, `initial_lambda_iterations` -/
  tol : ℝ
  maxIter : Nat
  initial : Nat

/-- What the rates read, source/DynamicFormalSolution.cpp:170-232. -/
def Setup.env (q : Setup) : RadGamma.Env :=
  { k := q.r.k, eps := q.eps, phi := q.r.phi, ad := q.r.ad, bin := q.bin, lineRange := q.lineRange, contRange := q.contRange,
    numLevel := q.r.ad.atoms.map fun a => a.top + 1 }

/-- Rays and quadrature, source/DynamicFormalSolution.cpp:187-232; `incl_quad.muy` has `NUM_INCL` entries. -/
def Setup.quad (q : Setup) (Nx Nz : Nat) : Quad2 :=
  { cfg := q.r.s.cfg, c0 := raysToStorage q.r.s.cfg ⟨Nx, Nz, q.r.s.cfg.p0rays, q.r.s.W, q.r.s.incl⟩, len := q.r.s.len, num := q.r.s.num,
    muy := (List.range q.r.s.incl).map q.r.s.muy, wmuy := q.r.s.wmuy }

/-! ### Collisions -/

/-- The transitions of an atom with `n` levels; a level that does not exist is outside `Gamma`. -/
def collsOf (n : Nat) (l : List RawColl) : Outcome (List (DexRT.Lte.Coll n)) :=
  opsLoop (fun c => if h : c.i < n ∧ c.j < n then .ok [⟨c.type, ⟨c.i, h.1⟩, ⟨c.j, h.2⟩, c.temps, c.rates⟩] else .ub) l

/-- What the collisional rates read of cell `ks`, source/Collisions.hpp:45-175. -/
def collCell (st : Started) (ks : Nat) : DexRT.Lte.Cell :=
  { temperature := st.atmos.temperature ks, ne := st.atmos.ne ks, nhTot := st.atmos.nhTot ks, nh0 := st.nh0 ks }

/-- Element `(a, b, ks)` of matrix `ia` of `n` by `n` by `cells`. -/
def block (G : Elem → ℝ) (ia n ks : Nat) : Fin n → Fin n → ℝ := fun x y => G (ia, x, y, ks)

/-- The same block with new contents. -/
def setBlock (G : Elem → ℝ) (ia n ks : Nat) (C : Fin n → Fin n → ℝ) : Elem → ℝ := fun e =>
  if h : e.1 = ia ∧ e.2.1 < n ∧ e.2.2.1 < n ∧ e.2.2.2 = ks then C ⟨e.2.1, h.2.1⟩ ⟨e.2.2.1, h.2.2.1⟩ else G e

/-- `n_star_slice(., ks)`, source/Collisions.cpp:22-26. -/
def sliceCol (p : PopsField.Pops) (sl : Nat × Nat) (n ks : Nat) : Outcome (Fin n → ℝ) :=
  if n ≤ sl.2 ∧ sl.1 + n ≤ p.rows ∧ ks < p.cols then .ok (fun l => p.mem ((sl.1 + l) * p.cols + ks)) else .ub

/-- One thread of source/Collisions.cpp:31-45: atom and cell `t`. -/
noncomputable def collThread (q : Setup) (st : Started) (nStar : PopsField.Pops) (G : Elem → ℝ) (t : Nat × Nat) : Outcome (Elem → ℝ) := do
  let x ← readAt q.r.ad.atoms t.1
  let sl ← readAt (Atomic.ranges (PopsField.numLevels (fieldAtoms q.r.ad))).1 t.1
  let cs ← collsOf (x.top + 1) (q.colls t.1)
  let ns ← sliceCol nStar sl (x.top + 1) t.2
  let C ← DexRT.Lte.computeCollisions q.ck x.lv (collCell st t.2) ns cs (block G t.1 (x.top + 1) t.2)
  .ok (setBlock G t.1 (x.top + 1) t.2 C)

/-- `compute_collisions_to_gamma`, source/Collisions.cpp:4-49: LTE populations into a new array (threads in the order `lte`, `old`
what memory held), matrices cleared, rates added (threads `sched`: atom, cell). -/
noncomputable def collGamma (q : Setup) (st : Started) (lte sched : List (Nat × Nat)) (old : Nat → ℝ) : Outcome (Elem → ℝ) := do
  let nStar ← PopsField.computeLtePops q.r.k.kB q.r.k.dbc q.r.k.fmin (fieldAtoms q.r.ad) (popAtmos st.atmos) lte { st.pops with mem := old }
  sched.foldlM (collThread q st nStar) (fun _ => 0)

/-! ### Rates -/

/-- What a thread of the rates reads of cell `ks` at coordinate `c`, source/DynamicFormalSolution.cpp:234-262. -/
def gammaCell (r : LteRun.Lte) (st : Started) (scratch : Emis.Pops) (ks : Nat) (c : Coord2) : RadGamma.Cell :=
  { ks := ks, u := c.x.toNat, v := c.z.toNat, w := 0, temperature := st.atmos.temperature ks, ne := st.atmos.ne ks,
    vturb := st.atmos.vturb ks, nhtot := st.atmos.nhTot ks, nh0 := st.nh0 ks, vx := st.atmos.vx ks, vy := st.atmos.vy ks,
    vz := st.atmos.vz ks, n := popsAt r.ad st.pops ks, nStar := scratch }

/-- The cells of the loops over the map (`ks = loop_idx`, `loop_coord`), source/DynamicFormalSolution.cpp:234-240,
source/ProfileNormalisation.cpp:60-68. The threads run in any order (C80_threads2); here they are listed in the order of the tiles. -/
noncomputable def cellList (r : LteRun.Lte) (st : Started) (scratch : Int → Emis.Pops) : Outcome (List RadGamma.Cell) :=
  opsLoop (fun p : Nat × Int => do
    let ks := (geo2 r.s.B).loopIdx p.1 p.2
    let c ← loopCoord2 r.s.B st.g.bm p.1 p.2
    if 0 ≤ ks ∧ ks < numActiveCells ((r.s.B : Int) * (r.s.B : Int)) st.g.bm ∧ 0 ≤ c.x ∧ 0 ≤ c.z then .ok [gammaCell r st (scratch ks) ks.toNat c] else .ub)
    (loopIters (r.s.B * r.s.B) st.g.bm)

/-- `compute_profile_normalisation`, source/ProfileNormalisation.cpp:26-143: `wphi(kr, ks)` for all lines and cells. -/
noncomputable def allWphi (q : Setup) (st : Started) : Outcome (Nat → Nat → ℝ) := do
  let g := q.quad st.g.nx.toNat st.g.nz.toNat
  let cells ← cellList q.r st (fun _ _ _ => 0)
  let w ← forAll (fun x : Nat × RadGamma.Cell => normRays2 g x.2 >>= fun rays => wphiOf q.env x.2 rays x.1) 0
    ((List.range q.r.ad.lines.length).flatMap fun kr => cells.map fun c => (kr, c))
  .ok (fun ks kr => match cells.find? (fun c => c.ks = ks) with
    | some c => w (kr, c)
    | none => 0)

/-- `lte_scratch` of a cell after source/Mipmaps.cpp:69-107. -/
noncomputable def scratchVal (r : LteRun.Lte) (st : Started) (o : LteOrder) (la wv ks : Nat) : Outcome Emis.Pops := do
  let res ← fillMip0 r.k r.phi r.ad (popsAt r.ad st.pops ks) (pointAt st ks) .Continua (fun _ => false) la (la + wv) (o.scratch ks)
  .ok res.2

/-- Adding a list of contributions to memory, source/GammaMatrix.hpp:22-41; C26: any interleaving of threads gives the same. -/
noncomputable def addOps (ops : List (AddOp Elem ℝ)) (G : Elem → ℝ) : Elem → ℝ :=
  ops.foldl (fun G o => fun l => if l = o.1 then G l + o.2 else G l) G

/-- The passes of a batch, source/DynamicFormalSolution.cpp:450-512: solve, add to the matrices, add to J. -/
noncomputable def passesG (pass : Nat → Mem ℝ → Outcome (Mem ℝ)) (gamma : Nat → List ℝ → List ℝ → Outcome (List (AddOp Elem ℝ)))
    (merge : Nat → List ℝ → Arr2 ℝ → Outcome (Arr2 ℝ)) :
    List Nat → Mem ℝ → (Elem → ℝ) → Arr2 ℝ → Outcome ((Elem → ℝ) × Arr2 ℝ)
  | [], _, G, J => .ok (G, J)
  | t :: ts, m, G, J => do
    let m1 ← pass t m
    let c0 ← readAt m1.bufs 0
    let G1 ← match m1.psi with
      | none => .ok G
      | some ps => do
        let ops ← gamma t c0 ps
        .ok (addOps ops G)
    let J1 ← merge t c0 J
    passesG pass gamma merge ts m1 G1 J1

/-- `dynamic_formal_sol_rc`, source/DynamicFormalSolution.cpp:407-513, for the batch starting at `la`. -/
noncomputable def batchG (q : Setup) (st : Started) (o : LteOrder) (lam : Bool) (w : Nat → Nat → ℝ) (la : Nat) (G : Elem → ℝ) (J : Arr2 ℝ) :
    Outcome ((Elem → ℝ) × Arr2 ℝ) := do
  let r := q.r
  let wv := waves r.s st.g.nw.toNat la
  let A ← arrays r st o la
  let scr ← cellCol r.s st.g (scratchVal r st o la wv) (o.b.copy 0) (fun ks => o.scratch ks.toNat)
  let Nx := st.g.nx.toNat
  let Nz := st.g.nz.toNat
  let e0 := envOf r.s Nx Nz (fun _ _ _ => ⟨0, 0, 0⟩)
  let e := envOf r.s Nx Nz (marchOf (memWorld r st o la A) e0 { len := r.s.len, muy := r.s.muy, laStart := la })
  let cells ← cellList r st scr
  passesG (fun t m => pass2 e t lam (o.b.rc t) m)
    (fun t c0 ps => computeGamma2 q.env (q.quad Nx Nz) (fun c kr => w c.ks kr) cells la (la + wv) t c0 ps)
    (fun t c0 J => mergeC0ToJ (mergeOf r.s st.g.bm Nx Nz) la c0 (o.b.j t) J)
    (List.range (subsetTasks r.s.cfg)) o.b.mem G J

/-- The loop over batches with `store_J_on_cpu`, source/main.cpp:1003-1015, 412-424. -/
noncomputable def batchesCpuG (sol : Nat → (Elem → ℝ) → Arr2 ℝ → Outcome ((Elem → ℝ) × Arr2 ℝ)) (waves : Nat → Nat) :
    List Nat → (Elem → ℝ) → Arr2 ℝ → Arr2 ℝ → Outcome ((Elem → ℝ) × Arr2 ℝ)
  | [], G, _, Jcpu => .ok (G, Jcpu)
  | la :: las, G, J, Jcpu => do
    let x ← sol la G J.zero
    let Jcpu' ← copyPlane x.2 Jcpu la (waves la)
    batchesCpuG sol waves las x.1 x.2 Jcpu'

/-- The same with J on the device. -/
def batchesDevG (sol : Nat → (Elem → ℝ) → Arr2 ℝ → Outcome ((Elem → ℝ) × Arr2 ℝ)) :
    List Nat → (Elem → ℝ) → Arr2 ℝ → Outcome ((Elem → ℝ) × Arr2 ℝ)
  | [], G, J => .ok (G, J)
  | la :: las, G, J => do
    let x ← sol la G J
    batchesDevG sol las x.1 x.2

/-! ### Statistical equilibrium -/

/-- `pops(pops_start + i, ks) = new_pop_scaled` for all levels, source/Populations.cpp:618-619. -/
def writeCol (sl : Nat × Nat) (n ks : Nat) (v : Fin n → ℝ) (p : PopsField.Pops) : Outcome PopsField.Pops :=
  (List.finRange n).foldlM (fun p (i : Fin n) => PopsField.writeSlice sl i.val ks (v i) p) p

/-- The result of the linear solver for a cell. Simplification: a zero pivot (the populations would be NaN) ends the model. -/
noncomputable def solveCell (n e : Nat) (G : Fin n → Fin n → ℝ) (ntot : ℝ) : Outcome (Fin n → ℝ) :=
  if h : e < n then
    match StatEq.statEqCell ⟨e, h⟩ G ntot with
    | some x => .ok x
    | none => .throws
  else .ub

/-- source/Populations.cpp:421-633 for atom and cell `t`; `elim` is `i_elim`. The state is the populations and the running
maximum of the changes. Simplification: the kernel that solves all cells and the one that updates all cells are one (cells
do not read each other's populations). -/
noncomputable def statThread (q : Setup) (st : Started) (G : Elem → ℝ) (elim : Nat → Nat → Nat) (s : PopsField.Pops × ℝ) (t : Nat × Nat) :
    Outcome (PopsField.Pops × ℝ) := do
  let x ← readAt q.r.ad.atoms t.1
  let sl ← readAt (Atomic.ranges (PopsField.numLevels (fieldAtoms q.r.ad))).1 t.1
  let ntot := st.atmos.nhTot t.2 * x.abundance
  let old ← sliceCol s.1 sl (x.top + 1) t.2
  let new ← solveCell (x.top + 1) (elim t.1 t.2) (block G t.1 (x.top + 1) t.2) ntot
  let p ← writeCol sl (x.top + 1) t.2 new s.1
  .ok (p, (List.finRange (x.top + 1)).foldl (fun c l => max c (StatEq.change q.ignoreFrac ntot (old l) (new l))) s.2)

/-- `stat_eq_impl`, source/Populations.cpp:380-633: populations and `global_max_change`. -/
noncomputable def statEq (q : Setup) (st : Started) (G : Elem → ℝ) (elim : Nat → Nat → Nat) (sched : List (Nat × Nat)) :
    Outcome (PopsField.Pops × ℝ) :=
  sched.foldlM (statThread q st G elim) (st.pops, 0)

/-! ### The loop -/

/-- Orders and old contents of memory of one iteration. -/
structure IterOrder where
  nh0 : List Nat
  lte : List (Nat × Nat)
  coll : List (Nat × Nat)
  oldStar : Nat → ℝ
  batch : Nat → LteOrder
  elim : Nat → Nat → Nat
  stat : List (Nat × Nat)

/-- What an iteration leaves: the state, J, the matrices and the largest change. -/
structure Iterated where
  st : Started
  J : Arr2 ℝ
  G : Elem → ℝ
  change : ℝ

/-- One pass through the loop body, source/main.cpp:981-1026. -/
noncomputable def iterate2 (q : Setup) (lam : Bool) (o : IterOrder) (st0 : Started) : Outcome Iterated := do
  let r := q.r
  let h ← PopsField.computeNh0 r.sahaConst r.ionE r.haveH (popAtmos st0.atmos) st0.pops o.nh0 st0.nh0
  let st := { st0 with nh0 := h }
  let G0 ← collGamma q st o.lte o.coll o.oldStar
  let w ← allWphi q st
  let nw := st.g.nw.toNat
  let sol := fun la G J => batchG q st (o.batch la) lam w la G J
  let x ← if r.s.onCpu then
      batchesCpuG sol (waves r.s nw) (batchStarts r.s nw) G0 ⟨r.s.W, jCols r.s st.g, fun _ _ => 0⟩ ⟨nw, jCols r.s st.g, fun _ _ => 0⟩
    else batchesDevG sol (batchStarts r.s nw) G0 ⟨nw, jCols r.s st.g, fun _ _ => 0⟩
  let p ← statEq q st x.1 o.elim o.stat
  .ok { st := { st with pops := p.1 }, J := x.2, G := x.1, change := p.2 }

/-- The loop, source/main.cpp:980-1050, from iteration `i` on with at most `fuel = max_iter - i` iterations to go; `last` is what
the iteration before left. The number of iterations and what the last one left. -/
noncomputable def loop2 (q : Setup) (o : Nat → IterOrder) : (fuel i : Nat) → Iterated → Outcome (Nat × Iterated)
  | 0, i, last => .ok (i, last)
  | fuel + 1, i, last =>
    if last.change > q.tol ∨ i < q.initial + 1 then do
      let next ← iterate2 q (decide (i < q.initial)) (o i) last.st
      loop2 q o fuel (i + 1) next
    else .ok (i, last)

/-- A whole run, source/main.cpp:895-1117: the number of iterations and the final state; `max_change` starts as 1. -/
noncomputable def runNlte2 {W : Type} (q : Setup) (cv : W → ℝ) (f : NcFile Coord2 W) (o0 : StartOrder) (o : Nat → IterOrder) :
    Outcome (Nat × Iterated) := do
  let st ← start2 q.r cv f o0
  loop2 q o q.maxIter 0 { st := st, J := ⟨st.g.nw.toNat, jCols q.r.s st.g, fun _ _ => 0⟩, G := fun _ => 0, change := 1 }

end DexRT.Nlte
