import Verif.Model.World
import Verif.Model.Mipmap
import Verif.Model.AtmosFile
import Verif.Model.MeanJ
/-!
Model of a whole `GivenFs` run in 2D: `init_given_emis_opac` (source/main.cpp:142-220), `allocate_J`
(source/main.cpp:40-63), the loop over wavelength batches (source/main.cpp:873-890) and
`static_formal_sol_given_rc` (source/StaticFormalSolution.cpp:11-97) with the mip chain it builds
(source/Mipmaps.cpp:9-12, 149-374), composed from the models of the block map, the mip chain, the level lookup, the march,
the cascades and the merge to J.
Simplifications: exact real arithmetic; all probes are computed (`sparse_calculation = false`, the default). The march is
a total function of the arrays: where the march would read outside an array, or a lookup fails, the value is `junk`, which
the theorems quantify over.
-/
namespace DexRT.Given
open DexRT DexRT.Fs DexRT.AtmosFile DexRT.Dir Classical

/-- The compile-time and configuration settings that a `GivenFs` run depends on. -/
structure Settings where
  /-- `ENTRY_SIZE` -/
  E : Nat
  /-- `BLOCK_SIZE` -/
  B : Nat
  cfg : RcCfg
  len : LenCfg
  /-- `max_cascade` -/
  num : Nat
  /-- `PINGPONG_BUFFERS` -/
  pp : Bool
  /-- `WAVE_BATCH` -/
  W : Nat
  /-- `NUM_INCL` -/
  incl : Nat
  /-- `incl_quad.muy`, `incl_quad.wmuy` -/
  muy : Nat → ℝ
  wmuy : List ℝ
  /-- `mip_config.mip_levels` -/
  levels : List Int
  /-- the tolerances of `mip_config` -/
  tol : MipTol
  /-- `LAST_CASCADE_TO_INFTY` -/
  toInfty : Bool
  /-- `EXTRA_SAFE_SOURCE_FN` -/
  extraSafe : Bool
  /-- `store_J_on_cpu` -/
  onCpu : Bool

/-- source/main.cpp:167-171: the largest level that any cascade may use. -/
def maxLevel (levels : List Int) (num : Nat) : Outcome Int :=
  (List.range (num + 1)).foldlM (fun acc i => do
    let l ← readAt levels i
    .ok (max acc l)) 0

/-- What `init_given_emis_opac` leaves in the state. -/
structure Given where
  nx : Int
  nz : Int
  nw : Int
  /-- `given_state.emis(z, x, la)` -/
  eta : Coord2 → Int → ℝ
  /-- `given_state.opac(z, x, la)` -/
  chi : Coord2 → Int → ℝ
  scale : ℝ
  bm : BlockMap Coord2
  lk : MLLookup Coord2
  off : Nat → Int
  maxMip : Nat

/-- source/main.cpp:142-220 `init_given_emis_opac`: `cv` is the conversion of the numbers of the file. -/
def initGiven2 {W : Type} (s : Settings) (cv : W → ℝ) (f : NcFile (Coord2 × Int) W) : Outcome Given := do
  let x ← need (f.dim "x")
  let z ← need (f.dim "z")
  let nw ← need (f.dim "wavelength")
  let eta ← need (f.grid "eta")
  let chi ← need (f.grid "chi")
  let scale := ((f.scalar "voxel_scale").map cv).getD 1
  let bm ← setupDense2 s.B x z
  let m ← maxLevel s.levels s.num
  let lk ← MLLookup.init2 s.E bm.dims
  let off ← mipOffsets s.E s.B 2 bm.numActive m.toNat
  .ok { nx := x, nz := z, nw := nw, eta := fun c la => cv (eta (c, la)), chi := fun c la => cv (chi (c, la)),
        scale := scale, bm := bm, lk := lk, off := off, maxMip := m.toNat }

/-- The orders in which the kernels of one batch run, what the arrays held before, and `junk`. -/
structure BatchOrder where
  /-- "Copy eta, chi": the cells of one wavelength, source/StaticFormalSolution.cpp:27-40 -/
  copy : Nat → List (Nat × Int)
  /-- "Compute mip n": wavelength, level, source/Mipmaps.cpp:241-332 -/
  mips : Nat → Nat → List (Nat × Int)
  /-- the iterations of the same kernel that belong to a tile: tile, level -/
  tests : Nat → Nat → List (Nat × Nat)
  /-- "Update mippable array": tiles, source/Mipmaps.cpp:356-371 -/
  tiles : List Nat
  rc : Nat → Task → List JIter
  j : Nat → List JIter
  oldEmis : Nat → Int → ℝ
  oldOpac : Nat → Int → ℝ
  mem : Mem ℝ
  junk : ℝ
  junkLevel : ℤ

/-- A kernel that produces a value for every index of a loop; undefined behaviour of one iteration is undefined
behaviour of the kernel. -/
noncomputable def forAll {ι α : Type} (f : ι → Outcome α) (d : α) (is : List ι) : Outcome (ι → α) :=
  if ∀ i ∈ is, ∃ a, f i = .ok a then .ok (fun i => match f i with | .ok a => a | _ => d) else .ub

/-- The multi-resolution map: source/BlockMap.hpp:395-445; `mip_offsets` holds `max_storable_entry = 2 ^ E - 1` levels. -/
def mrOf (s : Settings) (g : Given) (lk : MLLookup Coord2) : MRMap Coord2 :=
  { bm := g.bm, off := g.off, maxStore := 2 ^ s.E - 1, get := fun t => lk.get s.E (lk.flat2 t) }

/-- Length of the arrays of the mip chain, source/Mipmaps.cpp:9-12. -/
def bufLen (s : Settings) (g : Given) : Int := mipBufferLen s.B 2 g.bm.numActive g.off g.maxMip

/-- source/StaticFormalSolution.cpp:27-40, one array (`src` is the given emissivity or opacity) and one wavelength of
the batch. -/
def copyCol (s : Settings) (g : Given) (src : Coord2 → Int → ℝ) (la w : Nat) (sched : List (Nat × Int)) (old : Int → ℝ) :
    Outcome (Int → ℝ) :=
  if ((la + w : Nat) : Int) < g.nw ∧ w < s.W then
    sparsifyField2 s.B g.bm { x := g.nx, z := g.nz } (fun c => src c (la + w : Nat)) sched old
  else .ub

/-- source/Mipmaps.cpp:254-282: the values of the four sub-cells of a cell of level `lm1 + 1`. -/
def subCells (B : Nat) (mr : MRMap Coord2) (len : Int) (lm1 : Nat) (p : Nat × Int) (m : Int → ℝ) : Outcome (List ℝ) := do
  let G := mgeo2 B
  let u : Int := 2 ^ (lm1 + 1) / 2
  let c ← mipLoopCoord2 B mr.bm (lm1 + 1) p.1 p.2
  let (i0, s) ← G.idx mr G.fresh lm1 c
  let (i1, s) ← G.idx mr s lm1 { x := c.x + u, z := c.z }
  let (i2, s) ← G.idx mr s lm1 { x := c.x, z := c.z + u }
  let (i3, _) ← G.idx mr s lm1 { x := c.x + u, z := c.z + u }
  let v0 ← mipRead len m i0
  let v1 ← mipRead len m i1
  let v2 ← mipRead len m i2
  let v3 ← mipRead len m i3
  .ok [v0, v1, v2, v3]

/-- source/Mipmaps.cpp:251-325, the test of one cell (tile `i`, cell and wavelength `bw`) of level `lm1 + 1`, made on the
arrays as level `lm1` leaves them (the kernel itself writes other elements); `emis`, `opac` are the base arrays. -/
noncomputable def cellTest (s : Settings) (g : Given) (o : BatchOrder) (emis opac : Nat → Int → ℝ) (lm1 i : Nat) (bw : Nat × Nat) :
    Outcome Bool := do
  let mr := mrOf s g g.lk
  let e ← mipChain2 s.B mr (bufLen s g) mipScale2 (o.mips bw.2) lm1 (emis bw.2)
  let c ← mipChain2 s.B mr (bufLen s g) mipScale2 (o.mips bw.2) lm1 (opac bw.2)
  let eta ← subCells s.B mr (bufLen s g) lm1 (i, (bw.1 : Int)) e
  let chi ← subCells s.B mr (bufLen s g) lm1 (i, (bw.1 : Int)) c
  .ok (mipTest s.tol (1 / 4) 1e-15 (g.scale * ((2 ^ (lm1 + 1) / 2 : Nat) : ℝ)) (chi.zip eta))

/-- source/Mipmaps.cpp:178-188, 191-371 for one tile: the entry that `max_mip_level` ends with. -/
noncomputable def tileLevel (s : Settings) (g : Given) (o : BatchOrder) (waves : Nat) (emis opac : Nat → Int → ℝ) (i : Nat) :
    Outcome Nat :=
  if ∀ l < g.maxMip, ∀ bw ∈ tileIters s.B 2 waves (l + 1), ∃ r, cellTest s g o emis opac l i bw = .ok r then
    tileEntry s.B 2 waves true (fun l bw => decide (cellTest s g o emis opac (l - 1) i bw = .ok true)) (o.tests i) g.maxMip
  else .ub

/-- source/Mipmaps.cpp:163-188, 356-373: `max_mip_level`, which is 0 except for what the tiles' iterations write, packed
into the lookup. Simplification: the writes of one tile (one per level) are one write of the last value; no two tiles
share an element (C09). -/
noncomputable def packLevels (s : Settings) (g : Given) (o : BatchOrder) (waves : Nat) (emis opac : Nat → Int → ℝ) :
    Outcome (MLLookup Coord2) := do
  let n := g.bm.dims.x * g.bm.dims.z
  let arr ← writeLoop (fun i => do
      let m ← readAt g.bm.activeTiles i
      let key := g.lk.flat2 (decodeMorton2 m)
      let e ← tileLevel s g o waves emis opac i
      if 0 ≤ key ∧ key < n then .ok (key, (e : Int)) else .ub) o.tiles (fun _ => (0 : Int))
  .ok (g.lk.pack s.E ((List.range n.toNat).map fun j : Nat => arr (j : Int)))

/-- Reading the arrays of the mip chain in the march, source/RayMarching.hpp:496-520 (`mip_chain.emis(ks, wave)`). -/
noncomputable def readCell {V : Type} (s : Settings) (g : Given) (mr : MRMap Coord2) (junk : V) (m : Int → V) (l : ℤ) (c : Fin 2 → ℤ) : V :=
  match (mgeo2 s.B).idx mr (mgeo2 s.B).fresh l.toNat { x := c 0, z := c 1 } with
  | .ok (a, _) => if 0 ≤ a ∧ a < bufLen s g then m a else junk
  | _ => junk

/-- `get_sample_level` in the march; coordinates are `i32`. -/
noncomputable def readLevel (s : Settings) (mr : MRMap Coord2) (junk : ℤ) (c : Fin 2 → ℤ) : ℤ :=
  if fitsI32 (c 0) ∧ fitsI32 (c 1) then
    match (mgeo2 s.B).sampleLevel mr (mgeo2 s.B).fresh { x := c 0, z := c 1 } with
    | .ok (v, _) => v
    | _ => junk
  else -1

/-- What the march of a batch that starts at wavelength `la` reads: the arrays `emis`, `opac` (wavelength of the batch,
address) and the lookup. `max_mip_to_sample`: source/RadianceCascades.hpp:677-680; boundary: source/main.cpp:202-203. -/
noncomputable def memWorld (s : Settings) (g : Given) (lk : MLLookup Coord2) (o : BatchOrder) (la : Nat)
    (emis opac : Nat → Int → ℝ) : World .two :=
  { lvl := readLevel s (mrOf s g lk) o.junkLevel
    block := s.B
    max := ![g.nx, g.nz]
    mip := fun n => min (s.levels.getD n 0) g.maxMip
    extraSafe := s.extraSafe
    toInfty := s.toInfty
    scale := g.scale
    offset := fun _ => 0
    eta := fun l' _ l c => readCell s g (mrOf s g lk) o.junk (emis (l' - la).toNat) l c
    chi := fun l' _ l c => readCell s g (mrOf s g lk) o.junk (opac (l' - la).toNat) l c
    bc := fun _ _ _ => 0 }

/-- The result of a march as a function: `MarchRay2` determines it (C79). -/
noncomputable def marchOf (w : World .two) (e : Env2 ℝ) (g : Rays2) : Bool → Nat → ProbeIdx2 → Seg ℝ :=
  haveI : Nonempty (Seg ℝ) := ⟨⟨0, 0, 0⟩⟩
  fun bc n p => Classical.epsilon (MarchRay2 w e g bc n p)

/-- The cascades of a run on `Nx` by `Nz` cells: source/main.cpp:205-210 (`c0_rays`), source/RcUtilsModes.hpp (`c0_size`), every
probe computed. -/
def envOf (s : Settings) (Nx Nz : Nat) (march : Bool → Nat → ProbeIdx2 → Seg ℝ) : Env2 ℝ :=
  let c0 := raysToStorage s.cfg ⟨Nx, Nz, s.cfg.p0rays, s.W, s.incl⟩
  { cfg := s.cfg, c0 := c0, num := s.num, pp := s.pp,
    probes := fun n => { sparse := false, np := probeDims2 s.cfg c0 n, active := [] }, march := march }

/-- What `merge_c0_to_J` is called with. -/
def mergeOf (s : Settings) (bm : BlockMap Coord2) (Nx Nz : Nat) : MergeEnv ℝ :=
  let c0 := raysToStorage s.cfg ⟨Nx, Nz, s.cfg.p0rays, s.W, s.incl⟩
  { cfg := s.cfg, s := c0, P := { sparse := false, np := probeDims2 s.cfg c0 0, active := [] }, B := s.B, bm := bm,
    wmuy := s.wmuy }

/-- `la_end - la_start`: source/main.cpp:880. -/
def waves (s : Settings) (nw la : Nat) : Nat := min s.W (nw - la)

/-- source/StaticFormalSolution.cpp:11-97 for the batch starting at wavelength `la`. -/
noncomputable def batch2 (s : Settings) (g : Given) (o : BatchOrder) (la : Nat) (J : Arr2 ℝ) : Outcome (Arr2 ℝ) := do
  let wv := waves s g.nw.toNat la
  let emis0 ← forAll (fun w => copyCol s g g.eta la w (o.copy w) (o.oldEmis w)) (o.oldEmis 0) (List.range wv)
  let opac0 ← forAll (fun w => copyCol s g g.chi la w (o.copy w) (o.oldOpac w)) (o.oldOpac 0) (List.range wv)
  let mr := mrOf s g g.lk
  let emis ← forAll (fun w => mipChain2 s.B mr (bufLen s g) mipScale2 (o.mips w) g.maxMip (emis0 w)) (o.oldEmis 0) (List.range wv)
  let opac ← forAll (fun w => mipChain2 s.B mr (bufLen s g) mipScale2 (o.mips w) g.maxMip (opac0 w)) (o.oldOpac 0) (List.range wv)
  let lk ← packLevels s g o wv emis0 opac0
  let Nx := g.nx.toNat
  let Nz := g.nz.toNat
  let e0 := envOf s Nx Nz (fun _ _ _ => ⟨0, 0, 0⟩)
  let e := envOf s Nx Nz (marchOf (memWorld s g lk o la emis opac) e0 { len := s.len, muy := s.muy, laStart := la })
  let r ← formalSolStatic2 e (mergeOf s g.bm Nx Nz) la o.rc o.j (List.range (subsetTasks s.cfg)) o.mem J
  .ok r.2

/-- source/main.cpp:40-63 `allocate_J` without sparsity: number of columns. -/
def jCols (s : Settings) (g : Given) : Nat := (g.bm.dims.x * g.bm.dims.z * ((s.B : Int) * (s.B : Int))).toNat

/-- source/main.cpp:875-879: where the batches start. -/
def batchStarts (s : Settings) (nw : Nat) : List Nat := (List.range ((nw + s.W - 1) / s.W)).map (· * s.W)

/-- A whole run: the J that `save_results` has (all wavelengths). `o la` are the orders in the batch that starts at `la`;
`old` is what the host copy of J held when allocated. -/
noncomputable def run2 {W : Type} (s : Settings) (cv : W → ℝ) (f : NcFile (Coord2 × Int) W) (o : Nat → BatchOrder)
    (old : Nat → Nat → ℝ) : Outcome (Arr2 ℝ) := do
  let g ← initGiven2 s cv f
  let nw := g.nw.toNat
  let sol := fun la J => batch2 s g (o la) la J
  if s.onCpu then
    let r ← batchesCpu sol (waves s nw) (batchStarts s nw) ⟨s.W, jCols s g, fun _ _ => 0⟩ ⟨nw, jCols s g, old⟩
    .ok r.2
  else batchesDev sol (batchStarts s nw) ⟨nw, jCols s g, fun _ _ => 0⟩

end DexRT.Given
