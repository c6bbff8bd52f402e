import Verif.Model.IndexGen
/-!
Model of the dense/sparse field conversions, source/MiscSparse.cpp:7-292.
Dense fields are functions of the cell; every access is checked against the array extents and an
access outside is UB. Parallel kernels take the order `sched` in which their iterations are carried out.
-/
namespace DexRT

variable {C : Type} [DecidableEq C] {V : Type}

/-- A parallel kernel in which iteration `i` writes one array element: `f i` is the element and the
value. (Every kernel of source/MiscSparse.cpp:28-155 has this form.) -/
def writeLoop {ι K V : Type} [DecidableEq K] (f : ι → Outcome (K × V)) :
    List ι → (K → V) → Outcome (K → V)
  | [], m => .ok m
  | i :: is, m => do
    let (k, v) ← f i
    writeLoop f is (fun k' => if k' = k then v else m k')

/-- source/BlockMap.hpp:211-214 `get_num_active_cells`. -/
def numActiveCells (cells : Int) (bm : BlockMap C) : Int := bm.numActive * cells

/-- source/BlockMap.hpp:222-228 `loop_bounds()`: the iterations (tile_idx, block_idx). -/
def loopIters (cells : Nat) (bm : BlockMap C) : List (Nat × Int) :=
  (List.range bm.numActive.toNat).flatMap fun t => (List.range cells).map fun b => (t, Int.ofNat b)

/-- source/MiscSparse.cpp:31-45, one field: `dest(ks) = src(coord.z, coord.x)`. `ext` are the extents
of the dense field; `junk` is the uninitialised content of the new sparse array. -/
def sparsifyField2 (B : Nat) (bm : BlockMap Coord2) (ext : Coord2) (src : Coord2 → V)
    (sched : List (Nat × Int)) (junk : Int → V) : Outcome (Int → V) :=
  writeLoop (fun p => do
    let ks := (geo2 B).loopIdx p.1 p.2
    let c ← loopCoord2 B bm p.1 p.2
    if !inDims2 ext c then .ub
    else if ¬ (0 ≤ ks ∧ ks < numActiveCells (B * B) bm) then .ub
    else .ok (ks, src c)) sched junk

/-- source/MiscSparse.cpp:75-87 `copy_and_sparsify_field` (3D). -/
def sparsifyField3 (B : Nat) (bm : BlockMap Coord3) (ext : Coord3) (src : Coord3 → V)
    (sched : List (Nat × Int)) (junk : Int → V) : Outcome (Int → V) :=
  writeLoop (fun p => do
    let ks := (geo3 B).loopIdx p.1 p.2
    let c ← loopCoord3 B bm p.1 p.2
    if !inDims3 ext c then .ub
    else if ¬ (0 ≤ ks ∧ ks < numActiveCells (B * B * B) bm) then .ub
    else .ok (ks, src c)) sched junk

/-- source/MiscSparse.cpp:103-123 `reify_active_c0`. -/
def reifyActive (B : Nat) (bm : BlockMap Coord2) (sched : List (Nat × Int)) :
    Outcome (Coord2 → BitVec 8) :=
  let ext : Coord2 := { x := bm.dims.x * B, z := bm.dims.z * B }
  writeLoop (fun p => do
    let c ← loopCoord2 B bm p.1 p.2
    if !inDims2 ext c then .ub else .ok (c, 1)) sched (fun _ => 0)

/-- A sparse quantity: `pages` by `cells` values (`Fp2d` / `Fp2dHost`). -/
structure Pages (V : Type) where
  pages : Nat
  cells : Int
  val : Nat → Int → V

/-- Checked read `quantity(n, ks)`. -/
def Pages.read (q : Pages V) (n : Nat) (ks : Int) : Outcome V :=
  if n < q.pages ∧ 0 ≤ ks ∧ ks < q.cells then .ok (q.val n ks) else .ub

variable [Zero V]

/-- source/MiscSparse.cpp:126-155 `rehydrate_page` with `NumDim == 2`. -/
def rehydratePage2 (B : Nat) (bm : BlockMap Coord2) (q : Pages V) (n : Nat)
    (sched : List (Nat × Int)) : Outcome (Coord2 → V) :=
  let ext : Coord2 := { x := bm.dims.x * B, z := bm.dims.z * B }
  writeLoop (fun p => do
    let ks := (geo2 B).loopIdx p.1 p.2
    let c ← loopCoord2 B bm p.1 p.2
    let v ← q.read n ks
    if !inDims2 ext c then .ub else .ok (c, v)) sched (fun _ => 0)

/-- source/MiscSparse.cpp:126-155 `rehydrate_page` with `NumDim == 3`. -/
def rehydratePage3 (B : Nat) (bm : BlockMap Coord3) (q : Pages V) (n : Nat)
    (sched : List (Nat × Int)) : Outcome (Coord3 → V) :=
  let ext : Coord3 := { x := bm.dims.x * B, y := bm.dims.y * B, z := bm.dims.z * B }
  writeLoop (fun p => do
    let ks := (geo3 B).loopIdx p.1 p.2
    let c ← loopCoord3 B bm p.1 p.2
    let v ← q.read n ks
    if !inDims3 ext c then .ub else .ok (c, v)) sched (fun _ => 0)

/-- source/MiscSparse.cpp:172-176 and 228-232: copy a page into `result(n, ., .)`. The loop bounds are
the extents of both arrays, so no access can be outside. -/
def copyPage2 (numX numZ : Int) (page : Coord2 → V) (res : Nat × Coord2 → V) (n : Nat) :
    Nat × Coord2 → V :=
  (loopTo numZ).foldl (fun r z => (loopTo numX).foldl (fun r x =>
    fun k => if k = (n, { x := x, z := z }) then page { x := x, z := z } else r k) r) res

/-- source/MiscSparse.cpp:258-264: the correct triple loop of the 3D host variant. -/
def copyPage3Host (numX numY numZ : Int) (page : Coord3 → V) (res : Nat × Coord3 → V) (n : Nat) :
    Nat × Coord3 → V :=
  (loopTo numZ).foldl (fun r z => (loopTo numY).foldl (fun r y => (loopTo numX).foldl (fun r x =>
    fun k => if k = (n, { x := x, y := y, z := z }) then page { x := x, y := y, z := z } else r k) r) r)
    res

/-- source/MiscSparse.cpp:199-203, the rows of one `z` of the 3D device variant, from `y` on:
`for (int y = 0; z < num_y; ++y) for (x...) result(n, z, y, x) = page(z, y, x)`. The condition tests
`z`, not `y`; once `y` reaches `num_y` the next access is outside both arrays (and if `num_x` is 0 the
loop has no side effect and never ends, which is also UB). -/
def copyRows3Device (numX numY : Int) (page : Coord3 → V) (n : Nat) (z y : Int)
    (res : Nat × Coord3 → V) : Outcome (Nat × Coord3 → V) :=
  if ¬ z < numY then .ok res
  else if numY ≤ y then .ub
  else copyRows3Device numX numY page n z (y + 1)
    ((loopTo numX).foldl (fun r x =>
      fun k => if k = (n, { x := x, y := y, z := z }) then page { x := x, y := y, z := z } else r k) res)
termination_by (numY - y).toNat
decreasing_by omega

/-- source/MiscSparse.cpp:198-204. -/
def copyPage3Device (numX numY numZ : Int) (page : Coord3 → V) (res : Nat × Coord3 → V) (n : Nat) :
    Outcome (Nat × Coord3 → V) :=
  (loopTo numZ).foldlM (fun r z => copyRows3Device numX numY page n z 0 r) res

/-- source/MiscSparse.cpp:157-179 (device, 2D) `rehydrate_sparse_quantity`; `sched n` is the order of
the kernel for page `n`, `junk` the uninitialised result array. -/
def rehydrate2Device (B : Nat) (bm : BlockMap Coord2) (q : Pages V) (sched : Nat → List (Nat × Int))
    (junk : Nat × Coord2 → V) : Outcome (Nat × Coord2 → V) :=
  (List.range q.pages).foldlM (fun res n => do
    let page ← rehydratePage2 B bm q n (sched n)
    .ok (copyPage2 (bm.dims.x * B) (bm.dims.z * B) page res n)) junk

/-- source/MiscSparse.cpp:209-235 (host, 2D): page `n` is first copied to a one-page device array. -/
def rehydrate2Host (B : Nat) (bm : BlockMap Coord2) (q : Pages V) (sched : Nat → List (Nat × Int))
    (junk : Nat × Coord2 → V) : Outcome (Nat × Coord2 → V) :=
  (List.range q.pages).foldlM (fun res n => do
    let page ← rehydratePage2 B bm { pages := 1, cells := q.cells, val := fun _ ks => q.val n ks } 0
      (sched n)
    .ok (copyPage2 (bm.dims.x * B) (bm.dims.z * B) page res n)) junk

/-- source/MiscSparse.cpp:181-207 (device, 3D). -/
def rehydrate3Device (B : Nat) (bm : BlockMap Coord3) (q : Pages V) (sched : Nat → List (Nat × Int))
    (junk : Nat × Coord3 → V) : Outcome (Nat × Coord3 → V) :=
  (List.range q.pages).foldlM (fun res n => do
    let page ← rehydratePage3 B bm q n (sched n)
    copyPage3Device (bm.dims.x * B) (bm.dims.y * B) (bm.dims.z * B) page res n) junk

/-- source/MiscSparse.cpp:237-267 (host, 3D). -/
def rehydrate3Host (B : Nat) (bm : BlockMap Coord3) (q : Pages V) (sched : Nat → List (Nat × Int))
    (junk : Nat × Coord3 → V) : Outcome (Nat × Coord3 → V) :=
  (List.range q.pages).foldlM (fun res n => do
    let page ← rehydratePage3 B bm { pages := 1, cells := q.cells, val := fun _ ks => q.val n ks } 0
      (sched n)
    .ok (copyPage3Host (bm.dims.x * B) (bm.dims.y * B) (bm.dims.z * B) page res n)) junk

/-- source/MiscSparse.cpp:269-279 (one field, 2D): the page itself is the result. -/
def rehydrate2Field (B : Nat) (bm : BlockMap Coord2) (cells : Int) (field : Int → V)
    (sched : List (Nat × Int)) : Outcome (Coord2 → V) :=
  rehydratePage2 B bm { pages := 1, cells := cells, val := fun _ ks => field ks } 0 sched

/-- source/MiscSparse.cpp:281-292 (one field, 3D). -/
def rehydrate3Field (B : Nat) (bm : BlockMap Coord3) (cells : Int) (field : Int → V)
    (sched : List (Nat × Int)) : Outcome (Coord3 → V) :=
  rehydratePage3 B bm { pages := 1, cells := cells, val := fun _ ks => field ks } 0 sched

end DexRT
