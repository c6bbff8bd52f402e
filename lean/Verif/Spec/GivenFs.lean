import Verif.Model.GivenFs
import Verif.Spec.World
import Verif.Spec.Mipmap
import Verif.Spec.MeanJ
/-!
Vocabulary for C82: the input file of a `GivenFs` run, the atmosphere it describes, the level of detail of a tile, and the
conditions under which a run is in the range of its integers.
-/
namespace DexRT.Given
open DexRT DexRT.Fs DexRT.AtmosFile DexRT.Dir

/-- The file holds emissivity `eta` and opacity `chi` (cell, wavelength) for `nx` by `nz` tiles of side `B` and `nw`
wavelengths, with voxels of size `scale`. -/
structure Holds {W : Type} (f : NcFile (Coord2 × Int) W) (cv : W → ℝ) (B nx nz nw : Nat) (eta chi : Coord2 → Int → ℝ)
    (scale : ℝ) : Prop where
  x : f.dim "x" = some ((nx : Int) * (B : Int))
  z : f.dim "z" = some ((nz : Int) * (B : Int))
  wavelength : f.dim "wavelength" = some (nw : Int)
  eta : ∃ a, f.grid "eta" = some a ∧ ∀ c la, eta c la = cv (a (c, la))
  chi : ∃ a, f.grid "chi" = some a ∧ ∀ c la, chi c la = cv (a (c, la))
  scale : (f.scalar "voxel_scale" = none ∧ scale = 1) ∨ ∃ v, f.scalar "voxel_scale" = some v ∧ scale = cv v

/-- The sizes and settings that the program can handle: an even number of tiles each way, at most 2^31 cells, levels of
detail that a tile and an entry can hold, no cascade with a number of directions that is 2 modulo 4 (C77). -/
structure Fits (s : Settings) (k nx nz : Nat) : Prop where
  block : s.B = 2 ^ k
  pos : 0 < nx ∧ 0 < nz
  even : nx % 2 = 0 ∧ nz % 2 = 0
  size : GoodSize2 (2 ^ k) nx nz
  entry : 0 < s.E ∧ s.E ≤ 8
  valid : s.cfg.Valid
  mode : s.cfg.mode ≠ .preaverage
  weights : s.wmuy.length = s.incl
  batch : 0 < s.W
  levels : s.num < s.levels.length
  levelRange : ∀ l ∈ s.levels, 0 ≤ l ∧ l ≤ k ∧ l + 1 ≤ 2 ^ s.E - 1
  dirs : ∀ n, n ≤ s.num → (cascadeComputeSize s.cfg (raysToStorage s.cfg ⟨nx * 2 ^ k, nz * 2 ^ k, s.cfg.p0rays, s.W, s.incl⟩) n).dirs % 4 ≠ 2
  length : ∀ n, n ≤ s.num → ((intervalLength s.cfg s.len s.num n).2 : ℝ) - (intervalLength s.cfg s.len s.num n).1 ≤ 1e24

/-- The largest level of detail that any cascade may use. -/
def topLevel (s : Settings) : Nat := ((List.range (s.num + 1)).map fun i => (s.levels.getD i 0).toNat).foldl max 0

/-- Every kernel of the batch runs each of its iterations once, in some order, and the cascade buffers were allocated with
their sizes. -/
structure Orders (s : Settings) (k nx nz wv : Nat) (o : BatchOrder) : Prop where
  copy : ∀ w, (o.copy w).Perm ((List.range (nx * nz)).flatMap fun t => (List.range (2 ^ k * 2 ^ k)).map fun b => (t, Int.ofNat b))
  mips : ∀ w l, (o.mips w l).Perm ((List.range (nx * nz)).flatMap fun t =>
    (List.range ((2 ^ k) ^ 2 / (2 ^ (l + 1)) ^ 2)).map fun b => (t, Int.ofNat b))
  tests : ∀ i l, (o.tests i l).Perm (tileIters (2 ^ k) 2 wv l)
  tiles : o.tiles.Perm (List.range (nx * nz))
  rc : ∀ t march, Sched2 (envOf s (nx * 2 ^ k) (nz * 2 ^ k) march) t wv (o.rc t)
  j : ∀ t, (o.j t).Perm (jIters (nx * 2 ^ k * (nz * 2 ^ k)) (raysToStorage s.cfg ⟨nx * 2 ^ k, nz * 2 ^ k, s.cfg.p0rays, s.W, s.incl⟩).dirs wv s.incl)
  mem : MemShape (bufferSizes s.pp (fun n => cascadeEntries (cascadeSize s.cfg
    (raysToStorage s.cfg ⟨nx * 2 ^ k, nz * 2 ^ k, s.cfg.p0rays, s.W, s.incl⟩) n)) s.num) o.mem

/-- Level `l + 1` of tile `t` may be used for the wavelengths `la, ..., la + wv - 1`: in every square of `2^(l+1)` cells of
the tile, at every wavelength, the four means over its quarters are accepted by the variance test. -/
def Smooth (s : Settings) (k : Nat) (eta chi : Coord2 → Int → ℝ) (scale : ℝ) (la wv : Nat) (t : Coord2) (l : Nat) : Prop :=
  ∀ c, InTile2 (2 ^ k) t c → ((2 ^ (l + 1) : Nat) : Int) ∣ c.x → ((2 ^ (l + 1) : Nat) : Int) ∣ c.z → ∀ w, w < wv →
    let q := fun (dx dz : Int) => (⟨c.x + dx * (2 ^ l : Nat), c.z + dz * (2 ^ l : Nat)⟩ : Coord2)
    let v := fun (dx dz : Int) => (blockMean2 (fun c => chi c (la + w : Nat)) l (q dx dz), blockMean2 (fun c => eta c (la + w : Nat)) l (q dx dz))
    mipTest s.tol (1 / 4) 1e-15 (scale * (2 ^ l : Nat)) [v 0 0, v 1 0, v 0 1, v 1 1] = true

/-- `L` is the level of detail of tile `t`: the largest such that it and all levels below are smooth. -/
structure IsLevel (s : Settings) (k : Nat) (eta chi : Coord2 → Int → ℝ) (scale : ℝ) (la wv : Nat) (t : Coord2) (L : Nat) : Prop where
  le : L ≤ topLevel s
  smooth : ∀ l, l < L → Smooth s k eta chi scale la wv t l
  largest : L < topLevel s → ¬ Smooth s k eta chi scale la wv t L

/-- The atmosphere that the file describes, seen at the levels of detail `L`: cells of side `2^l` emit and absorb the mean
over the cells they cover, nothing enters from outside. -/
noncomputable def fileWorld (s : Settings) (k nx nz : Nat) (eta chi : Coord2 → Int → ℝ) (scale : ℝ) (L : Coord2 → Nat) : World .two :=
  { lvl := fun c => if 0 ≤ c 0 ∧ c 0 < ((nx * 2 ^ k : Nat) : Int) ∧ 0 ≤ c 1 ∧ c 1 < ((nz * 2 ^ k : Nat) : Int) then
      (L ⟨c 0 / (2 ^ k : Nat), c 1 / (2 ^ k : Nat)⟩ : Int) else -1
    block := ((2 ^ k : Nat) : Int)
    max := ![((nx * 2 ^ k : Nat) : Int), ((nz * 2 ^ k : Nat) : Int)]
    mip := fun n => s.levels.getD n 0
    extraSafe := s.extraSafe
    toInfty := s.toInfty
    scale := scale
    offset := fun _ => 0
    eta := fun la _ l c => blockMean2 (fun c => eta c la) l.toNat ⟨c 0, c 1⟩
    chi := fun la _ l c => blockMean2 (fun c => chi c la) l.toNat ⟨c 0, c 1⟩
    bc := fun _ _ _ => 0 }

/-- The rays of the batch that starts at wavelength `la`. -/
noncomputable def raysFrom (s : Settings) (la : Nat) : Rays2 := { len := s.len, muy := s.muy, laStart := la }

/-- `J` (wavelength, `z * Nx + x`) is the angular mean of the radiance of the atmosphere of the file: with the levels of
detail of the batch of `s.W` wavelengths that the wavelength is in, the rays of all cascades marched through the
atmosphere, and the radiance of the cascades made of them (C74). -/
structure Solves (s : Settings) (k nx nz nw : Nat) (eta chi : Coord2 → Int → ℝ) (scale : ℝ) (J : Arr2 ℝ) : Prop where
  rows : J.rows = nw
  cols : J.cols = nx * 2 ^ k * (nz * 2 ^ k)
  value : ∀ la, la < nw → ∃ (L : Coord2 → Nat) (march : Bool → Nat → ProbeIdx2 → Seg ℝ),
    (∀ t : Coord2, 0 ≤ t.x → t.x < nx → 0 ≤ t.z → t.z < nz →
      IsLevel s k eta chi scale (la / s.W * s.W) (min s.W (nw - la / s.W * s.W)) t (L t)) ∧
    Marches2 (fileWorld s k nx nz eta chi scale L) (envOf s (nx * 2 ^ k) (nz * 2 ^ k) march) (raysFrom s (la / s.W * s.W))
      (min s.W (nw - la / s.W * s.W)) ∧
    ∀ x z, x < nx * 2 ^ k → z < nz * 2 ^ k → J.get la (z * (nx * 2 ^ k) + x) = meanIntensity2 s.cfg.p0rays s.incl s.wmuy
      (radiance2 march (nx * 2 ^ k) (nz * 2 ^ k) (upperTexelsPerRay s.cfg) s.num s.num) x z (la % s.W)

/-- Cell `c` is in the grid of `nx` by `nz` tiles of side `2 ^ k`. -/
def InGrid (k nx nz : Nat) (c : Coord2) : Prop :=
  0 ≤ c.x ∧ c.x < ((nx * 2 ^ k : Nat) : Int) ∧ 0 ≤ c.z ∧ c.z < ((nz * 2 ^ k : Nat) : Int)

end DexRT.Given
