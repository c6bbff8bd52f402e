import Verif.Model.GivenFs3
import Verif.Spec.World
import Verif.Spec.Mipmap
import Verif.Spec.MeanJ
/-!
Vocabulary for C88: the input file of a 3D `GivenFs` run, the atmosphere it describes, and the conditions under which a run
is in the range of its integers and buffers.
-/
namespace DexRT.Given3
open DexRT DexRT.Fs DexRT.AtmosFile DexRT.Dir

/-- The file holds emissivity `eta` and opacity `chi` (cell, wavelength) for `nx` by `ny` by `nz` tiles of side `B` and `nw`
wavelengths, with voxels of size `scale`. -/
structure Holds {W : Type} (f : NcFile (Coord3 × Int) W) (cv : W → ℝ) (B nx ny nz nw : Nat) (eta chi : Coord3 → Int → ℝ)
    (scale : ℝ) : Prop where
  x : f.dim "x" = some ((nx : Int) * (B : Int))
  y : f.dim "y" = some ((ny : Int) * (B : Int))
  z : f.dim "z" = some ((nz : Int) * (B : Int))
  wavelength : f.dim "wavelength" = some (nw : Int)
  eta : ∃ a, f.grid "eta" = some a ∧ ∀ c la, eta c la = cv (a (c, la))
  chi : ∃ a, f.grid "chi" = some a ∧ ∀ c la, chi c la = cv (a (c, la))
  scale : (f.scalar "voxel_scale" = none ∧ scale = 1) ∨ ∃ v, f.scalar "voxel_scale" = some v ∧ scale = cv v

/-- The cascades of a run, whatever the march returns. -/
noncomputable def cascades (s : Settings) (k nx ny nz : Nat) : Env3 ℝ :=
  envOf s (nx * 2 ^ k) (ny * 2 ^ k) (nz * 2 ^ k) (fun _ _ _ => ⟨0, 0, 0⟩)

/-- The sizes of the cascade buffers, one for each cascade: `PINGPONG_BUFFERS_3D` is off. -/
noncomputable def bufSizes (s : Settings) (k nx ny nz : Nat) : List Nat :=
  bufferSizes false (fun n => cascadeEntries3 (cascadeSize3 s.cfg.branch (cascades s k nx ny nz).c0 n)) s.num

/-- The sizes and settings that the program can handle: at most 2^31 cells, HEALPix directions, products of direction numbers
below 2^31, buffers large enough (C17). -/
structure Fits (s : Settings) (k nx ny nz : Nat) : Prop where
  block : s.B = 2 ^ k
  pos : 0 < nx ∧ 0 < ny ∧ 0 < nz
  size : GoodSize3 (2 ^ k) nx ny nz
  entry : 0 < s.E ∧ s.E ≤ 8
  healpix : ∃ o q, s.cfg.branch = .healpix o ∧ s.cfg.c0az = 12 * 4 ^ q ∧ q + o * s.num ≤ 16
  polar : s.cfg.c0polar = 1
  products : NoOverflow3 (cascades s k nx ny nz)
  buffers : BuffersFit3 (cascades s k nx ny nz) (bufSizes s k nx ny nz)
  length : ∀ n, n ≤ s.num → ((intervalLength3 s.len s.num n).2 : ℝ) - (intervalLength3 s.len s.num n).1 ≤ 1e24

/-- Every kernel of the wavelength runs each of its iterations once, in some order, and the cascade buffers were allocated with
their sizes. -/
structure Orders (s : Settings) (k nx ny nz : Nat) (o : WaveOrder) : Prop where
  copy : o.copy.Perm ((List.range (nx * ny * nz)).flatMap fun t => (List.range (2 ^ k * 2 ^ k * 2 ^ k)).map fun b => (t, Int.ofNat b))
  tiles : o.tiles.Perm (List.range (nx * ny * nz))
  rc : ∀ t (c : Task), c.n ≤ s.num → (o.rc t c).Perm (iters3 (cascades s k nx ny nz) c.n t
    (probesOn (nx * 2 ^ k) c.n * probesOn (ny * 2 ^ k) c.n * probesOn (nz * 2 ^ k) c.n))
  j : ∀ t, (o.j t).Perm (jIters3 (nx * 2 ^ k * (ny * 2 ^ k) * (nz * 2 ^ k)) (cascades s k nx ny nz).c0.polar (cascades s k nx ny nz).c0.az)
  mem : MemShape (bufSizes s k nx ny nz) o.mem

/-- The atmosphere that the file describes: nothing enters from outside. -/
noncomputable def fileWorld (k nx ny nz : Nat) (eta chi : Coord3 → Int → ℝ) (scale : ℝ) : World .three :=
  { lvl := fun c => if 0 ≤ c 0 ∧ c 0 < ((nx * 2 ^ k : Nat) : Int) ∧ 0 ≤ c 1 ∧ c 1 < ((ny * 2 ^ k : Nat) : Int) ∧
      0 ≤ c 2 ∧ c 2 < ((nz * 2 ^ k : Nat) : Int) then 0 else -1
    block := ((2 ^ k : Nat) : Int)
    max := ![((nx * 2 ^ k : Nat) : Int), ((ny * 2 ^ k : Nat) : Int), ((nz * 2 ^ k : Nat) : Int)]
    mip := fun _ => 0
    extraSafe := false
    toInfty := false
    scale := scale
    offset := fun _ => 0
    eta := fun la _ _ c => eta ⟨c 0, c 1, c 2⟩ la
    chi := fun la _ _ c => chi ⟨c 0, c 1, c 2⟩ la
    bc := fun _ _ _ => 0 }

/-- `J` (wavelength, `(z * Ny + y) * Nx + x`) is the angular mean of the radiance of the atmosphere of the file: the rays of
all cascades marched through the atmosphere, and the radiance of the cascades made of them (C74). -/
structure Solves (s : Settings) (k nx ny nz nw : Nat) (eta chi : Coord3 → Int → ℝ) (scale : ℝ) (J : Arr2 ℝ) : Prop where
  rows : J.rows = nw
  cols : J.cols = nx * 2 ^ k * (ny * 2 ^ k) * (nz * 2 ^ k)
  value : ∀ la, la < nw → ∃ march : Bool → Nat → ProbeIdx3 → Seg ℝ,
    Marches3 (fileWorld k nx ny nz eta chi scale) (envOf s (nx * 2 ^ k) (ny * 2 ^ k) (nz * 2 ^ k) march) s.len la ∧
    ∀ x y z, x < nx * 2 ^ k → y < ny * 2 ^ k → z < nz * 2 ^ k →
      J.get la ((z * (ny * 2 ^ k) + y) * (nx * 2 ^ k) + x) = meanIntensity3 s.cfg.c0az s.cfg.c0polar
        (radiance3 march (nx * 2 ^ k) (ny * 2 ^ k) (nz * 2 ^ k) (upperTexels3 s.cfg.branch).1 (upperTexels3 s.cfg.branch).2
          s.num s.num) x y z

/-- Cell `c` is in the grid of `nx` by `ny` by `nz` tiles of side `2 ^ k`. -/
def InGrid (k nx ny nz : Nat) (c : Coord3) : Prop :=
  0 ≤ c.x ∧ c.x < ((nx * 2 ^ k : Nat) : Int) ∧ 0 ≤ c.y ∧ c.y < ((ny * 2 ^ k : Nat) : Int) ∧
    0 ≤ c.z ∧ c.z < ((nz * 2 ^ k : Nat) : Int)

end DexRT.Given3
