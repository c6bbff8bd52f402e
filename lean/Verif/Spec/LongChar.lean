import Verif.Model.LongChar
import Verif.Spec.GivenFs3
import Verif.Props.Raymarch
/-! Specification for the long-characteristics mode. -/
namespace DexRT.LongChar
open DexRT DexRT.Fs

/-- The probe of flat index `k`. -/
def probeAt (s : Casc3) (k : Nat) : Coord3 :=
  { x := ((k % s.np0 : Nat) : Int), y := ((k / s.np0 % s.np1 : Nat) : Int), z := ((k / s.np0 / s.np1 : Nat) : Int) }

/-- The sum of what the buffer of cascade 0 holds, before the formal solution, in the entries of probe `k` other than its first
direction. -/
noncomputable def stale (s : Casc3) (b : List ℝ) (k : Nat) : ℝ :=
  ∑ p ∈ Finset.range s.polar, ∑ a ∈ Finset.range s.az,
    if p = 0 ∧ a = 0 then 0 else b.getD (a + s.az * (p + s.polar * k)) 0

/-- Sizes in the range of the program: a grid of at most 2^31 - 1 probes and a buffer as large as the cascade. -/
structure Sized (s : Casc3) (b : List ℝ) : Prop where
  pos : 0 < s.np0 ∧ 0 < s.np1 ∧ 0 < s.np2 ∧ 0 < s.az ∧ 0 < s.polar
  count : s.np0 * s.np1 * s.np2 ≤ 2147483647
  buffer : s.az * (s.polar * (s.np0 * s.np1 * s.np2)) ≤ b.length

/-- The straight path of length `dist` in direction `d` that ends at the centre of the cell of probe `x`, through a grid of `nx` by
`ny` by `nz` tiles of side `2 ^ k` with emissivity `eta` and opacity `chi`, and nothing entering from outside. -/
noncomputable def pathTo (k nx ny nz : Nat) (eta chi : Coord3 → ℝ) (scale dist : ℝ) (d : Fin 3 → ℝ) (x : Coord3) : RaymarchArgs .three :=
  { seg := { o := ![(x.x : ℝ) + 1 / 2, (x.y : ℝ) + 1 / 2, (x.z : ℝ) + 1 / 2], d := d, negZero := fun _ => false, t0 := -dist, t1 := 0 }
    env := (Given3.fileWorld k nx ny nz (fun c _ => eta c) (fun c _ => chi c) scale).env 0
    eta := fun _ c => eta ⟨c 0, c 1, c 2⟩
    chi := fun _ c => chi ⟨c 0, c 1, c 2⟩
    extraSafe := false, scale := scale, incl := 0, sampleBc := false, toInfty := false, up := 0, la := 0, bc := 0 }

end DexRT.LongChar
