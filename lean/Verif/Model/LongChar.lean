import Verif.Model.GivenFs3
/-!
Model of the long-characteristics formal solution in 3D, which `FORCE_LC_QUADRATURE` selects: `static_formal_sol_long_char_3d`
(source/StaticFormalSolution3d.cpp:218-330) and `merge_c0_to_J_3d` (lines 179-216) with the weight it is called with.

`static_formal_sol_rc_given_3d` returns from it at lines 339-342, before the call of `compute_mips` at line 362, and it does
not call `compute_mips` itself: the lookup of the multi-resolution map holds whatever its memory held. The quadrature
(source/UserConfig3d.hpp:84-116) is arbitrary. Simplifications as in `GivenFs3`.
-/
namespace DexRT.LongChar
open DexRT DexRT.Fs DexRT.Given3

/-- One iteration of the "RC Loop 3D": source/StaticFormalSolution3d.cpp:277-316. `I` is what the march gives at a probe. -/
noncomputable def lcBody (c : RcCfg3) (s : Casc3) (I : Coord3 → ℝ) (k : Nat) : Outcome (Nat × ℝ × ℝ) := do
  let dims := cascadeSize3 c.branch s 0
  let x ← probeCoord dims k
  if 0 ≤ x.x ∧ 0 ≤ x.y ∧ 0 ≤ x.z then
    .ok (probeLinearIndex3 c dims { u := x.x.toNat, v := x.y.toNat, w := x.z.toNat, polar := 0, az := 0 }, I x, 0)
  else .ub

/-- One iteration of `merge_c0_to_J_3d`, source/StaticFormalSolution3d.cpp:196-213, called with weight `w` (line 325). -/
noncomputable def lcJ (c : RcCfg3) (s : Casc3) (w : ℝ) (la : Nat) (c0 : List ℝ) (i : JIter3) : Outcome (Int × Int × ℝ) := do
  let x ← probeCoord (cascadeComputeSize3 c s 0) i.k
  let sample ← fetch3 c0 s x i.theta i.phi
  .ok ((la : Int), (i.k : Int), w * sample)

/-- The loop over the directions of one wavelength, source/StaticFormalSolution3d.cpp:251-328; `I t` is what the marches of
direction `t` give, `w t` its weight. -/
noncomputable def directions (c : RcCfg3) (s : Casc3) (I : Nat → Coord3 → ℝ) (w : Nat → ℝ) (la : Nat) (rc : Nat → List Nat)
    (j : Nat → List JIter3) : List Nat → Mem ℝ → Arr2 ℝ → Outcome (Mem ℝ × Arr2 ℝ) :=
  passesJ (fun t m => rcLoop (fun _ k => lcBody c s (I t) k) 0 false (rc t) m) (fun t c0 J => addAll (lcJ c s (w t) la c0) (j t) J)

/-- What the march of a ray of direction `d` from probe `x` reads: source/StaticFormalSolution3d.cpp:292-308; `lk` is the
lookup as it is, `emis`, `opac` the arrays as copied (lines 232-242), `dist` is `LAST_CASCADE_MAX_DIST_3D`. -/
noncomputable def lcArgs (s : Settings) (g : Given) (lk : MLLookup Coord3) (junk : ℝ) (junkLevel : ℤ) (emis opac : Int → ℝ)
    (dist : ℝ) (d : Fin 3 → ℝ) (x : Coord3) : StaticArgs :=
  { seg := { o := ![(probePos x.x 0 : ℝ), (probePos x.y 0 : ℝ), (probePos x.z 0 : ℝ)], d := d, negZero := fun _ => false,
             t0 := -dist, t1 := 0 }
    env := { lvl := readLevel s (mrOf s g lk) junkLevel, maxMip := 0, block := s.B, max := ![g.nx, g.ny, g.nz] }
    eta := readCell s g (mrOf s g lk) junk emis
    chi := readCell s g (mrOf s g lk) junk opac
    scale := g.scale }

end DexRT.LongChar
