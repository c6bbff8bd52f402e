import Verif.Props.NlteRun3
import Verif.Props.NlteRunEx
import Verif.Props.LteRun3Ex
/-! Non-vacuity of C93: a run of the default build on 32 by 32 by 32 cells of moving gas with an atom with a line, a continuum and
collisions. -/
namespace DexRT.Nlte3
open DexRT DexRT.Fs DexRT.AtmosFile DexRT.Dir DexRT.Given3 DexRT.Emis DexRT.Lte3 DexRT.RadGamma Classical

noncomputable def exSetup : Setup :=
  { r := Lte3.exRun 4, eps := 0, bin := Nlte.exSetup.bin, lineRange := [(0, 1)], contRange := [(0, 1)], ck := ⟨1, 1, 1, 1⟩, colls := fun _ => Nlte.exColls,
    ignoreFrac := 1 / 1000000, tol := 1 / 1000, maxIter := 200, initial := 2 }

theorem exNlteReady : NlteReady exSetup where
  ready := Lte3.exReady 4 (by decide)
  consistent := Nlte.exNlteReady.consistent
  physical := Nlte.exNlteReady.physical
  red := Nlte.exNlteReady.red
  colls := Nlte.exNlteReady.colls

/-- Orders of an iteration exist. -/
theorem exIterOrders (q : Setup) (k nx ny nz : Nat) : ∃ o, IterOrders q k nx ny nz o := by
  have hb : ∃ o, LaOrders q.r k nx ny nz o ∧ o.b.mem.psi.isSome := by
    obtain ⟨o, ho⟩ := exLaOrders q.r k nx ny nz
    refine ⟨{ o with b := { o.b with mem := { o.b.mem with psi := some (List.replicate ((bufSizes q.r.s k nx ny nz).headD 0) 0) } } }, ?_, rfl⟩
    refine ⟨⟨ho.base.copy, ho.base.tiles, ho.base.rc, ho.base.j, ?_⟩, ho.vel, ho.cav⟩
    refine ⟨ho.base.mem.1, fun ps hps => ?_⟩
    obtain rfl := Option.some.inj hps
    rw [List.length_replicate]
    exact Nlte.bufferSizes_head _ _ _
  obtain ⟨o, ho⟩ := hb
  exact ⟨⟨_, _, _, fun _ => 0, fun _ => o, fun _ _ => 0, _⟩, List.Perm.refl _, List.Perm.refl _, List.Perm.refl _, fun la _ => ho, fun _ _ _ _ => Nat.succ_pos _, List.Perm.refl _⟩

/-- The hypotheses of `C93_run_partial` are met by a run with lines, continua and collisions. -/
example : ∃ (o0 : StartOrder) (o : Nat → IterOrder), Fits exSetup.r.s 3 4 4 4 ∧ NlteReady exSetup ∧ Describes Lte3.exFile id (2 ^ 3) 4 4 4 exCond ∧
    (exSetup.r.haveH = false → Warm 3 4 4 4 exCond) ∧ StartOrders exSetup.r 3 4 4 4 o0 ∧ (∀ i, IterOrders exSetup 3 4 4 4 (o i)) ∧ runNlte3 exSetup id Lte3.exFile o0 o ≠ .ub := by
  obtain ⟨o0, ho0⟩ := exStart (exRun 4) 3 4 4 4
  obtain ⟨o, ho⟩ := exIterOrders exSetup 3 4 4 4
  refine ⟨o0, fun _ => o, Given3.exFits, exNlteReady, exDescribes, fun hh => absurd hh (by simp [exSetup, exRun]), ho0, fun _ => ho, fun hu => ?_⟩
  rcases C93_run_partial id Lte3.exFile Given3.exFits exNlteReady exDescribes (fun hh => absurd hh (by simp [exSetup, exRun])) o0 ho0 (fun _ => o) (fun _ => ho) with ⟨e, -⟩ | ⟨n, it, _, _, _, e, -⟩
  · rw [e] at hu; cases hu
  · rw [e] at hu; cases hu

end DexRT.Nlte3
