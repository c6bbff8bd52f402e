import Verif.Props.NlteRun
import Verif.Props.LteRunEx
/-! Non-vacuity of C89: a run of the default build on 32 by 32 cells of moving gas with an atom with a line, a continuum and collisions;
and one with an atom with collisions only that is seen to end. -/
namespace DexRT.Nlte
open DexRT DexRT.Fs DexRT.AtmosFile DexRT.Dir DexRT.Given DexRT.Emis DexRT.LteRun DexRT.RadGamma Classical

/-- Collisions by electrons between all three levels. -/
noncomputable def exColls : List RawColl := [⟨.CE, 0, 1, [1, 2], [1, 3]⟩, ⟨.CI, 0, 2, [1], [1]⟩, ⟨.CE, 1, 2, [1], [2]⟩]

noncomputable def exSetup : Setup :=
  { r := exRun, eps := 0, bin := [1, 1, 1, 1, 1, 1, 1, 1, 1, 1], lineRange := [(0, 1)], contRange := [(0, 1)], ck := ⟨1, 1, 1, 1⟩, colls := fun _ => exColls,
    ignoreFrac := 1 / 1000000, tol := 1 / 1000, maxIter := 200, initial := 2 }

theorem exNlteReady : NlteReady exSetup where
  ready := exReady
  consistent := by
    refine ⟨rfl, rfl, rfl, rfl, ?_, ?_, ?_, ?_, ?_⟩
    · rintro (_ | ia) r hr
      · obtain rfl : (0, 1) = r := Option.some.inj hr
        refine ⟨by simp [exSetup, rateData, exRun, exData], ?_⟩
        rintro (_ | kr) l hl
        · obtain rfl := Option.some.inj hl; simp
        · simp [exSetup, rateData, exRun, exData] at hl
      · simp [exSetup, rateData] at hr
    · rintro (_ | ia) r hr
      · obtain rfl : (0, 1) = r := Option.some.inj hr
        refine ⟨by simp [exSetup, rateData, exRun, exData], ?_⟩
        rintro (_ | kr) l hl
        · obtain rfl := Option.some.inj hl; simp
        · simp [exSetup, rateData, exRun, exData] at hl
      · simp [exSetup, rateData] at hr
    · intro l hl nl hn
      rw [List.mem_singleton.1 hl] at hn ⊢
      obtain rfl : 3 = nl := Option.some.inj hn
      decide
    · intro l hl nl hn
      rw [List.mem_singleton.1 hl] at hn ⊢
      obtain rfl : 3 = nl := Option.some.inj hn
      decide
    · intro l hl
      rw [List.mem_singleton.1 hl]; rfl
  physical := by
    refine ⟨one_ne_zero, one_ne_zero, fun l hl => ?_⟩
    have hl' : l ∈ [1, 2, 3, 4, 5, 6, 7, 8, 9, (10 : ℝ)] := hl
    simp only [List.mem_cons, List.not_mem_nil, or_false] at hl'
    rcases hl' with rfl | rfl | rfl | rfl | rfl | rfl | rfl | rfl | rfl | rfl <;> norm_num
  red := fun l hl => by rw [List.mem_singleton.1 hl]; decide
  colls := by
    rintro (_ | ia) x hx c hc
    · obtain rfl : exAtom = x := Option.some.inj hx
      have hc' : c ∈ exColls := hc
      simp only [exColls, List.mem_cons, List.not_mem_nil, or_false] at hc'
      rcases hc' with rfl | rfl | rfl <;> simp [exAtom]
    · simp [exSetup, exRun, exData] at hx

theorem bufferSizes_head (pp : Bool) (f : Nat → Nat) (num : Nat) : (bufferSizes pp f num)[0]? = some ((bufferSizes pp f num).headD 0) := by
  unfold bufferSizes
  split <;> simp [List.range_succ_eq_map]

/-- Orders of an iteration exist. -/
theorem exIterOrders (q : Setup) (k nx nz : Nat) : ∃ o, IterOrders q k nx nz o := by
  have hb : ∀ la, ∃ o, LteOrders q.r k nx nz (min q.r.s.W (q.r.ad.wavelength.length - la)) o ∧ o.b.mem.psi.isSome := by
    intro la
    obtain ⟨o, ho⟩ := exLteOrders q.r k nx nz (min q.r.s.W (q.r.ad.wavelength.length - la))
    refine ⟨{ o with b := { o.b with mem := { o.b.mem with psi := some (List.replicate ((bufferSizes q.r.s.pp (fun n => cascadeEntries (cascadeSize q.r.s.cfg (raysToStorage q.r.s.cfg ⟨nx * 2 ^ k, nz * 2 ^ k, q.r.s.cfg.p0rays, q.r.s.W, q.r.s.incl⟩) n)) q.r.s.num).headD 0) 0) } } }, ?_, rfl⟩
    refine ⟨⟨ho.base.copy, ho.base.mips, ho.base.tests, ho.base.tiles, ho.base.rc, ho.base.j, ?_⟩, ho.vel, ho.cav⟩
    refine ⟨ho.base.mem.1, fun ps hps => ?_⟩
    obtain rfl := Option.some.inj hps
    rw [List.length_replicate]
    exact bufferSizes_head _ _ _
  choose o ho using hb
  exact ⟨⟨_, _, _, fun _ => 0, o, fun _ _ => 0, _⟩, List.Perm.refl _, List.Perm.refl _, List.Perm.refl _, fun la _ _ => ho la, fun _ _ _ _ => Nat.succ_pos _, List.Perm.refl _⟩

/-- The hypotheses of `C89_run_partial` are met by a run with lines, continua and collisions. -/
example : ∃ (o0 : StartOrder) (o : Nat → IterOrder), Fits exSetup.r.s 4 2 2 ∧ NlteReady exSetup ∧ Describes LteRun.exFile id (2 ^ 4) 2 2 exCond ∧
    (exSetup.r.haveH = false → Warm 4 2 2 exCond) ∧ StartOrders exSetup.r 4 2 2 o0 ∧ (∀ i, IterOrders exSetup 4 2 2 (o i)) ∧ runNlte2 exSetup id LteRun.exFile o0 o ≠ .ub := by
  obtain ⟨o0, ho0⟩ := exStart exRun 4 2 2
  obtain ⟨o, ho⟩ := exIterOrders exSetup 4 2 2
  refine ⟨o0, fun _ => o, exRunFits, exNlteReady, exDescribes, fun hh => absurd hh (by simp [exSetup, exRun]), ho0, fun _ => ho, fun hu => ?_⟩
  rcases C89_run_partial id LteRun.exFile exRunFits exNlteReady exDescribes (fun hh => absurd hh (by simp [exSetup, exRun])) o0 ho0 (fun _ => o) (fun _ => ho) with ⟨e, -⟩ | ⟨n, it, _, _, _, e, -⟩
  · rw [e] at hu; cases hu
  · rw [e] at hu; cases hu

end DexRT.Nlte
