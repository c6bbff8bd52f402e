import Verif.Lemmas.LteBatch3
import Verif.Lemmas.GivenSolve3
import Verif.Lemmas.LteSolve
/-! Lemmas for C91: what determines J. -/
namespace DexRT.Lte3
open DexRT DexRT.Fs DexRT.AtmosFile DexRT.Dir DexRT.Given3 DexRT.Emis Classical

variable {r : Run} {k nx ny nz : Nat} {a : Cond} {h : Coord3 → ℝ} {pf : Coord3 → Emis.Pops}

theorem march_congr (E' X' : ℤ → (Fin 3 → ℝ) → Coord3 → ℝ) (la : Nat)
    (he : ∀ c, InGrid k nx ny nz c → ∀ mu, (gasOf r a h pf la mu c).eta = E' la mu c ∧ (gasOf r a h pf la mu c).chi = X' la mu c)
    (march march' : Bool → Nat → ProbeIdx3 → Seg ℝ) (bc : Bool) (n : Nat) (p : ProbeIdx3) (sg : Seg ℝ) :
    MarchRay3 (gasWorld r k nx ny nz a h pf) (envOf r.s (nx * 2 ^ k) (ny * 2 ^ k) (nz * 2 ^ k) march) r.s.len la bc n p sg ↔
      MarchRay3 { gasWorld r k nx ny nz a h pf with eta := fun l mu _ c => E' l mu ⟨c 0, c 1, c 2⟩, chi := fun l mu _ c => X' l mu ⟨c 0, c 1, c 2⟩ }
        (envOf r.s (nx * 2 ^ k) (ny * 2 ^ k) (nz * 2 ^ k) march') r.s.len la bc n p sg := by
  set w2 : World .three := { gasWorld r k nx ny nz a h pf with eta := fun l mu _ c => E' l mu ⟨c 0, c 1, c 2⟩, chi := fun l mu _ c => X' l mu ⟨c 0, c 1, c 2⟩ } with hw2
  set A := (gasWorld r k nx ny nz a h pf).args3 (envOf r.s (nx * 2 ^ k) (ny * 2 ^ k) (nz * 2 ^ k) march) r.s.len la bc n p with hA
  have harg : w2.args3 (envOf r.s (nx * 2 ^ k) (ny * 2 ^ k) (nz * 2 ^ k) march') r.s.len la bc n p =
      { A with eta := (w2.args3 (envOf r.s (nx * 2 ^ k) (ny * 2 ^ k) (nz * 2 ^ k) march') r.s.len la bc n p).eta, chi := (w2.args3 (envOf r.s (nx * 2 ^ k) (ny * 2 ^ k) (nz * 2 ^ k) march') r.s.len la bc n p).chi } := rfl
  have hray : ∀ fuel, raymarch (w2.args3 (envOf r.s (nx * 2 ^ k) (ny * 2 ^ k) (nz * 2 ^ k) march') r.s.len la bc n p) fuel = raymarch A fuel := by
    intro fuel
    rw [harg]
    refine raymarch_congr A _ _ (fun c m hm => file_blk (eta := fun _ _ => 0) (chi := fun _ _ => 0) (scale := a.scale) n c m hm) (fun c hc0 => ?_) fuel
    change 0 ≤ ((gasWorld r k nx ny nz a h pf).env n).sampleLevel c at hc0
    have hcin : InGrid k nx ny nz ⟨c 0, c 1, c 2⟩ := by
      by_contra hno
      have : ((gasWorld r k nx ny nz a h pf).env n).lvl c = -1 := if_neg hno
      unfold DdaEnv.sampleLevel at hc0
      rw [this] at hc0
      have := min_le_left (-1 : ℤ) ((gasWorld r k nx ny nz a h pf).env n).maxMip
      omega
    exact ⟨((he _ hcin _).1).symm, ((he _ hcin _).2).symm⟩
  unfold MarchRay3
  refine exists_congr fun fuel => exists_congr fun res => ?_
  rw [hray]

/-- The radiance at cascade 0 is determined by the gas in the grid. -/
theorem radiance_congr (hf : Fits r.s k nx ny nz) (a' : Cond) (hw : a.scale = a'.scale ∧ a.offset = a'.offset) (h' : Coord3 → ℝ) (pf' : Coord3 → Emis.Pops) (la : Nat)
    (he : ∀ c, InGrid k nx ny nz c → ∀ mu, gasOf r a h pf la mu c = gasOf r a' h' pf' la mu c)
    (march march' : Bool → Nat → ProbeIdx3 → Seg ℝ)
    (hm : Marches3 (gasWorld r k nx ny nz a h pf) (envOf r.s (nx * 2 ^ k) (ny * 2 ^ k) (nz * 2 ^ k) march) r.s.len la)
    (hm' : Marches3 (gasWorld r k nx ny nz a' h' pf') (envOf r.s (nx * 2 ^ k) (ny * 2 ^ k) (nz * 2 ^ k) march') r.s.len la)
    (x y z q b : Nat) (hx : x < nx * 2 ^ k) (hy : y < ny * 2 ^ k) (hz : z < nz * 2 ^ k) (hq : q < r.s.cfg.c0polar) (hb : b < r.s.cfg.c0az) :
    radiance3 march (nx * 2 ^ k) (ny * 2 ^ k) (nz * 2 ^ k) (upperTexels3 r.s.cfg.branch).1 (upperTexels3 r.s.cfg.branch).2 r.s.num r.s.num ⟨x, y, z, q, b⟩ =
      radiance3 march' (nx * 2 ^ k) (ny * 2 ^ k) (nz * 2 ^ k) (upperTexels3 r.s.cfg.branch).1 (upperTexels3 r.s.cfg.branch).2 r.s.num r.s.num ⟨x, y, z, q, b⟩ := by
  have hww : ({ gasWorld r k nx ny nz a h pf with eta := fun l mu _ c => (gasOf r a' h' pf' l.toNat mu ⟨c 0, c 1, c 2⟩).eta, chi := fun l mu _ c => (gasOf r a' h' pf' l.toNat mu ⟨c 0, c 1, c 2⟩).chi } : World .three) =
      gasWorld r k nx ny nz a' h' pf' := by
    unfold gasWorld
    simp only [hw.1, hw.2]
  have key : ∀ bc n p, MarchRay3 (gasWorld r k nx ny nz a h pf) (envOf r.s (nx * 2 ^ k) (ny * 2 ^ k) (nz * 2 ^ k) march) r.s.len la bc n p (march bc n p) →
      MarchRay3 (gasWorld r k nx ny nz a' h' pf') (envOf r.s (nx * 2 ^ k) (ny * 2 ^ k) (nz * 2 ^ k) march') r.s.len la bc n p (march' bc n p) →
      march bc n p = march' bc n p := by
    intro bc n p h1 h2
    have h3 := (march_congr (fun l mu c => (gasOf r a' h' pf' l.toNat mu c).eta) (fun l mu c => (gasOf r a' h' pf' l.toNat mu c).chi) la
      (fun c hc mu => ⟨congrArg EO.eta (he c hc mu), congrArg EO.chi (he c hc mu)⟩) march march' bc n p _).1 h1
    rw [hww] at h3
    exact marchRay3_unique _ _ _ _ _ _ _ _ _ h3 h2
  refine Fs.radiance3_congr march march' _ _ _ _ _ r.s.num (Ray3 (envOf r.s (nx * 2 ^ k) (ny * 2 ^ k) (nz * 2 ^ k) march))
    (fun n p U W X i j _ hp hU hW hX hi hj => env_child march n p U W X i j hp hU hW hX hi hj) (fun n p hn hp => ?_) (fun p hp => ?_) r.s.num le_rfl _
    (by rw [Nat.sub_self]; exact ray_zero hf march x y z q b hx hy hz hq hb)
  · rw [key false n p (hm.1 n p hn hp) (hm'.1 n p hn ⟨hp.u, hp.v, hp.w, hp.az, hp.polar⟩)]; exact ⟨rfl, rfl⟩
  · rw [key true r.s.num p (hm.2 p hp) (hm'.2 p ⟨hp.u, hp.v, hp.w, hp.az, hp.polar⟩)]

/-- a 2D atmosphere with the conditions of one cell everywhere -/
noncomputable def same (a : Cond) (c : Coord3) : LteRun.Cond :=
  { temperature := fun _ => a.temperature c, ne := fun _ => a.ne c, nhTot := fun _ => a.nhTot c, vturb := fun _ => a.vturb c, vx := fun _ => a.vx c, vy := fun _ => a.vy c, vz := fun _ => a.vz c, scale := 1, offset := fun _ => 0 }

theorem zero_in : Given.InGrid 0 1 1 ⟨0, 0⟩ := by
  refine ⟨?_, ?_, ?_, ?_⟩ <;> simp

/-- The neutral hydrogen density of the cells is unique. -/
theorem neutral_unique (hs : 0 ≤ r.sahaConst) (hw : r.haveH = false → Warm k nx ny nz a) (h' : Coord3 → ℝ) (h1 : NeutralOf r k nx ny nz a pf h)
    (h2 : NeutralOf r k nx ny nz a pf h') : ∀ c, InGrid k nx ny nz c → h c = h' c := by
  intro c hc
  refine LteRun.neutral_unique (r := flat r) (k := 0) (nx := 1) (nz := 1) (a := same a c) (h := fun _ => h c) (pf := fun _ => pf c) hs
    (fun hh _ _ => hw hh c hc) (fun _ => h' c) (fun _ _ => h1 c hc) (fun _ _ => h2 c hc) ⟨0, 0⟩ zero_in

/-- Source function of the gas of a cell that emits thermally: between 0 and `hi`. -/
theorem gas_between (hr : LteRun.LevelsExist r.ad) (la : Nat) (ht : Thermal r k nx ny nz a la) (c : Coord3) (hc : InGrid k nx ny nz c) (mu : Fin 3 → ℝ) (hi : ℝ)
    (h1 : EmisSpec.planck r.k (r.ad.wavelength.getD la 0) (a.temperature c) ≤ hi)
    (h2 : ∀ l ∈ r.ad.lines, l.blue ≤ la → la < l.red → EmisSpec.planck r.k l.lambda0 (a.temperature c) ≤ hi) :
    0 ≤ (gasOf r a h (ltePop r a) la mu c).chi ∧ 0 ≤ (gasOf r a h (ltePop r a) la mu c).eta ∧
      (gasOf r a h (ltePop r a) la mu c).eta ≤ hi * (gasOf r a h (ltePop r a) la mu c).chi := by
  have ht' : LteRun.Thermal (flat r) 0 1 1 (same a c) la :=
    { consts := ht.consts, wave := ht.wave, cells := fun _ _ => ht.cells c hc, atoms := ht.atoms, sigma := ht.sigma, phi := ht.phi,
      lines := fun l hl i1 i2 => by
        obtain ⟨e1, e2, gi, gj, e3, e4, e5, e6, e7⟩ := ht.lines l hl i1 i2
        exact ⟨e1, e2, gi, gj, e3, e4, e5, e6, fun _ _ => e7 c hc⟩ }
  exact LteRun.gas_between (r := flat r) (h := fun _ => h c) hr la ht' ⟨0, 0⟩ zero_in mu hi h1 h2

/-- A wavelength with more lines than slots. -/
theorem wave_ub {st : Started} (hf : Fits r.s k nx ny nz) (hr : Sound r) (hc : Cells r k nx ny nz a h pf st) (o : LaOrder) (la : Nat)
    (hla : la < r.ad.wavelength.length) (hs : r.maxLines < (activeLines r la).card) (ho : LaOrders r k nx ny nz o) (J : Arr2 ℝ) :
    Lte3.wave3 r st o la J = .ub := by
  have hg := hc.good
  obtain ⟨base, b1, -⟩ := cellCol_ok hf hg (baseVal r st o la) (contField r a h pf la)
    (fun c hin adr hadr => base_ok hr hc o la hla c hin adr hadr) o.b.copy ho.base.copy o.oldBase st.g.lk
  obtain ⟨vel, v1, -⟩ := cellCol_ok hf hg (fun ks => .ok (st.atmos.vx ks, st.atmos.vy ks, st.atmos.vz ks)) (fun c => (a.vx c, a.vy c, a.vz c))
    (fun c hin adr hadr => congrArg Outcome.ok (hc.vel c hin adr hadr)) o.vel ho.vel o.oldVel st.g.lk
  unfold Lte3.wave3 arrays
  simp only
  rw [b1, Outcome.ok_bind, v1, Outcome.ok_bind, (C52_refuted_3d r.maxLines _).1 (by rw [(scan_card la).1]; exact hs)]
  rfl

/-- Loops over wavelengths of which one fails and the others succeed. -/
theorem dev_ub (sol : Nat → Arr2 ℝ → Outcome (Arr2 ℝ)) (rows cols : Nat) (las : List Nat)
    (hok : ∀ la ∈ las, (∀ J, sol la J = .ub) ∨ ∀ J : Arr2 ℝ, J.rows = rows → J.cols = cols → ∃ J', sol la J = .ok J' ∧ J'.rows = rows ∧ J'.cols = cols)
    (la : Nat) (hla : la ∈ las) (hu : ∀ J, sol la J = .ub) (J : Arr2 ℝ) (h1 : J.rows = rows) (h2 : J.cols = cols) : batchesDev sol las J = .ub := by
  induction las generalizing J with
  | nil => cases hla
  | cons x las ih =>
    unfold batchesDev
    rcases hok x List.mem_cons_self with hx | hx
    · rw [hx]; rfl
    · obtain ⟨J', e1, e2, e3⟩ := hx J h1 h2
      rw [e1, Outcome.ok_bind]
      refine ih (fun y hy => hok y (List.mem_cons_of_mem _ hy)) ?_ J' e2 e3
      rcases List.mem_cons.1 hla with rfl | h
      · rw [hu] at e1; cases e1
      · exact h

theorem cpu_ub (sol : Nat → Arr2 ℝ → Outcome (Arr2 ℝ)) (nw cols : Nat) (las : List Nat) (hlas : ∀ la ∈ las, la < nw)
    (hok : ∀ la ∈ las, (∀ J, sol la J = .ub) ∨ ∀ J : Arr2 ℝ, J.rows = 1 → J.cols = cols → ∃ J', sol la J = .ok J' ∧ J'.rows = 1 ∧ J'.cols = cols)
    (la : Nat) (hla : la ∈ las) (hu : ∀ J, sol la J = .ub) (J Jc : Arr2 ℝ) (h1 : J.rows = 1) (h2 : J.cols = cols) (h3 : Jc.rows = nw) (h4 : Jc.cols = cols) :
    batchesCpu sol (fun la => min 1 (nw - la)) las J Jc = .ub := by
  induction las generalizing J Jc with
  | nil => cases hla
  | cons x las ih =>
    unfold batchesCpu
    rcases hok x List.mem_cons_self with hx | hx
    · rw [hx]; rfl
    · obtain ⟨J', e1, e2, e3⟩ := hx J.zero h1 h2
      rw [e1, Outcome.ok_bind]
      have hxn := hlas x List.mem_cons_self
      unfold copyPlane
      rw [if_pos ⟨by rw [e2]; omega, by rw [h3]; omega, by rw [e3, h4]⟩, Outcome.ok_bind]
      refine ih (fun y hy => hlas y (List.mem_cons_of_mem _ hy)) (fun y hy => hok y (List.mem_cons_of_mem _ hy)) ?_ J' _ e2 e3 h3 h4
      rcases List.mem_cons.1 hla with rfl | h
      · rw [hu] at e1; cases e1
      · exact h

end DexRT.Lte3
