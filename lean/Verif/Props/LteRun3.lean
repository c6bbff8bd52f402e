import Verif.Lemmas.LteSolve3
import Verif.Props.GivenFs3
import Verif.Props.AtmosFile
import Verif.Props.Cav
/-!
# C91: an `Lte` run, end to end (3D)

Atmosphere file and atomic data go in, J comes out: the theorems compose the loader (C81), the LTE populations and the
neutral hydrogen density (C27, C50, C83), emissivity and opacity (C53, C54, C57), the march and the cascades (C88).
-/
namespace DexRT.Lte3
open DexRT DexRT.Fs DexRT.AtmosFile DexRT.Dir DexRT.Given3 DexRT.Emis Classical

variable {r : Run} {k nx ny nz : Nat} {a : Cond}

/-- **C91** For every complete dense 3D atmosphere file and every set of atomic data that the program can handle, whatever the
order in which the iterations of every kernel run, whatever the arrays held when they were allocated, with J kept on the host
or on the device: the run ends normally, without reading or writing outside any array, and J is the angular mean of the
radiance of the gas in LTE. -/
theorem C91_lte3_partial {W : Type} (cv : W → ℝ) (f : NcFile Coord3 W) (hf : Fits r.s k nx ny nz) (hr : Ready r) (hd : Describes f cv (2 ^ k) nx ny nz a)
    (hw : r.haveH = false → Warm k nx ny nz a) (o0 : StartOrder) (ho0 : StartOrders r k nx ny nz o0) (o : Nat → LaOrder)
    (ho : ∀ la, la < r.ad.wavelength.length → LaOrders r k nx ny nz (o la)) :
    ∃ J, runLte3 r cv f o0 o = .ok J ∧ LteSolves r k nx ny nz a J :=
  run_lte hf hr hd hw o0 ho0 o ho

/-- **C91** J is determined by the atmosphere inside the grid and the atomic data: where J is kept, the number of line slots,
the number of initial Lambda iterations and what the description says outside the grid do not matter. -/
theorem C91_unique3 (hf : Fits r.s k nx ny nz) (hr : Sound r) (hw : r.haveH = false → Warm k nx ny nz a) (onCpu : Bool) (slots : Nat) (lam : Bool)
    (a' : Cond) (ha : a.scale = a'.scale ∧ a.offset = a'.offset)
    (hc : ∀ c, InGrid k nx ny nz c → a.temperature c = a'.temperature c ∧ a.ne c = a'.ne c ∧ a.nhTot c = a'.nhTot c ∧ a.vturb c = a'.vturb c ∧
      a.vx c = a'.vx c ∧ a.vy c = a'.vy c ∧ a.vz c = a'.vz c)
    (J J' : Arr2 ℝ) (h : LteSolves r k nx ny nz a J) (h' : LteSolves (r.rearranged onCpu slots lam) k nx ny nz a' J') :
    ∀ la x y z, la < r.ad.wavelength.length → x < nx * 2 ^ k → y < ny * 2 ^ k → z < nz * 2 ^ k →
      J.get la ((z * (ny * 2 ^ k) + y) * (nx * 2 ^ k) + x) = J'.get la ((z * (ny * 2 ^ k) + y) * (nx * 2 ^ k) + x) := by
  intro la x y z hla hx hy hz
  obtain ⟨n, n1, n2⟩ := h.value
  obtain ⟨n', n1', n2'⟩ := h'.value
  obtain ⟨march, m1, m2⟩ := n2 la hla
  obtain ⟨march', m1', m2'⟩ := n2' la hla
  have hp : ∀ c, InGrid k nx ny nz c → ltePop r a c = ltePop r a' c := by
    intro c hcc
    obtain ⟨e1, e2, e3, e4, -⟩ := hc c hcc
    unfold ltePop point
    rw [e1, e2, e3, e4]
  have hn' : NeutralOf r k nx ny nz a (ltePop r a) n' := by
    intro c hcc
    obtain ⟨e1, e2, e3, -⟩ := hc c hcc
    have := n1' c hcc
    rw [hp c hcc, e1, e2, e3]
    exact this
  have hnn := neutral_unique hr.saha hw n' n1 hn'
  rw [m2 x y z hx hy hz, m2' x y z hx hy hz]
  refine mean_congr3 _ _ _ _ _ _ _ fun q b hq hb => ?_
  refine radiance_congr hf a' ha n' (ltePop r a') la (fun c hcc mu => ?_) march march' m1 m1' x y z q b hx hy hz hq hb
  obtain ⟨e1, e2, e3, e4, e5, e6, e7⟩ := hc c hcc
  unfold gasOf
  rw [hp c hcc]
  unfold point
  rw [hnn c hcc, e1, e2, e3, e4, e5, e6, e7]

/-- **C91** Two runs on the same file give the same J, whatever the schedules, the previous contents of memory, where J is
kept, the number of initial Lambda iterations and the number of line slots (if they suffice). -/
theorem C91_deterministic3 {W : Type} (cv : W → ℝ) (f : NcFile Coord3 W) (onCpu : Bool) (slots : Nat) (lam : Bool)
    (hf : Fits r.s k nx ny nz) (hr : Ready r) (hr' : Ready (r.rearranged onCpu slots lam))
    (hd : Describes f cv (2 ^ k) nx ny nz a) (hw : r.haveH = false → Warm k nx ny nz a)
    (o0 o0' : StartOrder) (ho0 : StartOrders r k nx ny nz o0) (ho0' : StartOrders r k nx ny nz o0') (o o' : Nat → LaOrder)
    (ho : ∀ la, la < r.ad.wavelength.length → LaOrders r k nx ny nz (o la))
    (ho' : ∀ la, la < r.ad.wavelength.length → LaOrders r k nx ny nz (o' la)) :
    ∃ J J', runLte3 r cv f o0 o = .ok J ∧ runLte3 (r.rearranged onCpu slots lam) cv f o0' o' = .ok J' ∧
      ∀ la x y z, la < r.ad.wavelength.length → x < nx * 2 ^ k → y < ny * 2 ^ k → z < nz * 2 ^ k →
        J.get la ((z * (ny * 2 ^ k) + y) * (nx * 2 ^ k) + x) = J'.get la ((z * (ny * 2 ^ k) + y) * (nx * 2 ^ k) + x) := by
  obtain ⟨J, e, h⟩ := run_lte hf hr hd hw o0 ho0 o ho
  obtain ⟨J', e', h'⟩ := run_lte (r := r.rearranged onCpu slots lam) hf hr' hd hw o0' ⟨ho0'.load, ho0'.pops, ho0'.nh0⟩ o'
    (fun la hla => ⟨(ho' la hla).base, (ho' la hla).vel, (ho' la hla).cav⟩)
  exact ⟨J, J', e, e', C91_unique3 hf hr.toSound hw onCpu slots lam a ⟨rfl, rfl⟩ (fun _ _ => ⟨rfl, rfl, rfl, rfl, rfl, rfl, rfl⟩) J J' h h'⟩

/-- **C91** Where the gas emits thermally (positive temperatures and densities, Einstein relations, Boltzmann populations),
and the light from outside is between 0 and `hi`, J is between 0 and `hi`, for every `hi` that is not below the Planck
function of any cell, at the wavelength itself and, for the lines, at their rest wavelengths. -/
theorem C91_thermal3 (hf : Fits r.s k nx ny nz) (hr : Sound r) (hsc : 0 ≤ a.scale) (la : Nat) (hla : la < r.ad.wavelength.length)
    (ht : Thermal r k nx ny nz a la) (hi : ℝ) (hhi : 0 ≤ hi)
    (h1 : ∀ c, InGrid k nx ny nz c → EmisSpec.planck r.k (r.ad.wavelength.getD la 0) (a.temperature c) ≤ hi)
    (h2 : ∀ l ∈ r.ad.lines, l.blue ≤ la → la < l.red → ∀ c, InGrid k nx ny nz c → EmisSpec.planck r.k l.lambda0 (a.temperature c) ≤ hi)
    (hbc : ∀ x mu, 0 ≤ r.bc la x mu ∧ r.bc la x mu ≤ hi) (J : Arr2 ℝ) (h : LteSolves r k nx ny nz a J) :
    ∀ x y z, x < nx * 2 ^ k → y < ny * 2 ^ k → z < nz * 2 ^ k → 0 ≤ J.get la ((z * (ny * 2 ^ k) + y) * (nx * 2 ^ k) + x) ∧
      J.get la ((z * (ny * 2 ^ k) + y) * (nx * 2 ^ k) + x) ≤ hi := by
  intro x y z hx hy hz
  obtain ⟨n, n1, n2⟩ := h.value
  obtain ⟨march, m1, m2⟩ := n2 la hla
  rw [m2 x y z hx hy hz]
  obtain ⟨E, hE⟩ : ∃ E : ℤ → (Fin 3 → ℝ) → Coord3 → ℝ, E = fun _ mu c => if InGrid k nx ny nz c then (gasOf r a n (ltePop r a) la mu c).eta else 0 := ⟨_, rfl⟩
  obtain ⟨X, hX⟩ : ∃ X : ℤ → (Fin 3 → ℝ) → Coord3 → ℝ, X = fun _ mu c => if InGrid k nx ny nz c then (gasOf r a n (ltePop r a) la mu c).chi else 0 := ⟨_, rfl⟩
  have hcl : ∀ l mu c, 0 ≤ X l mu c ∧ 0 ≤ E l mu c ∧ E l mu c ≤ hi * X l mu c := by
    intro l mu c
    rw [hE, hX]
    by_cases hc : InGrid k nx ny nz c
    · simp only [if_pos hc]
      exact gas_between hr.levels la ht c hc mu hi (h1 c hc) (fun l hl i1 i2 => h2 l hl i1 i2 c hc)
    · simp only [if_neg hc]; simp
  obtain ⟨w, hw⟩ : ∃ w : World .three, w = { lteWorld r k nx ny nz a n with eta := fun l mu _ c => E l mu ⟨c 0, c 1, c 2⟩, chi := fun l mu _ c => X l mu ⟨c 0, c 1, c 2⟩ } := ⟨_, rfl⟩
  have hS : w.SourceIn 0 hi := by
    intro l mu m c
    obtain ⟨e0, e1, e2⟩ := hcl l mu ⟨c 0, c 1, c 2⟩
    rw [hw]
    refine ⟨e0, by rw [zero_mul]; exact e1, ?_⟩
    show E l mu ⟨c 0, c 1, c 2⟩ ≤ hi * (X l mu ⟨c 0, c 1, c 2⟩ + 1e-15)
    rw [mul_add]
    have : 0 ≤ hi * 1e-15 := by positivity
    linarith
  have hscw : 0 ≤ w.scale := by rw [hw]; exact hsc
  set e := envOf r.s (nx * 2 ^ k) (ny * 2 ^ k) (nz * 2 ^ k) march with he
  have hmr : ∀ bc m q, MarchRay3 (lteWorld r k nx ny nz a n) e r.s.len la bc m q (march bc m q) → MarchRay3 w e r.s.len la bc m q (march bc m q) := by
    intro bc m q hh
    rw [hw]
    exact (march_congr E X la (fun c hc mu => by rw [hE, hX]; simp only [if_pos hc]; exact ⟨trivial, trivial⟩) march march bc m q _).1 hh
  obtain ⟨p1, p2⟩ := rays_pos hf
  refine meanJ_in3 _ _ p1 p2 _ x y z hhi fun q b hq hb => ?_
  have hbr : 0 < (upperTexels3 r.s.cfg.branch).1 ∧ 0 < (upperTexels3 r.s.cfg.branch).2 := by
    obtain ⟨ord, e, hb, -, -⟩ := hf.healpix
    rw [hb]; exact ⟨by show 0 < 2 ^ (2 * ord); positivity, Nat.one_pos⟩
  refine radiance3_inV march _ _ _ _ _ hbr.1 hbr.2 r.s.num (Ray3 e)
    (fun n p U W X i j _ hp hU hW hX hi hj => env_child march n p U W X i j hp hU hW hX hi hj)
    (fun n p hp => ?_) hhi (fun n p hn hp => ?_) (fun p hp => ?_) _ (ray_zero hf march x y z q b hx hy hz hq hb)
  · obtain ⟨a1, a2, a3, -, -⟩ := hp
    rw [he, env_np0] at a1
    rw [he, env_np1] at a2
    rw [he, env_np2] at a3
    exact ⟨a1, a2, a3⟩
  · obtain ⟨fuel, res, k2, k3⟩ := hmr false n p (m1.1 n p hn hp)
    rw [k3]
    exact raymarch_segIn (w.args3 e r.s.len la false n p) hscw (fun m c => hS _ _ m c) rfl fuel res k2
  · obtain ⟨fuel, res, k2, k3⟩ := hmr true r.s.num p (m1.2 p hp)
    rw [k3]
    refine raymarch_between (w.args3 e r.s.len la true r.s.num p) hscw (fun m c => hS _ _ m c) (fun b => startI_in _ b ⟨le_rfl, hhi⟩ ?_) fuel res k2
    subst hw
    exact hbc _ _

/-- **C91** A dense file without one of the dimensions, without the voxel scale or one of the eight fields, or with a size
that is not a multiple of the side of a tile, is rejected with an error before anything is computed. -/
theorem C91_rejects3 {W : Type} (cv : W → ℝ) (f : NcFile Coord3 W)
    (hsp : f.attr "sparse" = none ∨ f.attr "sparse" = some [0])
    (h : f.dim "x" = none ∨ f.dim "y" = none ∨ f.dim "z" = none ∨ ¬ Complete f.scalar f.grid ∨
      ∃ x y z, f.dim "x" = some x ∧ f.dim "y" = some y ∧ f.dim "z" = some z ∧ ¬ ((r.s.B : Int) ∣ x ∧ (r.s.B : Int) ∣ y ∧ (r.s.B : Int) ∣ z))
    (o0 : StartOrder) (o : Nat → LaOrder) : runLte3 r cv f o0 o = .throws := by
  unfold runLte3 start3
  rw [C81_reject_dense3 r.s.B LteRun.realOps cv _ f hsp h]
  rfl

/-- **C91** (refuted) One expects a run with more lines active at some wavelength than there are slots to be rejected, as it is
in 2D (C86). In 3D every such run, on every complete dense file, overruns the array of slots. -/
theorem C91_slots3_refuted {W : Type} (cv : W → ℝ) (f : NcFile Coord3 W) (hf : Fits r.s k nx ny nz) (hr : Sound r) (hd : Describes f cv (2 ^ k) nx ny nz a)
    (hw : r.haveH = false → Warm k nx ny nz a) (o0 : StartOrder) (ho0 : StartOrders r k nx ny nz o0) (o : Nat → LaOrder)
    (ho : ∀ la, la < r.ad.wavelength.length → LaOrders r k nx ny nz (o la))
    (la : Nat) (hla : la < r.ad.wavelength.length) (hs : r.maxLines < (activeLines r la).card) : runLte3 r cv f o0 o = .ub := by
  obtain ⟨st, h, g1, hc, -⟩ := start_ok hf hr hd hw o0 ho0
  have hg := hc.good
  have hnw : st.g.nw.toNat = r.ad.wavelength.length := by rw [hg.sw]; rfl
  have hcols : Given3.jCols r.s st.g = nx * 2 ^ k * (ny * 2 ^ k) * (nz * 2 ^ k) := by
    unfold Given3.jCols
    rw [hg.map.dims, hf.block]
    have : (nx : Int) * ny * nz * (((2 ^ k : Nat) : Int) * ((2 ^ k : Nat) : Int) * ((2 ^ k : Nat) : Int)) =
      ((nx * 2 ^ k * (ny * 2 ^ k) * (nz * 2 ^ k) : Nat) : Int) := by push_cast; ring
    show ((nx : Int) * ny * nz * (((2 ^ k : Nat) : Int) * ((2 ^ k : Nat) : Int) * ((2 ^ k : Nat) : Int))).toNat = _
    rw [this, Int.toNat_natCast]
  have hok : ∀ rows, (rows = 1 ∨ rows = r.ad.wavelength.length) → ∀ l ∈ List.range r.ad.wavelength.length,
      (∀ J, Lte3.wave3 r st (o l) l J = .ub) ∨ ∀ J : Arr2 ℝ, J.rows = rows → J.cols = nx * 2 ^ k * (ny * 2 ^ k) * (nz * 2 ^ k) →
        ∃ J', Lte3.wave3 r st (o l) l J = .ok J' ∧ J'.rows = rows ∧ J'.cols = nx * 2 ^ k * (ny * 2 ^ k) * (nz * 2 ^ k) := by
    intro rows hrows l hl
    have hl' := List.mem_range.1 hl
    by_cases hq : r.maxLines < (activeLines r l).card
    · exact Or.inl fun J => wave_ub hf hr hc (o l) l hl' hq (ho l hl') J
    · right
      intro J j1 j2
      obtain ⟨march, -, hm⟩ := wave_lte hf hr hc (o l) l hl' (by omega) (ho l hl')
      obtain ⟨J', e1, e2, e3, -⟩ := hm J j2 (by omega)
      exact ⟨J', e1, by rw [e2, j1], by rw [e3, j2]⟩
  have hu : ∀ J, Lte3.wave3 r st (o la) la J = .ub := fun J => wave_ub hf hr hc (o la) la hla hs (ho la hla) J
  unfold runLte3
  rw [g1, Outcome.ok_bind]
  simp only [hnw, hcols]
  by_cases hcpu : r.onCpu = true
  · rw [if_pos hcpu, cpu_ub _ r.ad.wavelength.length _ _ (fun l hl => List.mem_range.1 hl) (hok 1 (Or.inl rfl)) la (List.mem_range.2 hla) hu _ _ rfl rfl rfl rfl]
    rfl
  · rw [if_neg hcpu, dev_ub _ r.ad.wavelength.length _ _ (hok _ (Or.inr rfl)) la (List.mem_range.2 hla) hu _ rfl rfl]

end DexRT.Lte3
