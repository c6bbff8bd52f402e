import Verif.Lemmas.LteSolve
import Verif.Props.GivenFs
import Verif.Props.AtmosFile
import Verif.Props.Cav
/-!
# C86: an `Lte` run, end to end (2D)

Atmosphere file and atomic data go in, J comes out: the theorems compose the loader (C81), the LTE populations and the
neutral hydrogen density (C27, C50, C83), emissivity and opacity (C53, C54), the march and the cascades (C82).
-/
namespace DexRT.LteRun
open DexRT DexRT.Fs DexRT.AtmosFile DexRT.Dir DexRT.Given DexRT.Emis Classical

variable {r : Lte} {k nx nz : Nat} {a : Cond}

/-- **C86** For every complete dense atmosphere file and every set of atomic data that the program can handle, whatever the
order in which the iterations of every kernel run, whatever the arrays held when they were allocated, with J kept on the host
or on the device: the run ends normally, without reading or writing outside any array, and J is the angular mean of the
radiance of the gas in LTE. -/
theorem C86_lte2_partial {W : Type} (cv : W → ℝ) (f : NcFile Coord2 W) (hf : Fits r.s k nx nz) (hr : Ready r) (hd : Describes f cv (2 ^ k) nx nz a)
    (hw : r.haveH = false → Warm k nx nz a) (o0 : StartOrder) (ho0 : StartOrders r k nx nz o0) (o : Nat → LteOrder)
    (ho : ∀ la, la < r.ad.wavelength.length → r.s.W ∣ la → LteOrders r k nx nz (min r.s.W (r.ad.wavelength.length - la)) (o la)) (old : Nat → Nat → ℝ) :
    ∃ J, runLte2 r cv f o0 o old = .ok J ∧ LteSolves r k nx nz a J :=
  run_lte hf hr hd hw o0 ho0 o ho old

/-- **C86** J is determined by the atmosphere and the atomic data: the number of wavelengths computed together, where J is
kept and the number of line slots do not matter. -/
theorem C86_unique2 (hf : Fits r.s k nx nz) (hr : Ready r) (hw : r.haveH = false → Warm k nx nz a) (W' : Nat) (hW' : 0 < W') (onCpu : Bool) (slots : Nat)
    (J J' : Arr2 ℝ) (h : LteSolves r k nx nz a J) (h' : LteSolves (r.rearranged W' onCpu slots) k nx nz a J') :
    ∀ la x z, la < r.ad.wavelength.length → x < nx * 2 ^ k → z < nz * 2 ^ k → J.get la (z * (nx * 2 ^ k) + x) = J'.get la (z * (nx * 2 ^ k) + x) := by
  intro la x z hla hx hz
  obtain ⟨n, n1, n2⟩ := h.value
  obtain ⟨n', n1', n2'⟩ := h'.value
  obtain ⟨march, m1, m2⟩ := n2 la hla
  obtain ⟨march', m1', m2'⟩ := n2' la hla
  obtain ⟨b1, b2⟩ := batch_pos hf la hla
  have c1 := Nat.div_add_mod' la W'
  have c2 := Nat.mod_lt la hW'
  rw [m2 x z hx hz, m2' x z hx hz]
  refine mean_congr2 _ _ _ _ _ _ _ _ _ fun d th hd ht => ?_
  refine radiance_congr hr.levels _ (fun _ _ _ _ _ _ _ => rfl) hf hr.noMips W' onCpu slots n' la _ _ _ _ _ _ b1 c1 b2 ?_ (neutral_unique hr.saha hw n' n1 n1') march march' m1 m1' x z d th hx hz hd ht
  show la % W' < min W' (r.ad.wavelength.length - la / W' * W')
  omega

/-- **C86** Two runs on the same file give the same J, whatever the schedules, the previous contents of memory, the number
of wavelengths per batch, where J is kept and the number of line slots (if they suffice). -/
theorem C86_deterministic2 {W : Type} (cv : W → ℝ) (f : NcFile Coord2 W) (W' : Nat) (onCpu : Bool) (slots : Nat)
    (hf : Fits r.s k nx nz) (hr : Ready r) (hf' : Fits (r.rearranged W' onCpu slots).s k nx nz) (hr' : Ready (r.rearranged W' onCpu slots))
    (hd : Describes f cv (2 ^ k) nx nz a) (hw : r.haveH = false → Warm k nx nz a)
    (o0 o0' : StartOrder) (ho0 : StartOrders r k nx nz o0) (ho0' : StartOrders r k nx nz o0') (o o' : Nat → LteOrder)
    (ho : ∀ la, la < r.ad.wavelength.length → r.s.W ∣ la → LteOrders r k nx nz (min r.s.W (r.ad.wavelength.length - la)) (o la))
    (ho' : ∀ la, la < r.ad.wavelength.length → W' ∣ la → LteOrders (r.rearranged W' onCpu slots) k nx nz (min W' (r.ad.wavelength.length - la)) (o' la))
    (old old' : Nat → Nat → ℝ) :
    ∃ J J', runLte2 r cv f o0 o old = .ok J ∧ runLte2 (r.rearranged W' onCpu slots) cv f o0' o' old' = .ok J' ∧
      ∀ la x z, la < r.ad.wavelength.length → x < nx * 2 ^ k → z < nz * 2 ^ k → J.get la (z * (nx * 2 ^ k) + x) = J'.get la (z * (nx * 2 ^ k) + x) := by
  obtain ⟨J, e, h⟩ := run_lte hf hr hd hw o0 ho0 o ho old
  obtain ⟨J', e', h'⟩ := run_lte hf' hr' hd hw o0' ⟨ho0'.load, ho0'.pops, ho0'.nh0⟩ o' ho' old'
  exact ⟨J, J', e, e', C86_unique2 hf hr hw W' hf'.batch onCpu slots J J' h h'⟩

/-- **C86** Where the gas emits thermally (positive temperatures and densities, Einstein relations, Boltzmann populations),
and the light from outside is between 0 and `hi`, J is between 0 and `hi` times the sum of the inclination weights (1, C64),
for every `hi` that is not below the Planck function of any cell, at the wavelength itself and, for the lines, at their rest
wavelengths. -/
theorem C86_thermal2 (hf : Fits r.s k nx nz) (hr : Ready r) (hsc : 0 ≤ a.scale) (hwt : ∀ x ∈ r.s.wmuy, 0 ≤ x) (la : Nat) (hla : la < r.ad.wavelength.length)
    (ht : Thermal r k nx nz a la) (hi : ℝ) (hhi : 0 ≤ hi)
    (h1 : ∀ c, Given.InGrid k nx nz c → EmisSpec.planck r.k (r.ad.wavelength.getD la 0) (a.temperature c) ≤ hi)
    (h2 : ∀ l ∈ r.ad.lines, l.blue ≤ la → la < l.red → ∀ c, Given.InGrid k nx nz c → EmisSpec.planck r.k l.lambda0 (a.temperature c) ≤ hi)
    (hbc : ∀ x mu, 0 ≤ r.bc la x mu ∧ r.bc la x mu ≤ hi) (J : Arr2 ℝ) (h : LteSolves r k nx nz a J) :
    ∀ x z, x < nx * 2 ^ k → z < nz * 2 ^ k → 0 ≤ J.get la (z * (nx * 2 ^ k) + x) ∧
      J.get la (z * (nx * 2 ^ k) + x) ≤ hi * ∑ th ∈ Finset.range r.s.incl, r.s.wmuy.getD th 0 := by
  intro x z hx hz
  obtain ⟨n, n1, n2⟩ := h.value
  obtain ⟨march, m1, m2⟩ := n2 la hla
  obtain ⟨b1, b2⟩ := batch_pos hf la hla
  rw [m2 x z hx hz]
  obtain ⟨E, hE⟩ : ∃ E : ℤ → (Fin 3 → ℝ) → Coord2 → ℝ, E = fun _ mu c => if Given.InGrid k nx nz c then (gas r a n la mu c).eta else 0 := ⟨_, rfl⟩
  obtain ⟨X, hX⟩ : ∃ X : ℤ → (Fin 3 → ℝ) → Coord2 → ℝ, X = fun _ mu c => if Given.InGrid k nx nz c then (gas r a n la mu c).chi else 0 := ⟨_, rfl⟩
  have hcl : ∀ l mu c, 0 ≤ X l mu c ∧ 0 ≤ E l mu c ∧ E l mu c ≤ hi * X l mu c := by
    intro l mu c
    rw [hE, hX]
    by_cases hc : Given.InGrid k nx nz c
    · simp only [if_pos hc]
      exact gas_between hr.levels la ht c hc mu hi (h1 c hc) (fun l hl i1 i2 => h2 l hl i1 i2 c hc)
    · simp only [if_neg hc]; simp
  set la0 := la / r.s.W * r.s.W with hla0
  obtain ⟨w, hw⟩ : ∃ w : World .two, w = { lteWorld (r.rearranged r.s.W r.s.onCpu r.maxLines) k nx nz a n with eta := fun l mu _ c => E l mu ⟨c 0, c 1⟩, chi := fun l mu _ c => X l mu ⟨c 0, c 1⟩ } := ⟨_, rfl⟩
  have hS : w.SourceIn 0 hi := by
    intro l mu m c
    obtain ⟨e0, e1, e2⟩ := hcl l mu ⟨c 0, c 1⟩
    rw [hw]
    refine ⟨e0, by rw [zero_mul]; exact e1, ?_⟩
    show E l mu ⟨c 0, c 1⟩ ≤ hi * (X l mu ⟨c 0, c 1⟩ + 1e-15)
    rw [mul_add]
    have : 0 ≤ hi * 1e-15 := by positivity
    linarith
  have hsc' : 0 ≤ w.scale := by rw [hw]; exact hsc
  have hmr : ∀ bc m (q : ProbeIdx2), m ≤ r.s.num → q.wave = la % r.s.W →
      MarchRay2 (lteWorld r k nx nz a n) (envOf r.s (nx * 2 ^ k) (nz * 2 ^ k) march) (raysFrom r.s la0) bc m q (march bc m q) →
      MarchRay2 w (envOf r.s (nx * 2 ^ k) (nz * 2 ^ k) march) (raysFrom r.s la0) bc m q (march bc m q) := by
    intro bc m q hm hq hh
    have e : q = { q with wave := la % r.s.W } := by rw [← hq]
    rw [e] at hh ⊢
    rw [hw]
    exact (march_congr hf hr.noMips r.s.W r.s.onCpu r.maxLines E X la la0 la0 _ _ b1 b1 (fun c hc mu => by
      rw [hE, hX]; simp only [if_pos hc]; exact ⟨rfl, rfl⟩) march march bc m hm q _).1 hh
  have key := meanJ_in r.s.cfg.p0rays r.s.incl hf.valid.1 r.s.wmuy hwt
    (radiance2 march (nx * 2 ^ k) (nz * 2 ^ k) (upperTexelsPerRay r.s.cfg) r.s.num r.s.num) x z (la % r.s.W) hhi (fun d th hd ht => ?_)
  · rw [zero_mul] at key; exact key
  · set e := envOf r.s (nx * 2 ^ k) (nz * 2 ^ k) march with he
    refine radiance2_inV march _ _ _ (texels_pos r.s.cfg) r.s.num (fun m q => Ray2 e (min r.s.W (r.ad.wavelength.length - la0)) m q ∧ q.wave = la % r.s.W)
      (fun m q U V j _ hq hU hV hj => ⟨ray2_child e hf.valid hf.mode _ m q U V j hq.1 hU hV hj, hq.2⟩) (fun m q hq => ⟨hq.1.u, hq.1.v⟩) hhi
      (fun m q hm hq => ?_) (fun q hq => ?_) _ ⟨ray_zero hf march _ x z d th _ hx hz hd ht b2, rfl⟩
    · obtain ⟨seg, fuel, res, -, k2, k3⟩ := hmr false m q hm.le hq.2 (m1.1 m q hm hq.1)
      rw [k3]
      exact raymarch_segIn (w.args2 e (raysFrom r.s _) false m q seg) hsc' (fun m c => hS _ _ m c) rfl fuel res k2
    · obtain ⟨seg, fuel, res, -, k2, k3⟩ := hmr true r.s.num q le_rfl hq.2 (m1.2 q hq.1)
      rw [k3]
      refine raymarch_between (w.args2 e (raysFrom r.s _) true e.num q seg) hsc' (fun m c => hS _ _ m c)
        (fun b => startI_in _ b ⟨le_rfl, hhi⟩ ?_) fuel res k2
      have hq2 : ((la0 : ℤ) + (q.wave : ℤ)) = la := by rw [hq.2]; exact_mod_cast b1
      subst hw
      show 0 ≤ r.bc ((la0 : ℤ) + (q.wave : ℤ)) _ _ ∧ r.bc ((la0 : ℤ) + (q.wave : ℤ)) _ _ ≤ hi
      rw [hq2]
      exact hbc _ _

/-- **C86** A dense file without one of the dimensions, without the voxel scale or one of the eight fields, or with a size
that is not a multiple of the side of a tile, is rejected with an error before anything is computed. -/
theorem C86_rejects2 {W : Type} (cv : W → ℝ) (f : NcFile Coord2 W) (hl : ∃ m, maxLevel r.s.levels r.s.num = .ok m)
    (hsp : f.attr "sparse" = none ∨ f.attr "sparse" = some [0])
    (h : f.dim "x" = none ∨ f.dim "z" = none ∨ ¬ Complete f.scalar f.grid ∨
      ∃ x z, f.dim "x" = some x ∧ f.dim "z" = some z ∧ ¬ ((r.s.B : Int) ∣ x ∧ (r.s.B : Int) ∣ z))
    (o0 : StartOrder) (o : Nat → LteOrder) (old : Nat → Nat → ℝ) : runLte2 r cv f o0 o old = .throws := by
  obtain ⟨m, hm⟩ := hl
  unfold runLte2 start2
  rw [hm]
  simp only [Outcome.ok_bind]
  rw [C81_reject_dense2 r.s.B realOps cv _ f hsp h]
  rfl

/-- **C86** With more lines active in some batch than there are slots, no run ends with a result, for any file. -/
theorem C86_slots2 {W : Type} (cv : W → ℝ) (f : NcFile Coord2 W) (la : Nat) (hW : 0 < r.s.W) (hd : r.s.W ∣ la) (hla : la < r.ad.wavelength.length)
    (hs : r.maxLines < (batchLines r la).card) (o0 : StartOrder) (o : Nat → LteOrder) (old : Nat → Nat → ℝ) (J : Arr2 ℝ) :
    runLte2 r cv f o0 o old ≠ .ok J := by
  intro h
  unfold runLte2 at h
  obtain ⟨st, s1, h⟩ := AtmosFile.obind h
  have hnw : st.g.nw.toNat = r.ad.wavelength.length := by
    unfold start2 at s1
    obtain ⟨_, -, s1⟩ := AtmosFile.obind s1
    obtain ⟨_, -, s1⟩ := AtmosFile.obind s1
    obtain ⟨_, -, s1⟩ := AtmosFile.obind s1
    obtain ⟨_, -, s1⟩ := AtmosFile.obind s1
    obtain ⟨_, -, s1⟩ := AtmosFile.obind s1
    obtain ⟨_, -, s1⟩ := AtmosFile.obind s1
    rw [← Outcome.ok.inj s1]
    rfl
  have hbad : ∀ J J', batch2 r st (o la) la J ≠ .ok J' := by
    intro J J' hb
    unfold batch2 arrays at hb
    obtain ⟨_, ha, -⟩ := AtmosFile.obind hb
    obtain ⟨_, -, ha⟩ := AtmosFile.obind ha
    obtain ⟨_, -, ha⟩ := AtmosFile.obind ha
    obtain ⟨_, ha, -⟩ := AtmosFile.obind ha
    have hc := C52_slots r.maxLines ((List.range (waves r.s st.g.nw.toNat la)).map fun i => scan Line.isActive r.ad.lines (la + i))
    rw [if_neg] at hc
    · rw [hc] at ha; cases ha
    · rw [not_le]
      refine lt_of_lt_of_le hs (Finset.card_le_card fun kr hk => ?_)
      unfold batchLines at hk
      obtain ⟨h1, l, h2, w, h3, h4⟩ := Finset.mem_filter.1 hk
      rw [List.mem_toFinset, List.mem_flatten]
      refine ⟨_, List.mem_map.2 ⟨w, List.mem_range.2 (by rw [hnw]; exact h3), rfl⟩, ?_⟩
      unfold scan
      simp only [List.mem_filter, List.mem_range]
      have := Finset.mem_range.1 h1
      refine ⟨this, ?_⟩
      rw [h2]
      simpa [Line.isActive] using h4
  have hmem : la ∈ batchStarts r.s st.g.nw.toNat := by
    obtain ⟨q, rfl⟩ := hd
    unfold batchStarts
    refine List.mem_map.2 ⟨q, List.mem_range.2 ?_, Nat.mul_comm _ _⟩
    rw [hnw]
    have := Nat.div_add_mod (r.ad.wavelength.length + r.s.W - 1) r.s.W
    have h2 := Nat.mod_lt (r.ad.wavelength.length + r.s.W - 1) hW
    by_contra hq
    have h3 : r.s.W * ((r.ad.wavelength.length + r.s.W - 1) / r.s.W) ≤ r.s.W * q := Nat.mul_le_mul_left _ (by omega)
    omega
  have hdev : ∀ las J J', la ∈ las → batchesDev (fun la J => batch2 r st (o la) la J) las J ≠ .ok J' := by
    intro las
    induction las with
    | nil => intro J J' hm; cases hm
    | cons x las ih =>
      intro J J' hm hb
      obtain ⟨J1, b1, b2⟩ := AtmosFile.obind hb
      rcases List.mem_cons.1 hm with rfl | hm
      · exact hbad _ _ b1
      · exact ih _ _ hm b2
  have hcpu : ∀ las J Jc J', la ∈ las → batchesCpu (fun la J => batch2 r st (o la) la J) (waves r.s st.g.nw.toNat) las J Jc ≠ .ok J' := by
    intro las
    induction las with
    | nil => intro J Jc J' hm; cases hm
    | cons x las ih =>
      intro J Jc J' hm hb
      obtain ⟨J1, b1, b2⟩ := AtmosFile.obind hb
      obtain ⟨J2, b2, b3⟩ := AtmosFile.obind b2
      rcases List.mem_cons.1 hm with rfl | hm
      · exact hbad _ _ b1
      · exact ih _ _ _ hm b3
  simp only at h
  split at h
  · obtain ⟨q, q1, -⟩ := AtmosFile.obind h
    exact hcpu _ _ _ _ hmem q1
  · exact hdev _ _ _ hmem h

end DexRT.LteRun
