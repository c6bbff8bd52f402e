import Verif.Lemmas.GivenFs3
import Verif.Lemmas.GivenBatch
import Verif.Lemmas.FormalSol3d
import Verif.Props.World3
/-! Lemmas for C88: the march of one wavelength goes through the atmosphere of the file. -/
namespace DexRT.Given3
open DexRT DexRT.Fs DexRT.AtmosFile DexRT.Dir Classical

/-- the march of this file as a march of the dynamic formal solution -/
noncomputable def toRay (a : StaticArgs) (bc : Bool) (up : ℝ) (la : ℤ) : RaymarchArgs .three :=
  { seg := a.seg, env := a.env, eta := a.eta, chi := a.chi, extraSafe := false, scale := a.scale, incl := 0, sampleBc := bc,
    toInfty := false, up := up, la := la, bc := 0 }

theorem fold_static (sc : ℝ) : ∀ (l : List Step) (v : MarchVars),
    l.foldl (staticStep sc) (v.I, v.tau) = ((l.foldl (marchStep false sc 1) v).I, (l.foldl (marchStep false sc 1) v).tau)
  | [], _ => rfl
  | st :: l, v => by
    rw [List.foldl_cons, List.foldl_cons, ← fold_static sc l (marchStep false sc 1 v st)]
    congr 1
    unfold staticStep marchStep chiUsed
    by_cases h : st.sample = true
    · rw [if_pos h, if_pos h]
      simp only [mul_one, Bool.false_eq_true, if_false]
    · rw [if_neg h, if_neg h]

theorem static_eq (a : StaticArgs) (bc : Bool) (up : ℝ) (la : ℤ) (fuel : ℕ) :
    staticMarch a fuel = (raymarch (toRay a bc up la) fuel).map fun r => (r.I, r.tau) := by
  have hs : ∀ b, startI (toRay a bc up la) b = 0 := by
    intro b
    unfold startI
    have : (toRay a bc up la).bc = 0 := rfl
    rw [this]
    simp
  have hi : (toRay a bc up la).invSin = 1 := by
    show 1 / Real.sqrt (1 - (0 : ℝ) ^ 2) = 1
    norm_num
  have hd' : ddaStart (toRay a bc up la).env (toRay a bc up la).seg = ddaStart a.env a.seg := rfl
  unfold staticMarch raymarch
  rw [hd']
  cases hd : ddaStart a.env a.seg with
  | none => simp [hs]
  | some p =>
    obtain ⟨r, v⟩ := p
    simp only [hs, hi, Option.map_map]
    congr 1
    funext l
    exact fold_static a.scale ((loopStates l).map a.stepOf) { I := 0, tau := 0, chiS := 1e-20, oneMEdt := 0 }

variable {s : Settings} {k nx ny nz nw : Nat} {eta chi : Coord3 → Int → ℝ} {scale : ℝ} {g : Given}

/-- the march through the file -/
noncomputable def fileArgs (s : Settings) (k nx ny nz : Nat) (eta chi : Coord3 → Int → ℝ) (scale : ℝ) (la : Nat) (n : Nat) (p : ProbeIdx3) : StaticArgs :=
  { seg := probeRay3 s.len s.num n (cascadeComputeSize3 s.cfg (c0Of s (nx * 2 ^ k) (ny * 2 ^ k) (nz * 2 ^ k)) n).az p.u p.v p.w p.az
    env := (fileWorld k nx ny nz eta chi scale).env n
    eta := fun _ c => eta ⟨c 0, c 1, c 2⟩ la
    chi := fun _ c => chi ⟨c 0, c 1, c 2⟩ la
    scale := scale }

theorem file_blk (n : Nat) (c : Fin 3 → ℤ) (m : ℤ) (hm : m < 0 ∨ m ≤ ((fileWorld k nx ny nz eta chi scale).env n).maxMip) :
    ((fileWorld k nx ny nz eta chi scale).env n).lvl (fun i => maskCoord (c i) (((fileWorld k nx ny nz eta chi scale).env n).stepSize m)) =
      ((fileWorld k nx ny nz eta chi scale).env n).lvl c := by
  obtain ⟨e, d, hd, hsz, hk⟩ : ∃ e d : ℤ, 0 < d ∧ ((fileWorld k nx ny nz eta chi scale).env n).stepSize m = d ∧ ((2 ^ k : Nat) : ℤ) = e * d := by
    by_cases h0 : m < 0
    · refine ⟨1, ((2 ^ k : Nat) : ℤ), by exact_mod_cast Nat.two_pow_pos k, ?_, by ring⟩
      unfold DdaEnv.stepSize
      rw [if_pos h0]; rfl
    · have hm' : m ≤ 0 := hm.resolve_left h0
      obtain rfl : m = 0 := by omega
      refine ⟨((2 ^ k : Nat) : ℤ), 1, by norm_num, ?_, by ring⟩
      unfold DdaEnv.stepSize
      rw [if_neg h0]; rfl
  rw [hsz]
  change (fileWorld k nx ny nz eta chi scale).lvl (fun i => maskCoord (c i) d) = (fileWorld k nx ny nz eta chi scale).lvl c
  rw [lvl_eq, lvl_eq]
  unfold InGrid
  simp only [Nat.cast_mul, hk]
  obtain ⟨a1, a2, a3⟩ := Given.mask_div (c 0) d e nx hd
  obtain ⟨b1, b2, b3⟩ := Given.mask_div (c 1) d e ny hd
  obtain ⟨c1, c2, c3⟩ := Given.mask_div (c 2) d e nz hd
  simp only [a2, a3, b2, b3, c2, c3]

/-- the atmosphere of the file has data everywhere -/
theorem file_dense (n : Nat) (c : Fin 3 → ℤ) (h : ((fileWorld k nx ny nz eta chi scale).env n).inBounds c) :
    0 ≤ ((fileWorld k nx ny nz eta chi scale).env n).sampleLevel c := by
  have h0 := h 0
  have h1 := h 1
  have h2 := h 2
  have hin : InGrid k nx ny nz ⟨c 0, c 1, c 2⟩ := ⟨h0.1, h0.2, h1.1, h1.2, h2.1, h2.2⟩
  unfold DdaEnv.sampleLevel
  refine le_min ?_ (le_refl (0 : ℤ))
  show 0 ≤ (fileWorld k nx ny nz eta chi scale).lvl c
  rw [lvl_eq, if_pos hin]

/-- The march through the arrays is the march through the file. -/
theorem march_mem (hf : Fits s k nx ny nz) (hg : Good s k nx ny nz nw eta chi scale g) (lk : MLLookup Coord3) (o : WaveOrder) (la : Nat)
    (emis opac : Int → ℝ)
    (he : StoredAt3 (2 ^ k) nx ny nz (fun _ => True) (mrOf s g lk) 0 emis (fun c => eta c la))
    (hc : StoredAt3 (2 ^ k) nx ny nz (fun _ => True) (mrOf s g lk) 0 opac (fun c => chi c la))
    (hl : LevelsFor (GridTile3 (2 ^ k) (nx * (2 ^ k : Nat)) (ny * (2 ^ k : Nat)) (nz * (2 ^ k : Nat))) (fun _ => True) (mrOf s g lk) (fun _ => 0))
    (n : Nat) (p : ProbeIdx3) (fuel : ℕ) :
    staticMarch (memArgs s g lk o emis opac (nx * 2 ^ k) (ny * 2 ^ k) (nz * 2 ^ k) n p) fuel =
      staticMarch (fileArgs s k nx ny nz eta chi scale la n p) fuel := by
  have hlvl := readLevel_ok (eta := eta) (chi := chi) (scale := scale) hf hg lk hl o.junkLevel
  have henv : (memArgs s g lk o emis opac (nx * 2 ^ k) (ny * 2 ^ k) (nz * 2 ^ k) n p).env = (fileWorld k nx ny nz eta chi scale).env n := by
    have h1 : ((s.B : Nat) : ℤ) = ((2 ^ k : Nat) : ℤ) := by rw [hf.block]
    have h2 : (![g.nx, g.ny, g.nz] : Fin 3 → ℤ) = ![((nx * 2 ^ k : Nat) : Int), ((ny * 2 ^ k : Nat) : Int), ((nz * 2 ^ k : Nat) : Int)] := by
      rw [hg.sx, hg.sy, hg.sz]; push_cast; rfl
    show (⟨readLevel s (mrOf s g lk) o.junkLevel, 0, ((s.B : Nat) : ℤ), ![g.nx, g.ny, g.nz]⟩ : DdaEnv .three) = _
    rw [hlvl, h1, h2]; rfl
  rw [static_eq _ false 0 0, static_eq _ false 0 0]
  congr 1
  have harg : toRay (memArgs s g lk o emis opac (nx * 2 ^ k) (ny * 2 ^ k) (nz * 2 ^ k) n p) false 0 0 =
      { toRay (fileArgs s k nx ny nz eta chi scale la n p) false 0 0 with
        eta := readCell s g (mrOf s g lk) o.junk emis
        chi := readCell s g (mrOf s g lk) o.junk opac } := by
    unfold toRay
    rw [henv]
    show RaymarchArgs.mk _ _ _ _ _ g.scale _ _ _ _ _ _ = RaymarchArgs.mk _ _ _ _ _ scale _ _ _ _ _ _
    rw [hg.vox]; rfl
  rw [harg]
  refine raymarch_congr (toRay (fileArgs s k nx ny nz eta chi scale la n p) false 0 0) _ _ (fun c m hm => file_blk n c m hm) (fun c hc0 => ?_) fuel
  change 0 ≤ ((fileWorld k nx ny nz eta chi scale).env n).sampleLevel c at hc0
  have hlv : (toRay (fileArgs s k nx ny nz eta chi scale la n p) false 0 0).env.sampleLevel c = 0 := by
    show ((fileWorld k nx ny nz eta chi scale).env n).sampleLevel c = 0
    have : ((fileWorld k nx ny nz eta chi scale).env n).sampleLevel c ≤ 0 := min_le_right _ _
    omega
  have hcin : InGrid k nx ny nz ⟨c 0, c 1, c 2⟩ := by
    by_contra hno
    have : ((fileWorld k nx ny nz eta chi scale).env n).lvl c = -1 := by
      show (fileWorld k nx ny nz eta chi scale).lvl c = -1
      rw [lvl_eq, if_neg hno]
    unfold DdaEnv.sampleLevel at hc0
    rw [this] at hc0
    have := min_le_left (-1 : ℤ) ((fileWorld k nx ny nz eta chi scale).env n).maxMip
    omega
  rw [hlv]
  exact ⟨readCell_ok hf hg lk o.junk emis _ he c hcin, readCell_ok hf hg lk o.junk opac _ hc c hcin⟩

/-- A march of this file is the march of C79 through the atmosphere of the file, without its diagonal operator. -/
theorem ray_iff (hf : Fits s k nx ny nz) (hg : Good s k nx ny nz nw eta chi scale g) (lk : MLLookup Coord3) (o : WaveOrder) (la : Nat)
    (emis opac : Int → ℝ)
    (he : StoredAt3 (2 ^ k) nx ny nz (fun _ => True) (mrOf s g lk) 0 emis (fun c => eta c la))
    (hc : StoredAt3 (2 ^ k) nx ny nz (fun _ => True) (mrOf s g lk) 0 opac (fun c => chi c la))
    (hl : LevelsFor (GridTile3 (2 ^ k) (nx * (2 ^ k : Nat)) (ny * (2 ^ k : Nat)) (nz * (2 ^ k : Nat))) (fun _ => True) (mrOf s g lk) (fun _ => 0))
    (bc : Bool) (n : Nat) (p : ProbeIdx3) (sg : Seg ℝ) :
    StaticRay (memArgs s g lk o emis opac (nx * 2 ^ k) (ny * 2 ^ k) (nz * 2 ^ k)) n p sg ↔
      ∃ s', MarchRay3 (fileWorld k nx ny nz eta chi scale) (cascades s k nx ny nz) s.len la bc n p s' ∧ sg = ⟨s'.I, s'.T, 0⟩ := by
  have hr : ∀ fuel, staticMarch (memArgs s g lk o emis opac (nx * 2 ^ k) (ny * 2 ^ k) (nz * 2 ^ k) n p) fuel =
      (raymarch ((fileWorld k nx ny nz eta chi scale).args3 (cascades s k nx ny nz) s.len la bc n p) fuel).map fun r => (r.I, r.tau) := by
    intro fuel
    rw [march_mem hf hg lk o la emis opac he hc hl n p fuel]
    exact static_eq (fileArgs s k nx ny nz eta chi scale la n p) bc _ la fuel
  constructor
  · rintro ⟨fuel, r, h1, rfl⟩
    rw [hr] at h1
    obtain ⟨res, h2, rfl⟩ := Option.map_eq_some_iff.1 h1
    exact ⟨segOf res, ⟨fuel, res, h2, rfl⟩, rfl⟩
  · rintro ⟨s', ⟨fuel, res, h2, rfl⟩, rfl⟩
    exact ⟨fuel, (res.I, res.tau), by rw [hr, h2]; rfl, rfl⟩

end DexRT.Given3
