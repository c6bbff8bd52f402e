import Verif.Lemmas.GivenMarch
import Verif.Props.MeanJ
import Verif.Props.FormalSol
/-! Lemmas for C82: one batch of wavelengths. -/
namespace DexRT.Given
open DexRT DexRT.Fs DexRT.AtmosFile DexRT.Dir Classical

variable {s : Settings} {k nx nz nw : Nat} {eta chi : Coord2 → Int → ℝ} {scale : ℝ} {g : Given}

theorem mask_div (c d e n : ℤ) (hd : 0 < d) : maskCoord c d / (e * d) = c / (e * d) ∧ (0 ≤ maskCoord c d ↔ 0 ≤ c) ∧
    (maskCoord c d < n * (e * d) ↔ c < n * (e * d)) := by
  unfold maskCoord
  refine ⟨?_, ?_, ?_⟩
  · rw [Int.mul_ediv_mul_of_pos_left _ _ hd, mul_comm e d, ← Int.ediv_ediv_of_nonneg hd.le]
  · constructor
    · intro h
      exact (Int.ediv_nonneg_iff_of_pos hd).1 (nonneg_of_mul_nonneg_left h hd)
    · intro h
      exact mul_nonneg (Int.ediv_nonneg h hd.le) hd.le
  · rw [← mul_assoc, mul_lt_mul_iff_left₀ hd, Int.ediv_lt_iff_lt_mul hd]

theorem file_blk (hf : Fits s k nx nz) (L : Coord2 → Nat) (n : Nat) (hn : n ≤ s.num) (c : Fin 2 → ℤ) (m : ℤ)
    (hm : m < 0 ∨ m ≤ ((fileWorld s k nx nz eta chi scale L).env n).maxMip) :
    ((fileWorld s k nx nz eta chi scale L).env n).lvl (fun i => maskCoord (c i) (((fileWorld s k nx nz eta chi scale L).env n).stepSize m)) =
      ((fileWorld s k nx nz eta chi scale L).env n).lvl c := by
  obtain ⟨e, d, hd, hsz, hk⟩ : ∃ e d : ℤ, 0 < d ∧ ((fileWorld s k nx nz eta chi scale L).env n).stepSize m = d ∧ ((2 ^ k : Nat) : ℤ) = e * d := by
    by_cases h0 : m < 0
    · refine ⟨1, ((2 ^ k : Nat) : ℤ), by exact_mod_cast Nat.two_pow_pos k, ?_, by ring⟩
      unfold DdaEnv.stepSize
      rw [if_pos h0]; rfl
    · have hm' : m ≤ s.levels.getD n 0 := hm.resolve_left h0
      have hlk := (hf.levelRange _ (getD_mem s.levels n (by have := hf.levels; omega))).2.1
      refine ⟨((2 ^ (k - m.toNat) : Nat) : ℤ), ((2 ^ m.toNat : Nat) : ℤ), by exact_mod_cast Nat.two_pow_pos _, ?_, ?_⟩
      · unfold DdaEnv.stepSize
        rw [if_neg h0]; push_cast; rfl
      · rw [← Nat.cast_mul, ← pow_add]; congr 2; omega
  rw [hsz]
  show (if 0 ≤ maskCoord (c 0) d ∧ maskCoord (c 0) d < ((nx * 2 ^ k : Nat) : Int) ∧ 0 ≤ maskCoord (c 1) d ∧ maskCoord (c 1) d < ((nz * 2 ^ k : Nat) : Int) then
      (L ⟨maskCoord (c 0) d / (2 ^ k : Nat), maskCoord (c 1) d / (2 ^ k : Nat)⟩ : Int) else -1) =
    if 0 ≤ c 0 ∧ c 0 < ((nx * 2 ^ k : Nat) : Int) ∧ 0 ≤ c 1 ∧ c 1 < ((nz * 2 ^ k : Nat) : Int) then
      (L ⟨c 0 / (2 ^ k : Nat), c 1 / (2 ^ k : Nat)⟩ : Int) else -1
  simp only [Nat.cast_mul, hk]
  obtain ⟨a1, a2, a3⟩ := mask_div (c 0) d e nx hd
  obtain ⟨b1, b2, b3⟩ := mask_div (c 1) d e nz hd
  simp only [a1, a2, a3, b1, b2, b3]

/-- The march through the arrays is the march through the file. -/
theorem marchRay_mem (hf : Fits s k nx nz) (hg : Good s k nx nz nw eta chi scale g) (lk : MLLookup Coord2) (o : BatchOrder) (la wv : Nat)
    (emis opac : Nat → Int → ℝ)
    (he : ∀ w, w < wv → ∀ l ≤ g.maxMip, StoredAt2 (2 ^ k) nx nz (fun _ => True) (mrOf s g g.lk) l (emis w) (blockMean2 (fun c => eta c (la + w : Nat)) l))
    (hc : ∀ w, w < wv → ∀ l ≤ g.maxMip, StoredAt2 (2 ^ k) nx nz (fun _ => True) (mrOf s g g.lk) l (opac w) (blockMean2 (fun c => chi c (la + w : Nat)) l))
    (L : Coord2 → Nat)
    (hl : LevelsFor (GridTile2 (2 ^ k) (nx * (2 ^ k : Nat)) (nz * (2 ^ k : Nat))) (fun _ => True) (mrOf s g lk) (fun t => (L t : Int)))
    (hL : ∀ t : Coord2, 0 ≤ t.x → t.x < nx → 0 ≤ t.z → t.z < nz → L t ≤ topLevel s)
    (e : Env2 ℝ) (bc : Bool) (n : Nat) (hn : n ≤ s.num) (p : ProbeIdx2) (hp : p.wave < wv) (sg : Seg ℝ) :
    MarchRay2 (memWorld s g lk o la emis opac) e (raysFrom s la) bc n p sg ↔
      MarchRay2 (fileWorld s k nx nz eta chi scale L) e (raysFrom s la) bc n p sg := by
  have hlvl := readLevel_ok hf hg lk L hl hL o.junkLevel
  have hmip : min (s.levels.getD n 0) (g.maxMip : ℤ) = s.levels.getD n 0 := by
    rw [hg.maxMip]; exact min_eq_left (level_le_top hf n hn)
  have harg : ∀ seg, (memWorld s g lk o la emis opac).args2 e (raysFrom s la) bc n p seg =
      { (fileWorld s k nx nz eta chi scale L).args2 e (raysFrom s la) bc n p seg with
        eta := ((memWorld s g lk o la emis opac).args2 e (raysFrom s la) bc n p seg).eta
        chi := ((memWorld s g lk o la emis opac).args2 e (raysFrom s la) bc n p seg).chi } := by
    intro seg
    have henv : (memWorld s g lk o la emis opac).env n = (fileWorld s k nx nz eta chi scale L).env n := by
      have h1 : ((s.B : Nat) : ℤ) = ((2 ^ k : Nat) : ℤ) := by rw [hf.block]
      have h2 : (![g.nx, g.nz] : Fin 2 → ℤ) = ![((nx * 2 ^ k : Nat) : Int), ((nz * 2 ^ k : Nat) : Int)] := by
        rw [hg.sx, hg.sz]; push_cast; rfl
      show (⟨readLevel s (mrOf s g lk) o.junkLevel, min (s.levels.getD n 0) (g.maxMip : ℤ), ((s.B : Nat) : ℤ), ![g.nx, g.nz]⟩ : DdaEnv .two) = _
      rw [hlvl, hmip, h1, h2]; rfl
    have hv : g.scale = scale := hg.vox
    unfold World.args2
    simp only [henv]
    show RaymarchArgs.mk _ _ _ _ _ g.scale _ _ _ _ _ _ = RaymarchArgs.mk _ _ _ _ _ scale _ _ _ _ _ _
    rw [hv]
    rfl
  have hray : ∀ seg fuel, raymarch ((memWorld s g lk o la emis opac).args2 e (raysFrom s la) bc n p seg) fuel =
      raymarch ((fileWorld s k nx nz eta chi scale L).args2 e (raysFrom s la) bc n p seg) fuel := by
    intro seg fuel
    rw [harg]
    refine raymarch_congr ((fileWorld s k nx nz eta chi scale L).args2 e (raysFrom s la) bc n p seg) _ _ (fun c m hm => file_blk hf L n hn c m hm) (fun c hc0 => ?_) fuel
    change 0 ≤ ((fileWorld s k nx nz eta chi scale L).env n).sampleLevel c at hc0
    have hcin : 0 ≤ c 0 ∧ c 0 < ((nx * 2 ^ k : Nat) : Int) ∧ 0 ≤ c 1 ∧ c 1 < ((nz * 2 ^ k : Nat) : Int) := by
      by_contra hno
      have : ((fileWorld s k nx nz eta chi scale L).env n).lvl c = -1 := if_neg hno
      unfold DdaEnv.sampleLevel at hc0
      rw [this] at hc0
      have := min_le_left (-1 : ℤ) ((fileWorld s k nx nz eta chi scale L).env n).maxMip
      omega
    have hle : (((fileWorld s k nx nz eta chi scale L).env n).sampleLevel c).toNat ≤ g.maxMip := by
      have h1 : ((fileWorld s k nx nz eta chi scale L).env n).sampleLevel c ≤ s.levels.getD n 0 := min_le_right _ _
      have h2 := level_le_top hf n hn
      rw [hg.maxMip]; omega
    have hw : ((la : ℤ) + (p.wave : ℤ) - (la : ℤ)).toNat = p.wave := by omega
    have hw2 : ((la + p.wave : Nat) : ℤ) = (la : ℤ) + (p.wave : ℤ) := by push_cast; rfl
    constructor
    · show readCell s g (mrOf s g lk) o.junk (emis ((la : ℤ) + (p.wave : ℤ) - (la : ℤ)).toNat) (((fileWorld s k nx nz eta chi scale L).env n).sampleLevel c) c = blockMean2 (fun c => eta c ((la : ℤ) + (p.wave : ℤ))) (((fileWorld s k nx nz eta chi scale L).env n).sampleLevel c).toNat ⟨c 0, c 1⟩
      rw [hw, readCell_ok hf hg lk o.junk (emis p.wave) _ _ hc0 hle (he p.wave hp _ hle) c hcin, hw2]
    · show readCell s g (mrOf s g lk) o.junk (opac ((la : ℤ) + (p.wave : ℤ) - (la : ℤ)).toNat) (((fileWorld s k nx nz eta chi scale L).env n).sampleLevel c) c = blockMean2 (fun c => chi c ((la : ℤ) + (p.wave : ℤ))) (((fileWorld s k nx nz eta chi scale L).env n).sampleLevel c).toNat ⟨c 0, c 1⟩
      rw [hw, readCell_ok hf hg lk o.junk (opac p.wave) _ _ hc0 hle (hc p.wave hp _ hle) c hcin, hw2]
  unfold MarchRay2
  simp only [hray]

/-- every tile has a level of detail -/
theorem isLevel_exists (s : Settings) (k : Nat) (eta chi : Coord2 → Int → ℝ) (scale : ℝ) (la wv : Nat) (t : Coord2) :
    ∃ L, IsLevel s k eta chi scale la wv t L := by
  have h : ∀ M, ∃ L ≤ M, (∀ l, l < L → Smooth s k eta chi scale la wv t l) ∧ (L < M → ¬ Smooth s k eta chi scale la wv t L) := by
    intro M
    induction M with
    | zero => exact ⟨0, le_rfl, fun l hl => by omega, fun h => by omega⟩
    | succ M ih =>
      obtain ⟨L, h1, h2, h3⟩ := ih
      by_cases hLM : L < M
      · exact ⟨L, by omega, h2, fun _ => h3 hLM⟩
      · by_cases hs : Smooth s k eta chi scale la wv t L
        · refine ⟨L + 1, by omega, fun l hl => ?_, fun h => by omega⟩
          rcases Nat.lt_succ_iff_lt_or_eq.1 hl with h | rfl
          · exact h2 l h
          · exact hs
        · exact ⟨L, by omega, h2, fun _ => hs⟩
  obtain ⟨L, h1, h2, h3⟩ := h (topLevel s)
  exact ⟨L, h1, h2, h3⟩

/-- the atmosphere of the file has data everywhere -/
theorem file_dense (hf : Fits s k nx nz) (L : Coord2 → Nat) (n : Nat) (c : Fin 2 → ℤ)
    (h : ((fileWorld s k nx nz eta chi scale L).env n).inBounds c) : 0 ≤ ((fileWorld s k nx nz eta chi scale L).env n).sampleLevel c := by
  have h0 := h 0
  have h1 := h 1
  have hin : 0 ≤ c 0 ∧ c 0 < ((nx * 2 ^ k : Nat) : Int) ∧ 0 ≤ c 1 ∧ c 1 < ((nz * 2 ^ k : Nat) : Int) := ⟨h0.1, h0.2, h1.1, h1.2⟩
  unfold DdaEnv.sampleLevel
  refine le_min ?_ (show (0 : ℤ) ≤ s.levels.getD n 0 from ?_)
  swap
  · by_cases hn : n < s.levels.length
    · exact (hf.levelRange _ (getD_mem s.levels n hn)).1
    · rw [List.getD_eq_getElem?_getD, List.getElem?_eq_none (by omega)]; rfl
  show 0 ≤ if 0 ≤ c 0 ∧ c 0 < ((nx * 2 ^ k : Nat) : Int) ∧ 0 ≤ c 1 ∧ c 1 < ((nz * 2 ^ k : Nat) : Int) then
      (L ⟨c 0 / (2 ^ k : Nat), c 1 / (2 ^ k : Nat)⟩ : Int) else -1
  rw [if_pos hin]
  omega

/-- the cascades of a run compute every probe -/
theorem env_probes (hf : Fits s k nx nz) (march : Bool → Nat → ProbeIdx2 → Seg ℝ) :
    Probes2Ok (envOf s (nx * 2 ^ k) (nz * 2 ^ k) march) ∧ ∀ n, n ≤ s.num → ∀ u v, u < probesOn (nx * 2 ^ k) n → v < probesOn (nz * 2 ^ k) n →
      Listed2 (envOf s (nx * 2 ^ k) (nz * 2 ^ k) march) n u v := by
  have hp := Nat.two_pow_pos k
  refine C74_probes_dense2 (envOf s (nx * 2 ^ k) (nz * 2 ^ k) march) ⟨Nat.mul_pos hf.pos.1 hp, Nat.mul_pos hf.pos.2 hp⟩ ?_ fun n _ => ?_
  · have h := hf.size.2.2.2
    refine le_trans (le_of_eq ?_) h
    show ((nx * 2 ^ k : Nat) : Int) * ((nz * 2 ^ k : Nat) : Int) = _
    push_cast; ring
  · have h := np_probesOn s.cfg (raysToStorage s.cfg ⟨nx * 2 ^ k, nz * 2 ^ k, s.cfg.p0rays, s.W, s.incl⟩) n
    show (⟨false, probeDims2 s.cfg _ n, []⟩ : Probes2) = _
    unfold probeDims2
    rw [h.1, h.2]; rfl

theorem merge_run (hf : Fits s k nx nz) (hg : Good s k nx nz nw eta chi scale g) :
    Run2 (mergeOf s g.bm (nx * 2 ^ k) (nz * 2 ^ k)) k nx nz (fun _ => True) where
  valid := hf.valid
  mode := hf.mode
  block := hf.block
  axes := axes hf
  cells := by
    refine le_trans (le_of_eq ?_) hf.size.2.2.2
    push_cast; ring
  map := hg.map
  probes := by
    have h := np_probesOn s.cfg (raysToStorage s.cfg ⟨nx * 2 ^ k, nz * 2 ^ k, s.cfg.p0rays, s.W, s.incl⟩) 0
    show probeDims2 s.cfg _ 0 = _
    unfold probeDims2
    rw [h.1, h.2]
    have hp := Nat.two_pow_pos k
    have h1 : 1 ≤ nx * 2 ^ k := Nat.mul_pos hf.pos.1 hp
    have h2 : 1 ≤ nz * 2 ^ k := Nat.mul_pos hf.pos.2 hp
    show (⟨((probesOn (nx * 2 ^ k) 0 : Nat) : Int), ((probesOn (nz * 2 ^ k) 0 : Nat) : Int)⟩ : Coord2) = _
    unfold probesOn
    simp only [pow_zero, Nat.div_one, max_eq_right h1, max_eq_right h2]
  storage := ⟨s.W, s.incl, rfl⟩
  active := fun h => absurd h (by simp [mergeOf])
  weights := hf.weights

/-- the mean intensity that a batch of the formal solution through `march` has in column `a` -/
noncomputable def jOf (s : Settings) (Nx Nz : Nat) (march : Bool → Nat → ProbeIdx2 → Seg ℝ) (x z wave : Nat) : ℝ :=
  meanIntensity2 s.cfg.p0rays s.incl s.wmuy (radiance2 march Nx Nz (upperTexelsPerRay s.cfg) s.num s.num) x z wave

theorem wave_raysToStorage (c : RcCfg) (r : Casc2) : (raysToStorage c r).wave = r.wave ∧ (raysToStorage c r).incl = r.incl ∧
    (raysToStorage c r).np0 = r.np0 ∧ (raysToStorage c r).np1 = r.np1 := ⟨rfl, rfl, rfl, rfl⟩

/-- One batch. -/
theorem batch_ok (hf : Fits s k nx nz) (hg : Good s k nx nz nw eta chi scale g) (o : BatchOrder) (la : Nat) (hla : la < nw)
    (ho : Orders s k nx nz (waves s nw la) o) (L : Coord2 → Nat)
    (hL : ∀ t : Coord2, 0 ≤ t.x → t.x < nx → 0 ≤ t.z → t.z < nz → IsLevel s k eta chi scale la (waves s nw la) t (L t)) :
    ∃ march, Marches2 (fileWorld s k nx nz eta chi scale L) (envOf s (nx * 2 ^ k) (nz * 2 ^ k) march) (raysFrom s la) (waves s nw la) ∧
      ∀ J : Arr2 ℝ, (J.cols : Int) = nx * nz * ((2 ^ k : Nat) * (2 ^ k : Nat)) → (J.rows = s.W ∨ la + waves s nw la ≤ J.rows) →
        ∃ J', batch2 s g o la J = .ok J' ∧ J'.rows = J.rows ∧ J'.cols = J.cols ∧
          (∀ wave x z, wave < waves s nw la → x < nx * 2 ^ k → z < nz * 2 ^ k →
            J'.get (if J.rows = s.W then wave else la + wave) (z * (nx * 2 ^ k) + x) =
              J.get (if J.rows = s.W then wave else la + wave) (z * (nx * 2 ^ k) + x) + jOf s (nx * 2 ^ k) (nz * 2 ^ k) march x z wave) ∧
          ∀ r a, (∀ wave, wave < waves s nw la → r ≠ if J.rows = s.W then wave else la + wave) → J'.get r a = J.get r a := by
  have hW := hf.batch
  have hwv : 0 < waves s nw la := by unfold waves; omega
  have hww : waves s nw la ≤ s.W := by unfold waves; omega
  have hwn : la + waves s nw la ≤ nw := by unfold waves; omega
  have hnw : g.nw.toNat = nw := by rw [hg.sw]; rfl
  -- the arrays
  obtain ⟨emis0, a1, a2⟩ := forAll_ok (fun w => copyCol s g g.eta la w (o.copy w) (o.oldEmis w)) (o.oldEmis 0) (List.range (waves s nw la))
    (fun w m => StoredAt2 (2 ^ k) nx nz (fun _ => True) (mrOf s g g.lk) 0 m (fun c => eta c (la + w : Nat)))
    (fun w hw => by
      have hw := List.mem_range.1 hw
      rw [hg.emis]
      exact copy_ok hf hg eta la w (by omega) (by omega) _ (ho.copy w) _ g.lk)
  obtain ⟨opac0, b1, b2⟩ := forAll_ok (fun w => copyCol s g g.chi la w (o.copy w) (o.oldOpac w)) (o.oldOpac 0) (List.range (waves s nw la))
    (fun w m => StoredAt2 (2 ^ k) nx nz (fun _ => True) (mrOf s g g.lk) 0 m (fun c => chi c (la + w : Nat)))
    (fun w hw => by
      have hw := List.mem_range.1 hw
      rw [hg.opac]
      exact copy_ok hf hg chi la w (by omega) (by omega) _ (ho.copy w) _ g.lk)
  have he0 := fun w (hw : w < waves s nw la) => (a2 w (List.mem_range.2 hw)).2
  have hc0 := fun w (hw : w < waves s nw la) => (b2 w (List.mem_range.2 hw)).2
  obtain ⟨emis, c1, c2⟩ := forAll_ok (fun w => mipChain2 s.B (mrOf s g g.lk) (bufLen s g) mipScale2 (o.mips w) g.maxMip (emis0 w)) (o.oldEmis 0)
    (List.range (waves s nw la)) (fun w m => ∀ l ≤ g.maxMip, StoredAt2 (2 ^ k) nx nz (fun _ => True) (mrOf s g g.lk) l m
      (blockMean2 (fun c => eta c (la + w : Nat)) l))
    (fun w hw => chain_ok hf hg g.lk (o.mips w) (ho.mips w) g.maxMip le_rfl (emis0 w) _ (he0 w (List.mem_range.1 hw)))
  obtain ⟨opac, d1, d2⟩ := forAll_ok (fun w => mipChain2 s.B (mrOf s g g.lk) (bufLen s g) mipScale2 (o.mips w) g.maxMip (opac0 w)) (o.oldOpac 0)
    (List.range (waves s nw la)) (fun w m => ∀ l ≤ g.maxMip, StoredAt2 (2 ^ k) nx nz (fun _ => True) (mrOf s g g.lk) l m
      (blockMean2 (fun c => chi c (la + w : Nat)) l))
    (fun w hw => chain_ok hf hg g.lk (o.mips w) (ho.mips w) g.maxMip le_rfl (opac0 w) _ (hc0 w (List.mem_range.1 hw)))
  obtain ⟨lk, p1, p2⟩ := pack_ok hf hg o la _ hwv ho emis0 opac0 he0 hc0 L hL
  have hNx : g.nx.toNat = nx * 2 ^ k := by rw [hg.sx, ← Nat.cast_mul, Int.toNat_natCast]
  have hNz : g.nz.toNat = nz * 2 ^ k := by rw [hg.sz, ← Nat.cast_mul, Int.toNat_natCast]
  -- the march
  have hLt : ∀ t : Coord2, 0 ≤ t.x → t.x < nx → 0 ≤ t.z → t.z < nz → L t ≤ topLevel s := fun t h1 h2 h3 h4 => (hL t h1 h2 h3 h4).le
  set e0 := envOf s (nx * 2 ^ k) (nz * 2 ^ k) (fun _ _ _ => ⟨0, 0, 0⟩) with he0'
  set M := marchOf (memWorld s g lk o la emis opac) e0 (raysFrom s la) with hM
  have hmem := fun bc n hn p hp sg => marchRay_mem hf hg lk o la (waves s nw la) emis opac (fun w hw => (c2 w (List.mem_range.2 hw)).2)
    (fun w hw => (d2 w (List.mem_range.2 hw)).2) L p2 hLt e0 bc n hn p hp sg
  obtain ⟨⟨m1, hm1⟩, -⟩ := C79_dense2 e0 (fileWorld s k nx nz eta chi scale L) (raysFrom s la) (waves s nw la)
    (by show (1 : ℤ) ≤ ((2 ^ k : Nat) : ℤ); exact_mod_cast Nat.one_le_two_pow) (fun n c hc => file_dense hf L n c hc)
    (fun n hn => hf.dirs n hn) (fun n hn => hf.length n hn)
  have hspec : ∀ bc n p, n ≤ s.num → p.wave < waves s nw la → (∃ sg, MarchRay2 (fileWorld s k nx nz eta chi scale L) e0 (raysFrom s la) bc n p sg) →
      MarchRay2 (fileWorld s k nx nz eta chi scale L) e0 (raysFrom s la) bc n p (M bc n p) := by
    intro bc n p hn hp ⟨sg, hsg⟩
    haveI : Nonempty (Seg ℝ) := ⟨⟨0, 0, 0⟩⟩
    refine (hmem bc n hn p hp _).1 ?_
    exact Classical.epsilon_spec (p := MarchRay2 (memWorld s g lk o la emis opac) e0 (raysFrom s la) bc n p) ⟨sg, (hmem bc n hn p hp sg).2 hsg⟩
  refine ⟨M, ⟨fun n p hn hr => ?_, fun p hr => ?_⟩, fun J hcols hrows => ?_⟩
  · exact hspec false n p (Nat.le_of_lt hn) hr.wave ⟨_, hm1.1 n p hn ⟨hr.u, hr.v, hr.dir, hr.wave, hr.incl⟩⟩
  · exact hspec true s.num p le_rfl hr.wave ⟨_, hm1.2 p ⟨hr.u, hr.v, hr.dir, hr.wave, hr.incl⟩⟩
  · have hrun := merge_run hf hg
    obtain ⟨hpr, -⟩ := env_probes hf M
    have hN : nx * 2 ^ k * (nz * 2 ^ k) = nx * 2 ^ k * (nz * 2 ^ k) := rfl
    obtain ⟨m', J', f1, f2, f3, f4, f5⟩ := C74_static_J2 (envOf s (nx * 2 ^ k) (nz * 2 ^ k) M) (mergeOf s g.bm (nx * 2 ^ k) (nz * 2 ^ k)) k nx nz
      (fun _ => True) hrun rfl rfl rfl hf.pos hpr (waves s nw la) hww o.rc (fun t => ho.rc t M) o.j (fun t n hn => by
        have hnum : n = ((nx * 2 ^ k : Nat) : Int) * ((nz * 2 ^ k : Nat) : Int) := by
          have hp := hrun.probes
          unfold Probes2.num at hn
          rw [show (mergeOf s g.bm (nx * 2 ^ k) (nz * 2 ^ k)).P.sparse = false from rfl, hp] at hn
          simp only [Bool.false_eq_true, if_false] at hn
          unfold mulI32 at hn
          split at hn
          · injection hn with hn; exact hn.symm
          · exact absurd hn (by simp)
        rw [hnum, ← Nat.cast_mul, Int.toNat_natCast]
        exact ho.j t) la o.mem ho.mem J (by unfold jCols2; rw [if_neg (by simp [mergeOf])]; exact hcols) hrows
    refine ⟨J', ?_, f2, f3, fun wave x z hw hx hz => ?_, f5⟩
    · unfold batch2
      simp only [hnw, a1, b1, c1, d1, p1, Outcome.ok_bind, hNx, hNz]
      show (formalSolStatic2 (envOf s (nx * 2 ^ k) (nz * 2 ^ k) M) (mergeOf s g.bm (nx * 2 ^ k) (nz * 2 ^ k)) la o.rc o.j (List.range (subsetTasks s.cfg)) o.mem J >>= fun r => Outcome.ok r.2) = _
      have f1' : formalSolStatic2 (envOf s (nx * 2 ^ k) (nz * 2 ^ k) M) (mergeOf s g.bm (nx * 2 ^ k) (nz * 2 ^ k)) la o.rc o.j (List.range (subsetTasks s.cfg)) o.mem J = .ok (m', J') := f1
      rw [f1']; rfl
    · obtain ⟨a, q1, q2, q3⟩ := f4 ⟨x, z⟩ (by
        unfold Computed2; rw [if_neg (by simp [mergeOf])]
        exact ⟨by positivity, Int.ofNat_lt.2 hx, by positivity, Int.ofNat_lt.2 hz⟩)
      have ha : z * (nx * 2 ^ k) + x = a := by
        refine (q2 _).1 ?_
        unfold JAddr2
        rw [if_neg (by simp [mergeOf]), hrun.probes]
        push_cast; ring
      rw [ha]
      exact q3 wave hw

end DexRT.Given
