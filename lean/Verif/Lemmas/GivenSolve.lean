import Verif.Lemmas.GivenBatch
import Verif.Lemmas.FormalBounds2
/-! Lemmas for C82: the whole run and its solution. -/
namespace DexRT.Given
open DexRT DexRT.Fs DexRT.AtmosFile DexRT.Dir Classical

variable {s : Settings} {k nx nz nw : Nat} {eta chi : Coord2 → Int → ℝ} {scale : ℝ}

theorem starts_mem (s : Settings) (hW : 0 < s.W) (nw la : Nat) : la ∈ batchStarts s nw ↔ s.W ∣ la ∧ la < nw := by
  unfold batchStarts
  simp only [List.mem_map, List.mem_range]
  constructor
  · rintro ⟨i, hi, rfl⟩
    refine ⟨dvd_mul_left _ _, ?_⟩
    have := (Nat.lt_div_iff_mul_lt hW).1 hi
    have h2 : (nw + s.W - 1) - (s.W - 1) = nw := by omega
    omega
  · rintro ⟨⟨i, rfl⟩, h⟩
    refine ⟨i, ?_, Nat.mul_comm _ _⟩
    rw [Nat.lt_div_iff_mul_lt hW, Nat.mul_comm]
    omega

theorem starts_nodup (s : Settings) (hW : 0 < s.W) (nw : Nat) : (batchStarts s nw).Nodup := by
  unfold batchStarts
  refine List.Nodup.map (fun a b h => ?_) List.nodup_range
  exact Nat.eq_of_mul_eq_mul_right hW h

/-- A run gives a solution. -/
theorem run_ok {W : Type} {cv : W → ℝ} {f : NcFile (Coord2 × Int) W} (hf : Fits s k nx nz)
    (hh : Holds f cv (2 ^ k) nx nz nw eta chi scale) (o : Nat → BatchOrder)
    (ho : ∀ la, la < nw → s.W ∣ la → Orders s k nx nz (min s.W (nw - la)) (o la)) (old : Nat → Nat → ℝ) :
    ∃ J, run2 s cv f o old = .ok J ∧ Solves s k nx nz nw eta chi scale J := by
  obtain ⟨g, g1, hg⟩ := init_ok hf hh
  have hW := hf.batch
  have hp := Nat.two_pow_pos k
  have hnw : g.nw.toNat = nw := by rw [hg.sw]; rfl
  choose L hL using fun la t => isLevel_exists s k eta chi scale la (waves s nw la) t
  have hb := fun la (h1 : la < nw) (h2 : s.W ∣ la) => batch_ok hf hg (o la) la h1 (ho la h1 h2) (L la) (fun t _ _ _ _ => hL la t)
  haveI : Nonempty (Bool → Nat → ProbeIdx2 → Seg ℝ) := ⟨fun _ _ _ => ⟨0, 0, 0⟩⟩
  choose! march hm1 hm2 using hb
  set Nx := nx * 2 ^ k with hNx
  set Nz := nz * 2 ^ k with hNz
  have hx0 : 0 < Nx := Nat.mul_pos hf.pos.1 hp
  have hcols : jCols s g = Nx * Nz := by
    unfold jCols
    rw [hg.map.dims, hf.block]
    have : (nx : Int) * nz * (((2 ^ k : Nat) : Int) * ((2 ^ k : Nat) : Int)) = ((Nx * Nz : Nat) : Int) := by
      rw [hNx, hNz]; push_cast; ring
    show ((nx : Int) * nz * (((2 ^ k : Nat) : Int) * ((2 ^ k : Nat) : Int))).toNat = _
    rw [this, Int.toNat_natCast]
  set M : Nat → Nat → ℝ := fun r a => jOf s Nx Nz (march (r / s.W * s.W)) (a % Nx) (a / Nx) (r % s.W) with hM
  set sol := fun la J => batch2 s g (o la) la J with hsol
  have hspec : ∀ la ∈ batchStarts s nw, s.W ∣ la ∧ la < nw ∧ BatchSpec sol s.W (Nx * Nz) (waves s nw) M la := by
    intro la hla
    obtain ⟨h1, h2⟩ := (starts_mem s hW nw la).1 hla
    refine ⟨h1, h2, fun J hc hr => ?_⟩
    obtain ⟨J', q1, q2, q3, q4, q5⟩ := hm2 la h2 h1 J (by rw [hc]; push_cast [hNx, hNz]; ring) hr
    refine ⟨J', q1, q2, q3, fun wave a hw ha => ?_, q5⟩
    have hww : wave < s.W := by unfold waves at hw; omega
    have hd : a / Nx < Nz := by rw [Nat.div_lt_iff_lt_mul hx0, Nat.mul_comm]; exact ha
    have := q4 wave (a % Nx) (a / Nx) hw (Nat.mod_lt _ hx0) hd
    have ea : a / Nx * Nx + a % Nx = a := by rw [Nat.mul_comm]; exact Nat.div_add_mod a Nx
    rw [ea] at this
    rw [this, hM]
    obtain ⟨b, rfl⟩ := h1
    have e1 : (s.W * b + wave) / s.W * s.W = s.W * b := by
      rw [Nat.mul_add_div hW, Nat.div_eq_of_lt hww, Nat.add_zero, Nat.mul_comm]
    have e2 : (s.W * b + wave) % s.W = wave := by rw [Nat.mul_add_mod, Nat.mod_eq_of_lt hww]
    simp only [e1, e2]
  have hin : ∀ la, la < nw → la / s.W * s.W ∈ batchStarts s nw := by
    intro la hla
    exact (starts_mem s hW nw _).2 ⟨dvd_mul_left _ _, lt_of_le_of_lt (Nat.div_mul_le_self la s.W) hla⟩
  have hfin : ∀ J : Arr2 ℝ, J.rows = nw → J.cols = Nx * Nz → (∀ r a, r < nw → a < Nx * Nz → J.get r a = M r a) →
      Solves s k nx nz nw eta chi scale J := by
    intro J h1 h2 h3
    refine ⟨h1, h2, fun la hla => ⟨L (la / s.W * s.W), march (la / s.W * s.W), fun t _ _ _ _ => hL _ t, ?_, fun x z hx hz => ?_⟩⟩
    · exact hm1 _ (lt_of_le_of_lt (Nat.div_mul_le_self la s.W) hla) (dvd_mul_left _ _)
    · have ha : z * Nx + x < Nx * Nz := by
        calc z * Nx + x < z * Nx + Nx := by omega
          _ = (z + 1) * Nx := by ring
          _ ≤ Nz * Nx := Nat.mul_le_mul_right _ hz
          _ = Nx * Nz := Nat.mul_comm _ _
      rw [h3 la _ hla ha, hM]
      have e1 : (z * Nx + x) % Nx = x := by rw [Nat.mul_comm, Nat.mul_add_mod, Nat.mod_eq_of_lt hx]
      have e2 : (z * Nx + x) / Nx = z := by rw [Nat.mul_comm, Nat.mul_add_div hx0, Nat.div_eq_of_lt hx, Nat.add_zero]
      simp only [e1, e2]
      rfl
  unfold run2
  rw [g1, Outcome.ok_bind]
  simp only [hnw, hcols]
  by_cases hc : s.onCpu = true
  · rw [if_pos hc]
    obtain ⟨J', Jc, r1, r2, r3, r4⟩ := batches_cpu sol s.W (Nx * Nz) nw (waves s nw) M hW (fun _ => rfl) (batchStarts s nw) (starts_nodup s hW nw)
      hspec ⟨s.W, Nx * Nz, fun _ _ => 0⟩ ⟨nw, Nx * Nz, old⟩ rfl rfl rfl rfl
    rw [r1]
    refine ⟨Jc, rfl, hfin Jc r2 r3 fun r a hr ha => ?_⟩
    rw [r4 r a hr ha, if_pos (hin r hr)]
  · rw [if_neg hc]
    obtain ⟨J', r1, r2, r3, r4⟩ := batches_dev sol s.W (Nx * Nz) nw (waves s nw) M hW (fun _ => rfl) (batchStarts s nw) (starts_nodup s hW nw)
      hspec ⟨nw, Nx * Nz, fun _ _ => 0⟩ rfl rfl
    refine ⟨J', r1, hfin J' r2 r3 fun r a hr ha => ?_⟩
    rw [r4 r a hr ha, if_pos (hin r hr)]
    show (0 : ℝ) + _ = _
    rw [zero_add]

theorem file_L_congr (L L' : Coord2 → Nat) (h : ∀ t : Coord2, 0 ≤ t.x → t.x < nx → 0 ≤ t.z → t.z < nz → L t = L' t) :
    fileWorld s k nx nz eta chi scale L = fileWorld s k nx nz eta chi scale L' := by
  have : (fileWorld s k nx nz eta chi scale L).lvl = (fileWorld s k nx nz eta chi scale L').lvl := by
    funext c
    show (if 0 ≤ c 0 ∧ c 0 < ((nx * 2 ^ k : Nat) : Int) ∧ 0 ≤ c 1 ∧ c 1 < ((nz * 2 ^ k : Nat) : Int) then
      (L ⟨c 0 / (2 ^ k : Nat), c 1 / (2 ^ k : Nat)⟩ : Int) else -1) =
      if 0 ≤ c 0 ∧ c 0 < ((nx * 2 ^ k : Nat) : Int) ∧ 0 ≤ c 1 ∧ c 1 < ((nz * 2 ^ k : Nat) : Int) then
      (L' ⟨c 0 / (2 ^ k : Nat), c 1 / (2 ^ k : Nat)⟩ : Int) else -1
    have hp : (0 : Int) < ((2 ^ k : Nat) : Int) := by exact_mod_cast Nat.two_pow_pos k
    split
    · rename_i hc
      rw [h]
      · exact Int.ediv_nonneg hc.1 hp.le
      · show c 0 / _ < _
        rw [Int.ediv_lt_iff_lt_mul hp]; have := hc.2.1; push_cast at this ⊢; exact this
      · exact Int.ediv_nonneg hc.2.2.1 hp.le
      · show c 1 / _ < _
        rw [Int.ediv_lt_iff_lt_mul hp]; have := hc.2.2.2; push_cast at this ⊢; exact this
    · rfl
  unfold fileWorld at this ⊢
  simp only [World.mk.injEq] at this ⊢
  exact ⟨this, trivial, trivial, trivial, trivial, trivial, trivial, trivial, trivial, trivial, trivial⟩

theorem round_in (d n c b : ℤ) (hd : 0 < d) (hn : d ∣ n) (h0 : 0 ≤ c) (h1 : c < n) (b0 : 0 ≤ b) (b1 : b < d) :
    0 ≤ c - c % d + b ∧ c - c % d + b < n := by
  obtain ⟨e, rfl⟩ := hn
  have h2 := Int.emod_add_mul_ediv c d
  have h3 : 0 ≤ c / d := Int.ediv_nonneg h0 hd.le
  have h4 : c / d < e := by rw [Int.ediv_lt_iff_lt_mul hd, mul_comm]; exact h1
  have h5 : d * (c / d) + d ≤ d * e := by
    have : d * (c / d + 1) ≤ d * e := mul_le_mul_of_nonneg_left (by omega) hd.le
    linarith
  have h6 : 0 ≤ d * (c / d) := mul_nonneg hd.le h3
  constructor <;> linarith

/-- the mean over a square of the grid is of cells of the grid -/
theorem mean_congr (f f' : Coord2 → ℝ) (h : ∀ c, InGrid k nx nz c → f c = f' c) (l : Nat) (hl : l ≤ k) (c : Coord2) (hc : InGrid k nx nz c) :
    blockMean2 f l c = blockMean2 f' l c := by
  have hp : (0 : Int) < ((2 ^ l : Nat) : Int) := by exact_mod_cast Nat.two_pow_pos l
  unfold blockMean2 blockSum2
  congr 1
  refine Finset.sum_congr rfl fun a ha => Finset.sum_congr rfl fun b hb => h _ ?_
  have ha := Finset.mem_range.1 ha
  have hb := Finset.mem_range.1 hb
  have hd : ∀ n : Nat, ((2 ^ l : Nat) : Int) ∣ ((n * 2 ^ k : Nat) : Int) := fun n => by
    exact_mod_cast Dvd.dvd.mul_left (pow_dvd_pow 2 hl) n
  obtain ⟨x1, x2⟩ := round_in _ _ c.x b hp (hd nx) hc.1 hc.2.1 (by positivity) (by exact_mod_cast hb)
  obtain ⟨z1, z2⟩ := round_in _ _ c.z a hp (hd nz) hc.2.2.1 hc.2.2.2 (by positivity) (by exact_mod_cast ha)
  exact ⟨x1, x2, z1, z2⟩

theorem smooth_congr (eta' chi' : Coord2 → Int → ℝ) (la wv : Nat)
    (he : ∀ c, InGrid k nx nz c → ∀ w, w < wv → eta c (la + w : Nat) = eta' c (la + w : Nat))
    (hc : ∀ c, InGrid k nx nz c → ∀ w, w < wv → chi c (la + w : Nat) = chi' c (la + w : Nat))
    (t : Coord2) (ht : 0 ≤ t.x ∧ t.x < nx ∧ 0 ≤ t.z ∧ t.z < nz) (l : Nat) (hl : l + 1 ≤ k) :
    Smooth s k eta chi scale la wv t l ↔ Smooth s k eta' chi' scale la wv t l := by
  unfold Smooth
  refine forall_congr' fun c => forall_congr' fun hct => forall_congr' fun hx => forall_congr' fun hz => forall_congr' fun w => forall_congr' fun hw => ?_
  have hp : (0 : Int) < ((2 ^ k : Nat) : Int) := by exact_mod_cast Nat.two_pow_pos k
  have hin : ∀ dx dz : Int, 0 ≤ dx → dx ≤ 1 → 0 ≤ dz → dz ≤ 1 → InGrid k nx nz ⟨c.x + dx * (2 ^ l : Nat), c.z + dz * (2 ^ l : Nat)⟩ := by
    intro dx dz a1 a2 a3 a4
    obtain ⟨i1, i2, i3, i4⟩ := hct
    have hpl : (0 : Int) < ((2 ^ l : Nat) : Int) := by exact_mod_cast Nat.two_pow_pos l
    have hdk : ((2 ^ (l + 1) : Nat) : Int) ∣ ((2 ^ k : Nat) : Int) := dvd_tile k (l + 1) hl
    have hup : ∀ u v d : Int, ((2 ^ (l + 1) : Nat) : Int) ∣ u → u < (v + 1) * ((2 ^ k : Nat) : Int) → 0 ≤ d → d ≤ 1 →
        u + d * ((2 ^ l : Nat) : Int) < (v + 1) * ((2 ^ k : Nat) : Int) := by
      intro u v d hu hlt d0 d1
      have hdd : ((2 ^ (l + 1) : Nat) : Int) ∣ (v + 1) * ((2 ^ k : Nat) : Int) - u := dvd_sub (Dvd.dvd.mul_left hdk _) hu
      have hle := Int.le_of_dvd (by linarith) hdd
      have e2 : ((2 ^ (l + 1) : Nat) : Int) = 2 * ((2 ^ l : Nat) : Int) := by push_cast; ring
      rw [e2] at hle
      have : d * ((2 ^ l : Nat) : Int) ≤ 1 * ((2 ^ l : Nat) : Int) := mul_le_mul_of_nonneg_right d1 hpl.le
      linarith
    have hx2 := hup c.x t.x dx hx i2 a1 a2
    have hz2 := hup c.z t.z dz hz i4 a3 a4
    have b1 : 0 ≤ t.x * ((2 ^ k : Nat) : Int) := mul_nonneg ht.1 hp.le
    have b2 : 0 ≤ t.z * ((2 ^ k : Nat) : Int) := mul_nonneg ht.2.2.1 hp.le
    have b3 : (t.x + 1) * ((2 ^ k : Nat) : Int) ≤ nx * ((2 ^ k : Nat) : Int) := mul_le_mul_of_nonneg_right (by omega) hp.le
    have b4 : (t.z + 1) * ((2 ^ k : Nat) : Int) ≤ nz * ((2 ^ k : Nat) : Int) := mul_le_mul_of_nonneg_right (by omega) hp.le
    have b5 : 0 ≤ dx * ((2 ^ l : Nat) : Int) := mul_nonneg a1 hpl.le
    have b6 : 0 ≤ dz * ((2 ^ l : Nat) : Int) := mul_nonneg a3 hpl.le
    unfold InGrid
    rw [Nat.cast_mul, Nat.cast_mul]
    refine ⟨?_, ?_, ?_, ?_⟩ <;> show _ <;> simp only <;> linarith
  have hm := fun (dx dz : Int) a1 a2 a3 a4 => mean_congr (k := k) (nx := nx) (nz := nz) (fun c => eta c (la + w : Nat)) (fun c => eta' c (la + w : Nat))
    (fun c hc => he c hc w hw) l (by omega) _ (hin dx dz a1 a2 a3 a4)
  have hm' := fun (dx dz : Int) a1 a2 a3 a4 => mean_congr (k := k) (nx := nx) (nz := nz) (fun c => chi c (la + w : Nat)) (fun c => chi' c (la + w : Nat))
    (fun c hcc => hc c hcc w hw) l (by omega) _ (hin dx dz a1 a2 a3 a4)
  simp only [hm 0 0 le_rfl (by omega) le_rfl (by omega), hm 1 0 (by omega) le_rfl le_rfl (by omega), hm 0 1 le_rfl (by omega) (by omega) le_rfl,
    hm 1 1 (by omega) le_rfl (by omega) le_rfl, hm' 0 0 le_rfl (by omega) le_rfl (by omega), hm' 1 0 (by omega) le_rfl le_rfl (by omega),
    hm' 0 1 le_rfl (by omega) (by omega) le_rfl, hm' 1 1 (by omega) le_rfl (by omega) le_rfl]

theorem isLevel_congr (hf : Fits s k nx nz) (eta' chi' : Coord2 → Int → ℝ) (la wv : Nat)
    (he : ∀ c, InGrid k nx nz c → ∀ w, w < wv → eta c (la + w : Nat) = eta' c (la + w : Nat))
    (hc : ∀ c, InGrid k nx nz c → ∀ w, w < wv → chi c (la + w : Nat) = chi' c (la + w : Nat))
    (t : Coord2) (ht : 0 ≤ t.x ∧ t.x < nx ∧ 0 ≤ t.z ∧ t.z < nz) (L : Nat) (h : IsLevel s k eta chi scale la wv t L) :
    IsLevel s k eta' chi' scale la wv t L := by
  have hk := (top_le hf).1
  refine ⟨h.le, fun l hl => ?_, fun hL => ?_⟩
  · exact (smooth_congr eta' chi' la wv he hc t ht l (by have := h.le; omega)).1 (h.smooth l hl)
  · exact fun hs => h.largest hL ((smooth_congr eta' chi' la wv he hc t ht L (by omega)).2 hs)

/-- A ray of the solution depends on the data of its wavelength in the grid only, not on how wavelengths are batched. -/
theorem marchRay_file (hf : Fits s k nx nz) (W' : Nat) (b' : Bool) (eta' chi' : Coord2 → Int → ℝ) (L : Coord2 → Nat) (la la0 la0' w w' : Nat)
    (h1 : la0 + w = la) (h2 : la0' + w' = la)
    (he : ∀ c, InGrid k nx nz c → eta c la = eta' c la) (hc : ∀ c, InGrid k nx nz c → chi c la = chi' c la)
    (march march' : Bool → Nat → ProbeIdx2 → Seg ℝ) (bc : Bool) (n : Nat) (hn : n ≤ s.num) (p : ProbeIdx2) (sg : Seg ℝ) :
    MarchRay2 (fileWorld s k nx nz eta chi scale L) (envOf s (nx * 2 ^ k) (nz * 2 ^ k) march) (raysFrom s la0) bc n { p with wave := w } sg ↔
      MarchRay2 (fileWorld { s with W := W', onCpu := b' } k nx nz eta' chi' scale L)
        (envOf { s with W := W', onCpu := b' } (nx * 2 ^ k) (nz * 2 ^ k) march') (raysFrom { s with W := W', onCpu := b' } la0') bc n
        { p with wave := w' } sg := by
  have hl1 : (la0 : ℤ) + (w : ℤ) = la := by exact_mod_cast h1
  have hl2 : (la0' : ℤ) + (w' : ℤ) = la := by exact_mod_cast h2
  set a : RaySeg 2 → RaymarchArgs .two := fun seg => (fileWorld s k nx nz eta chi scale L).args2 (envOf s (nx * 2 ^ k) (nz * 2 ^ k) march)
    (raysFrom s la0) bc n { p with wave := w } seg with ha
  obtain ⟨E, hE⟩ : ∃ E : ℤ → (Fin 2 → ℤ) → ℝ, E = fun l c => blockMean2 (fun c => eta' c la) l.toNat ⟨c 0, c 1⟩ := ⟨_, rfl⟩
  obtain ⟨X, hX⟩ : ∃ X : ℤ → (Fin 2 → ℤ) → ℝ, X = fun l c => blockMean2 (fun c => chi' c la) l.toNat ⟨c 0, c 1⟩ := ⟨_, rfl⟩
  have harg : ∀ seg, (fileWorld { s with W := W', onCpu := b' } k nx nz eta' chi' scale L).args2
      (envOf { s with W := W', onCpu := b' } (nx * 2 ^ k) (nz * 2 ^ k) march') (raysFrom { s with W := W', onCpu := b' } la0') bc n
        { p with wave := w' } seg = { a seg with eta := E, chi := X } := by
    intro seg
    unfold World.args2
    show RaymarchArgs.mk (dim := .two) _ _ (fun l c => blockMean2 (fun c => eta' c ((la0' : ℤ) + (w' : ℤ))) l.toNat ⟨c 0, c 1⟩)
      (fun l c => blockMean2 (fun c => chi' c ((la0' : ℤ) + (w' : ℤ))) l.toNat ⟨c 0, c 1⟩) _ _ _ _ _ _ ((la0' : ℤ) + (w' : ℤ)) _ =
      RaymarchArgs.mk (dim := .two) _ _ E X _ _ _ _ _ _ ((la0 : ℤ) + (w : ℤ)) _
    rw [hl2, hl1, ← hE, ← hX]
    rfl
  have hray : ∀ seg fuel, raymarch ((fileWorld { s with W := W', onCpu := b' } k nx nz eta' chi' scale L).args2
      (envOf { s with W := W', onCpu := b' } (nx * 2 ^ k) (nz * 2 ^ k) march') (raysFrom { s with W := W', onCpu := b' } la0') bc n
        { p with wave := w' } seg) fuel = raymarch (a seg) fuel := by
    intro seg fuel
    rw [harg]
    refine raymarch_congr (a seg) _ _ (fun c m hm => file_blk hf L n hn c m hm) (fun c hc0 => ?_) fuel
    change 0 ≤ ((fileWorld s k nx nz eta chi scale L).env n).sampleLevel c at hc0
    have hcin : InGrid k nx nz ⟨c 0, c 1⟩ := by
      by_contra hno
      have : ((fileWorld s k nx nz eta chi scale L).env n).lvl c = -1 := if_neg hno
      unfold DdaEnv.sampleLevel at hc0
      rw [this] at hc0
      have := min_le_left (-1 : ℤ) ((fileWorld s k nx nz eta chi scale L).env n).maxMip
      omega
    have hle : (((fileWorld s k nx nz eta chi scale L).env n).sampleLevel c).toNat ≤ k := by
      have h1 : ((fileWorld s k nx nz eta chi scale L).env n).sampleLevel c ≤ s.levels.getD n 0 := min_le_right _ _
      have h2 := (hf.levelRange _ (getD_mem s.levels n (by have := hf.levels; omega))).2.1
      omega
    constructor
    · rw [hE]
      show blockMean2 (fun c => eta' c la) (((fileWorld s k nx nz eta chi scale L).env n).sampleLevel c).toNat ⟨c 0, c 1⟩ =
        blockMean2 (fun c => eta c ((la0 : ℤ) + (w : ℤ))) (((fileWorld s k nx nz eta chi scale L).env n).sampleLevel c).toNat ⟨c 0, c 1⟩
      rw [hl1]
      exact (mean_congr _ _ he _ hle _ hcin).symm
    · rw [hX]
      show blockMean2 (fun c => chi' c la) (((fileWorld s k nx nz eta chi scale L).env n).sampleLevel c).toNat ⟨c 0, c 1⟩ =
        blockMean2 (fun c => chi c ((la0 : ℤ) + (w : ℤ))) (((fileWorld s k nx nz eta chi scale L).env n).sampleLevel c).toNat ⟨c 0, c 1⟩
      rw [hl1]
      exact (mean_congr _ _ hc _ hle _ hcin).symm
  unfold MarchRay2
  refine exists_congr fun seg => exists_congr fun fuel => exists_congr fun res => ?_
  refine and_congr Iff.rfl (and_congr ?_ Iff.rfl)
  rw [hray]

/-- cascade 0 marches `PROBE0_NUM_RAYS` directions -/
theorem dirs_zero (hf : Fits s k nx nz) (Nx Nz : Nat) (march : Bool → Nat → ProbeIdx2 → Seg ℝ) :
    (cascadeComputeSize (envOf s Nx Nz march).cfg (envOf s Nx Nz march).c0 0).dirs = s.cfg.p0rays := by
  have hp := hf.valid.1
  have hm := hf.mode
  show (cascadeComputeSize s.cfg (raysToStorage s.cfg ⟨Nx, Nz, s.cfg.p0rays, s.W, s.incl⟩) 0).dirs = s.cfg.p0rays
  unfold cascadeComputeSize raysToStorage numFlatRaysExponent
  cases h : s.cfg.mode with
  | preaverage => exact absurd h hm
  | dirByDir =>
    simp only [Nat.div_self hp]
    split
    · split
      · simp
      · rename_i hs
        simp [show s.cfg.switch - 1 = 0 by omega]
    · simp
  | all =>
    simp only
    split
    · split
      · simp
      · rename_i hs
        simp [show s.cfg.switch - 1 = 0 by omega]
    · simp

theorem ray_zero (hf : Fits s k nx nz) (march : Bool → Nat → ProbeIdx2 → Seg ℝ) (wv x z d th w : Nat) (hx : x < nx * 2 ^ k) (hz : z < nz * 2 ^ k)
    (hd : d < s.cfg.p0rays) (ht : th < s.incl) (hw : w < wv) : Ray2 (envOf s (nx * 2 ^ k) (nz * 2 ^ k) march) wv 0 ⟨x, z, d, th, w⟩ := by
  refine ⟨?_, ?_, ?_, hw, ht⟩
  · show x < probesOn (nx * 2 ^ k) 0
    unfold probesOn; rw [pow_zero, Nat.div_one]; exact lt_of_lt_of_le hx (le_max_right _ _)
  · show z < probesOn (nz * 2 ^ k) 0
    unfold probesOn; rw [pow_zero, Nat.div_one]; exact lt_of_lt_of_le hz (le_max_right _ _)
  · rw [dirs_zero hf]; exact hd

theorem radiance2_wave (march : Bool → Nat → ProbeIdx2 → Seg ℝ) (Nx Nz : Nat) (b : Nat → Nat) (num w : Nat) (m : Nat) (p : ProbeIdx2) :
    radiance2 march Nx Nz b num m { p with wave := w } = radiance2 (fun bc n q => march bc n { q with wave := w }) Nx Nz b num m p := by
  induction m generalizing p with
  | zero => rfl
  | succ m ih =>
    unfold radiance2
    have hi := fun U V r => ih { p with u := U, v := V, dir := p.dir * b (num - (m + 1)) + r }
    simp only at hi ⊢
    simp only [hi]

theorem marchRay2_unique (w : World .two) (e : Env2 ℝ) (g : Rays2) (bc : Bool) (n : Nat) (p : ProbeIdx2) (s s' : Seg ℝ)
    (h : MarchRay2 w e g bc n p s) (h' : MarchRay2 w e g bc n p s') : s = s' := by
  obtain ⟨seg, f, res, a, b, rfl⟩ := h
  obtain ⟨seg', f', res', a', b', rfl⟩ := h'
  obtain rfl : seg = seg' := Option.some.inj (a.symm.trans a')
  rw [raymarch_unique _ f f' res res' b b']

theorem radiance_file (hf : Fits s k nx nz) (W' : Nat) (b' : Bool) (eta' chi' : Coord2 → Int → ℝ) (L : Coord2 → Nat) (la la0 la0' w w' wv wv' : Nat)
    (h1 : la0 + w = la) (h2 : la0' + w' = la) (hw : w < wv) (hw' : w' < wv')
    (he : ∀ c, InGrid k nx nz c → eta c la = eta' c la) (hc : ∀ c, InGrid k nx nz c → chi c la = chi' c la)
    (march march' : Bool → Nat → ProbeIdx2 → Seg ℝ)
    (hm : Marches2 (fileWorld s k nx nz eta chi scale L) (envOf s (nx * 2 ^ k) (nz * 2 ^ k) march) (raysFrom s la0) wv)
    (hm' : Marches2 (fileWorld { s with W := W', onCpu := b' } k nx nz eta' chi' scale L)
      (envOf { s with W := W', onCpu := b' } (nx * 2 ^ k) (nz * 2 ^ k) march') (raysFrom { s with W := W', onCpu := b' } la0') wv')
    (x z d th : Nat) (hx : x < nx * 2 ^ k) (hz : z < nz * 2 ^ k) (hd : d < s.cfg.p0rays) (ht : th < s.incl) :
    radiance2 march (nx * 2 ^ k) (nz * 2 ^ k) (upperTexelsPerRay s.cfg) s.num s.num ⟨x, z, d, th, w⟩ =
      radiance2 march' (nx * 2 ^ k) (nz * 2 ^ k) (upperTexelsPerRay s.cfg) s.num s.num ⟨x, z, d, th, w'⟩ := by
  have e1 := radiance2_wave march (nx * 2 ^ k) (nz * 2 ^ k) (upperTexelsPerRay s.cfg) s.num w s.num ⟨x, z, d, th, w⟩
  have e2 := radiance2_wave march' (nx * 2 ^ k) (nz * 2 ^ k) (upperTexelsPerRay s.cfg) s.num w' s.num ⟨x, z, d, th, w⟩
  simp only at e1 e2
  rw [e1, e2]
  have hray' : ∀ n p, Ray2 (envOf s (nx * 2 ^ k) (nz * 2 ^ k) march) wv n p →
      Ray2 (envOf { s with W := W', onCpu := b' } (nx * 2 ^ k) (nz * 2 ^ k) march') wv' n { p with wave := w' } :=
    fun n p h => ⟨h.u, h.v, h.dir, hw', h.incl⟩
  have hrw : ∀ n p, Ray2 (envOf s (nx * 2 ^ k) (nz * 2 ^ k) march) wv n p →
      Ray2 (envOf s (nx * 2 ^ k) (nz * 2 ^ k) march) wv n { p with wave := w } :=
    fun n p h => ⟨h.u, h.v, h.dir, hw, h.incl⟩
  have hseg : ∀ bc n (p : ProbeIdx2), n ≤ s.num → MarchRay2 (fileWorld s k nx nz eta chi scale L) (envOf s (nx * 2 ^ k) (nz * 2 ^ k) march) (raysFrom s la0) bc n
        { p with wave := w } (march bc n { p with wave := w }) →
      MarchRay2 (fileWorld { s with W := W', onCpu := b' } k nx nz eta' chi' scale L)
        (envOf { s with W := W', onCpu := b' } (nx * 2 ^ k) (nz * 2 ^ k) march') (raysFrom { s with W := W', onCpu := b' } la0') bc n
        { p with wave := w' } (march' bc n { p with wave := w' }) → march bc n { p with wave := w } = march' bc n { p with wave := w' } := by
    intro bc n p hn a1 a2
    exact marchRay2_unique _ _ _ _ _ _ _ _ ((marchRay_file hf W' b' eta' chi' L la la0 la0' w w' h1 h2 he hc march march' bc n hn p _).1 a1) a2
  refine radiance2_congr _ _ _ _ _ s.num (Ray2 (envOf s (nx * 2 ^ k) (nz * 2 ^ k) march) wv)
    (fun n q U V r _ hq hU hV hr => ray2_child (envOf s (nx * 2 ^ k) (nz * 2 ^ k) march) hf.valid hf.mode wv n q U V r hq hU hV hr)
    (fun n q hn hq => ?_) (fun q hq => ?_) s.num le_rfl _ (by rw [Nat.sub_self]; exact ray_zero hf march wv x z d th w hx hz hd ht hw)
  · have := hseg false n q hn.le (hm.1 n _ hn (hrw n q hq)) (hm'.1 n _ hn (hray' n q hq))
    simp only [this]; exact ⟨trivial, trivial⟩
  · have := hseg true s.num q le_rfl (hm.2 _ (hrw _ q hq)) (hm'.2 _ (hray' _ q hq))
    simp only [this]

theorem mean_congr2 (nrays nincl : Nat) (w : List ℝ) (I I' : ProbeIdx2 → ℝ) (u v wave wave' : Nat)
    (h : ∀ d th, d < nrays → th < nincl → I ⟨u, v, d, th, wave⟩ = I' ⟨u, v, d, th, wave'⟩) :
    meanIntensity2 nrays nincl w I u v wave = meanIntensity2 nrays nincl w I' u v wave' := by
  unfold meanIntensity2
  congr 1
  refine Finset.sum_congr rfl fun d hd => Finset.sum_congr rfl fun th ht => ?_
  rw [h d th (Finset.mem_range.1 hd) (Finset.mem_range.1 ht)]

/-- where a wavelength is in its batch -/
theorem batch_pos (hf : Fits s k nx nz) (la : Nat) (h : la < nw) : la / s.W * s.W + la % s.W = la ∧ la % s.W < min s.W (nw - la / s.W * s.W) := by
  have h1 := Nat.div_add_mod' la s.W
  have h2 := Nat.mod_lt la hf.batch
  exact ⟨h1, by omega⟩

/-- The solution depends on the data in the grid only. -/
theorem solves_congr (hf : Fits s k nx nz) (eta' chi' : Coord2 → Int → ℝ) (he : ∀ c, InGrid k nx nz c → ∀ la, la < nw → eta c (la : Nat) = eta' c (la : Nat))
    (hc : ∀ c, InGrid k nx nz c → ∀ la, la < nw → chi c (la : Nat) = chi' c (la : Nat)) (J : Arr2 ℝ)
    (h : Solves s k nx nz nw eta chi scale J) : Solves s k nx nz nw eta' chi' scale J := by
  refine ⟨h.rows, h.cols, fun la hla => ?_⟩
  obtain ⟨L, march, h1, h2, h3⟩ := h.value la hla
  obtain ⟨b1, b2⟩ := batch_pos hf la hla
  have hlt : ∀ w, w < min s.W (nw - la / s.W * s.W) → la / s.W * s.W + w < nw := fun w hw => by omega
  refine ⟨L, march, fun t t1 t2 t3 t4 => ?_, ⟨fun n p hn hr => ?_, fun p hr => ?_⟩, h3⟩
  · exact isLevel_congr hf eta' chi' _ _ (fun c hc' w hw => he c hc' _ (hlt w hw)) (fun c hc' w hw => hc c hc' _ (hlt w hw)) t ⟨t1, t2, t3, t4⟩ _
      (h1 t t1 t2 t3 t4)
  · exact (marchRay_file hf s.W s.onCpu eta' chi' L _ _ _ p.wave p.wave rfl rfl (fun c hc' => he c hc' _ (hlt _ hr.wave))
      (fun c hc' => hc c hc' _ (hlt _ hr.wave)) march march false n (Nat.le_of_lt hn) p _).1 (h2.1 n p hn hr)
  · exact (marchRay_file hf s.W s.onCpu eta' chi' L _ _ _ p.wave p.wave rfl rfl (fun c hc' => he c hc' _ (hlt _ hr.wave))
      (fun c hc' => hc c hc' _ (hlt _ hr.wave)) march march true _ le_rfl p _).1 (h2.2 p hr)

/-- the data, 0 outside the file -/
noncomputable def clip (k nx nz nw : Nat) (f : Coord2 → Int → ℝ) : Coord2 → Int → ℝ :=
  fun c la => if InGrid k nx nz c ∧ 0 ≤ la ∧ la < nw then f c la else 0

theorem solves_clip (hf : Fits s k nx nz) (J : Arr2 ℝ) (h : Solves s k nx nz nw eta chi scale J) :
    Solves s k nx nz nw (clip k nx nz nw eta) (clip k nx nz nw chi) scale J := by
  refine solves_congr hf _ _ (fun c hc la hla => ?_) (fun c hc la hla => ?_) J h
  · unfold clip; rw [if_pos ⟨hc, by positivity, by exact_mod_cast hla⟩]
  · unfold clip; rw [if_pos ⟨hc, by positivity, by exact_mod_cast hla⟩]

/-- without levels of detail -/
theorem level_zero {s : Settings} {k : Nat} {eta chi : Coord2 → Int → ℝ} {scale : ℝ} (h0 : topLevel s = 0) {la wv : Nat} {t : Coord2} {L : Nat} (h : IsLevel s k eta chi scale la wv t L) : L = 0 := by
  have := h.le; omega

theorem mean_nonneg2 (f : Coord2 → ℝ) (h : ∀ c, 0 ≤ f c) (l : Nat) (c : Coord2) : 0 ≤ blockMean2 f l c :=
  div_nonneg (Finset.sum_nonneg fun _ _ => Finset.sum_nonneg fun _ _ => h _) (by positivity)

theorem mean_le2 (f g : Coord2 → ℝ) (h : ∀ c, f c ≤ g c) (l : Nat) (c : Coord2) : blockMean2 f l c ≤ blockMean2 g l c :=
  div_le_div_of_nonneg_right (Finset.sum_le_sum fun _ _ => Finset.sum_le_sum fun _ _ => h _) (by positivity)

theorem mean_smul2 (a : ℝ) (f : Coord2 → ℝ) (l : Nat) (c : Coord2) : blockMean2 (fun c => a * f c) l c = a * blockMean2 f l c := by
  unfold blockMean2 blockSum2
  simp only [← Finset.mul_sum]
  ring

theorem mean_add2 (f g : Coord2 → ℝ) (l : Nat) (c : Coord2) : blockMean2 (fun c => f c + g c) l c = blockMean2 f l c + blockMean2 g l c := by
  unfold blockMean2 blockSum2
  simp only [Finset.sum_add_distrib]
  ring

theorem meanJ_in (nrays nincl : Nat) (hr : 0 < nrays) (w : List ℝ) (hw : ∀ x ∈ w, 0 ≤ x) (I : ProbeIdx2 → ℝ) (u v wave : Nat) {lo hi : ℝ} (hlh : lo ≤ hi)
    (hI : ∀ d th, d < nrays → th < nincl → lo ≤ I ⟨u, v, d, th, wave⟩ ∧ I ⟨u, v, d, th, wave⟩ ≤ hi) :
    lo * ∑ th ∈ Finset.range nincl, w.getD th 0 ≤ meanIntensity2 nrays nincl w I u v wave ∧
      meanIntensity2 nrays nincl w I u v wave ≤ hi * ∑ th ∈ Finset.range nincl, w.getD th 0 := by
  rw [mean_congr2 nrays nincl w I (fun p => if p.dir < nrays ∧ p.incl < nincl then I p else lo) u v wave wave
    (fun d th hd ht => by rw [if_pos ⟨hd, ht⟩])]
  refine mean2_in nrays nincl hr w hw _ u v wave fun d th => ?_
  by_cases h : d < nrays ∧ th < nincl
  · simp only [h, and_self, if_true]; exact hI d th h.1 h.2
  · simp only [h, if_false]; exact ⟨le_rfl, hlh⟩

end DexRT.Given
