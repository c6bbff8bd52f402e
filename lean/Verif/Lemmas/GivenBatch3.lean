import Verif.Lemmas.GivenMarch3
import Verif.Lemmas.Loops
import Verif.Lemmas.AtmosFile
/-! Lemmas for C88: one wavelength of a 3D run. -/
namespace DexRT.Given3
open DexRT DexRT.Fs DexRT.AtmosFile DexRT.Dir Classical

/-- the loop over the probes, unpacked -/
theorem probeCoord_ok (c : Casc3) (W D H i : Nat) (h0 : c.np0 = W) (h1 : c.np1 = D) (h2 : c.np2 = H)
    (hW0 : 0 < W) (hD0 : 0 < D) (hH0 : 0 < H) (hcl : W * D * H ≤ 2147483647) (hi : i < W * D * H) :
    probeCoord c i = .ok { x := ((i % W : Nat) : Int), y := ((i / W % D : Nat) : Int), z := ((i / W / D : Nat) : Int) } := by
  have hWD : W * D ≤ W * D * H := Nat.le_mul_of_pos_right _ hH0
  have hW : W ≤ W * D := Nat.le_mul_of_pos_right _ hD0
  have hD : D ≤ W * D := Nat.le_mul_of_pos_left _ hW0
  have hH : H ≤ W * D * H := Nat.le_mul_of_pos_left _ (Nat.mul_pos hW0 hD0)
  have hi' : (i : Int) < (H : Int) * ((D : Int) * ((W : Int) * 1)) := by
    have : ((i : Nat) : Int) < ((W * D * H : Nat) : Int) := by exact_mod_cast hi
    refine lt_of_lt_of_eq this ?_
    push_cast; ring
  have hp : (D : Int) * ((W : Int) * 1) ≤ i32Max := by
    have : ((W * D : Nat) : Int) ≤ i32Max := by unfold i32Max; omega
    refine le_trans (le_of_eq ?_) this
    push_cast; ring
  obtain ⟨t, ht, hb, hv⟩ := unpackGo_ok [(D : Int), (W : Int)] (H : Int) (i : Int) 0 (by
    intro b hb
    simp only [List.mem_cons, List.not_mem_nil, or_false] at hb
    unfold i32Max
    rcases hb with rfl | rfl <;> omega) (by unfold i32Max; omega) (by simpa [prodZ] using hp) (by omega) (by simpa [prodZ] using hi')
  obtain ⟨z, y, x, rfl⟩ : ∃ z y x, t = [z, y, x] := by
    match t, hb with
    | [z, y, x], _ => exact ⟨z, y, x, rfl⟩
    | [], hb => exact hb.elim
    | [_], hb => exact hb.2.2.elim
    | [_, _], hb => exact hb.2.2.2.2.elim
    | _ :: _ :: _ :: _ :: _, hb => exact hb.2.2.2.2.2.2.elim
  obtain ⟨hz0, hz1, hy0, hy1, hx0, hx1, -⟩ := hb
  simp only [radixVal, prodZ] at hv
  obtain ⟨Z, rfl⟩ := Int.eq_ofNat_of_zero_le hz0
  obtain ⟨Y, rfl⟩ := Int.eq_ofNat_of_zero_le hy0
  obtain ⟨X, rfl⟩ := Int.eq_ofNat_of_zero_le hx0
  have hY : Y < D := by exact_mod_cast hy1
  have hX : X < W := by exact_mod_cast hx1
  have hiv : i = X + W * (Y + D * Z) := by
    zify
    linarith
  have e1 : i % W = X := by rw [hiv]; exact mix_mod hX
  have e2 : i / W = Y + D * Z := by rw [hiv]; exact mix_div hX
  have e3 : i / W % D = Y := by rw [e2]; exact mix_mod hY
  have e4 : i / W / D = Z := by rw [e2]; exact mix_div hY
  unfold probeCoord
  rw [h0, h1, h2]
  have : unpack [(H : Int), D, W] (i : Int) = .ok [(Z : Int), Y, X] := ht
  rw [this, Outcome.ok_bind, e1, e3, e4]

theorem rcLoop_congr {K ι : Type} [Field K] (b1 b2 : List (List K) → ι → Outcome (Nat × K × K)) (i : Nat) (alo : Bool) :
    ∀ (l : List ι) (m : Mem K), (∀ it ∈ l, ∀ bufs, b1 bufs it = b2 bufs it) → rcLoop b1 i alo l m = rcLoop b2 i alo l m
  | [], _, _ => rfl
  | it :: l, m, h => by
    unfold rcLoop
    rw [h it (by simp) m.bufs]
    congr 1; funext r
    congr 1; funext b
    congr 1; funext b'
    congr 1; funext p
    exact rcLoop_congr b1 b2 i alo l _ (fun it hit => h it (by simp [hit]))

theorem addAll_congr {K ι : Type} [Field K] (f g : ι → Outcome (Int × Int × K)) : ∀ (l : List ι) (J : Arr2 K),
    (∀ i ∈ l, f i = g i) → addAll f l J = addAll g l J
  | [], _, _ => rfl
  | i :: l, J, h => by
    unfold addAll
    rw [h i (by simp)]
    congr 1; funext a
    congr 1; funext J'
    exact addAll_congr f g l J' (fun i hi => h i (by simp [hi]))

theorem runTasks_congr {K : Type} [Field K] (c1 c2 : Task → Mem K → Outcome (Mem K)) : ∀ (l : List Task) (m : Mem K),
    (∀ t ∈ l, ∀ m, c1 t m = c2 t m) → runTasks c1 l m = runTasks c2 l m
  | [], _, _ => rfl
  | t :: l, m, h => by
    unfold runTasks
    rw [h t (by simp) m]
    congr 1; funext m'
    exact runTasks_congr c1 c2 l m' (fun t ht => h t (by simp [ht]))

theorem mem_jIters3 {n p a : Nat} {i : JIter3} (h : i ∈ jIters3 n p a) : i.k < n := by
  unfold jIters3 at h
  simp only [List.mem_flatMap, List.mem_range, List.mem_map] at h
  obtain ⟨k, hk, _, _, _, _, rfl⟩ := h
  exact hk

theorem radiance3_congr {K : Type} [Field K] (m1 m2 : Bool → Nat → ProbeIdx3 → Seg K)
    (h : ∀ bc n p, (m1 bc n p).I = (m2 bc n p).I ∧ (m1 bc n p).T = (m2 bc n p).T) (Nx Ny Nz ba bp num : Nat) :
    ∀ m p, radiance3 m1 Nx Ny Nz ba bp num m p = radiance3 m2 Nx Ny Nz ba bp num m p
  | 0, p => (h true num p).1
  | m + 1, p => by
    unfold radiance3
    simp only [radiance3_congr m1 m2 h Nx Ny Nz ba bp num m, (h false (num - (m + 1)) p).1, (h false (num - (m + 1)) p).2]

variable {s : Settings} {k nx ny nz nw : Nat} {eta chi : Coord3 → Int → ℝ} {scale : ℝ} {g : Given}

theorem c0_np (s : Settings) (Nx Ny Nz : Nat) : (c0Of s Nx Ny Nz).np0 = Nx ∧ (c0Of s Nx Ny Nz).np1 = Ny ∧ (c0Of s Nx Ny Nz).np2 = Nz := by
  unfold c0Of raysToStorage3
  split <;> exact ⟨rfl, rfl, rfl⟩

theorem env_np0 (s : Settings) (Nx Ny Nz : Nat) (m : Bool → Nat → ProbeIdx3 → Seg ℝ) : (envOf s Nx Ny Nz m).c0.np0 = Nx := (c0_np s Nx Ny Nz).1
theorem env_np1 (s : Settings) (Nx Ny Nz : Nat) (m : Bool → Nat → ProbeIdx3 → Seg ℝ) : (envOf s Nx Ny Nz m).c0.np1 = Ny := (c0_np s Nx Ny Nz).2.1
theorem env_np2 (s : Settings) (Nx Ny Nz : Nat) (m : Bool → Nat → ProbeIdx3 → Seg ℝ) : (envOf s Nx Ny Nz m).c0.np2 = Nz := (c0_np s Nx Ny Nz).2.2

theorem rays_pos (hf : Fits s k nx ny nz) : 0 < s.cfg.c0az ∧ 0 < s.cfg.c0polar := by
  obtain ⟨o, q, -, h, -⟩ := hf.healpix
  rw [h, hf.polar]
  exact ⟨by positivity, by norm_num⟩

theorem npix_zero (hf : Fits s k nx ny nz) : npix3 (cascades s k nx ny nz) 0 = s.cfg.c0az := by
  obtain ⟨o, q, hb, h, -⟩ := hf.healpix
  have hp := (rays_pos hf).1
  show (cascadeComputeSize3 s.cfg (c0Of s _ _ _) 0).az = _
  unfold cascadeComputeSize3 c0Of raysToStorage3
  have hfac : azFactor s.cfg.branch 0 = 1 := by rw [hb]; simp [azFactor]
  by_cases hd : s.cfg.dirByDir = true
  · simp [hd, hfac, Nat.div_self hp]
  · simp [hd, hfac]

theorem cells_le (hf : Fits s k nx ny nz) : nx * 2 ^ k * (ny * 2 ^ k) * (nz * 2 ^ k) ≤ 2147483647 := by
  have h := hf.size.2.2.2.2
  have : ((nx * 2 ^ k * (ny * 2 ^ k) * (nz * 2 ^ k) : Nat) : Int) ≤ i32Max := by
    refine le_trans (le_of_eq ?_) h
    push_cast; ring
  unfold i32Max at this
  exact_mod_cast this

theorem sides_pos (hf : Fits s k nx ny nz) : 0 < nx * 2 ^ k ∧ 0 < ny * 2 ^ k ∧ 0 < nz * 2 ^ k :=
  have hp := Nat.two_pow_pos k
  ⟨Nat.mul_pos hf.pos.1 hp, Nat.mul_pos hf.pos.2.1 hp, Nat.mul_pos hf.pos.2.2 hp⟩

theorem probesOn_le (N n : Nat) (hN : 0 < N) : 0 < probesOn N n ∧ probesOn N n ≤ N := by
  unfold probesOn
  have := Nat.div_le_self N (2 ^ n)
  omega

theorem probes_le (hf : Fits s k nx ny nz) (n : Nat) :
    probesOn (nx * 2 ^ k) n * probesOn (ny * 2 ^ k) n * probesOn (nz * 2 ^ k) n ≤ 2147483647 := by
  obtain ⟨p0, p1, p2⟩ := sides_pos hf
  exact le_trans (Nat.mul_le_mul (Nat.mul_le_mul (probesOn_le _ n p0).2 (probesOn_le _ n p1).2) (probesOn_le _ n p2).2) (cells_le hf)

theorem env_dims (M : Bool → Nat → ProbeIdx3 → Seg ℝ) (n : Nat) : (envOf s (nx * 2 ^ k) (ny * 2 ^ k) (nz * 2 ^ k) M).probes n =
    { sparse := false, np := { x := probesOn (nx * 2 ^ k) n, y := probesOn (ny * 2 ^ k) n, z := probesOn (nz * 2 ^ k) n }, active := [] } := by
  have h := np_probesOn3 s.cfg.branch (c0Of s (nx * 2 ^ k) (ny * 2 ^ k) (nz * 2 ^ k)) n
  have h0 := c0_np s (nx * 2 ^ k) (ny * 2 ^ k) (nz * 2 ^ k)
  show (⟨false, probeDims3 s.cfg.branch _ n, []⟩ : Probes3) = _
  unfold probeDims3
  rw [h.1, h.2.1, h.2.2, h0.1, h0.2.1, h0.2.2]

theorem compute_np (M : Bool → Nat → ProbeIdx3 → Seg ℝ) (n : Nat) :
    let c := cascadeComputeSize3 (envOf s (nx * 2 ^ k) (ny * 2 ^ k) (nz * 2 ^ k) M).cfg (envOf s (nx * 2 ^ k) (ny * 2 ^ k) (nz * 2 ^ k) M).c0 n
    c.np0 = probesOn (nx * 2 ^ k) n ∧ c.np1 = probesOn (ny * 2 ^ k) n ∧ c.np2 = probesOn (nz * 2 ^ k) n := by
  have h0 := c0_np s (nx * 2 ^ k) (ny * 2 ^ k) (nz * 2 ^ k)
  show (max 1 (_ >>> n)) = _ ∧ (max 1 (_ >>> n)) = _ ∧ (max 1 (_ >>> n)) = _
  have h1 : (envOf s (nx * 2 ^ k) (ny * 2 ^ k) (nz * 2 ^ k) M).c0 = c0Of s (nx * 2 ^ k) (ny * 2 ^ k) (nz * 2 ^ k) := rfl
  rw [h1, h0.1, h0.2.1, h0.2.2]
  simp [probesOn, Nat.shiftRight_eq_div_pow]

/-- the probe loop of this kernel is that of the dynamic one -/
theorem coord_eq (hf : Fits s k nx ny nz) (M : Bool → Nat → ProbeIdx3 → Seg ℝ) (n i : Nat)
    (hi : i < probesOn (nx * 2 ^ k) n * probesOn (ny * 2 ^ k) n * probesOn (nz * 2 ^ k) n) :
    probeCoord (cascadeComputeSize3 (envOf s (nx * 2 ^ k) (ny * 2 ^ k) (nz * 2 ^ k) M).cfg (envOf s (nx * 2 ^ k) (ny * 2 ^ k) (nz * 2 ^ k) M).c0 n) i =
      ((envOf s (nx * 2 ^ k) (ny * 2 ^ k) (nz * 2 ^ k) M).probes n).coord i := by
  obtain ⟨c0, c1, c2⟩ := compute_np (s := s) (k := k) (nx := nx) (ny := ny) (nz := nz) M n
  obtain ⟨p0, p1, p2⟩ := sides_pos hf
  rw [env_dims, dense_coord3 _ _ _ _ (probesOn_le _ n p0).1 (probesOn_le _ n p1).1 (probesOn_le _ n p2).1 (probes_le hf n) hi]
  exact probeCoord_ok _ _ _ _ i c0 c1 c2 (probesOn_le _ n p0).1 (probesOn_le _ n p1).1 (probesOn_le _ n p2).1 (probes_le hf n) hi

theorem env_num (hf : Fits s k nx ny nz) (M : Bool → Nat → ProbeIdx3 → Seg ℝ) (n : Nat) :
    ((envOf s (nx * 2 ^ k) (ny * 2 ^ k) (nz * 2 ^ k) M).probes n).num =
      .ok ((probesOn (nx * 2 ^ k) n * probesOn (ny * 2 ^ k) n * probesOn (nz * 2 ^ k) n : Nat) : Int) := by
  obtain ⟨p0, p1, p2⟩ := sides_pos hf
  rw [env_dims]
  unfold Probes3.num mulI32
  simp only [Bool.false_eq_true, if_false]
  rw [if_pos]
  · push_cast; rfl
  · have := probes_le hf n
    have h2 := Nat.le_mul_of_pos_right (probesOn (nx * 2 ^ k) n * probesOn (ny * 2 ^ k) n) (probesOn_le _ n p2).1
    have e1 : ((probesOn (nx * 2 ^ k) n : Nat) : Int) * ((probesOn (ny * 2 ^ k) n : Nat) : Int) =
      ((probesOn (nx * 2 ^ k) n * probesOn (ny * 2 ^ k) n : Nat) : Int) := by push_cast; rfl
    rw [e1, fitsI32_iff]
    omega

/-- the kernel of this file on the loop of its cascade is that of the dynamic formal solution without boundary -/
theorem call_eq (hf : Fits s k nx ny nz) (M : Bool → Nat → ProbeIdx3 → Seg ℝ) (t : Nat) (sched : Task → List JIter3)
    (c : Task) (hbc : c.bc = false)
    (hs : ∀ it ∈ sched c, it.k < probesOn (nx * 2 ^ k) c.n * probesOn (ny * 2 ^ k) c.n * probesOn (nz * 2 ^ k) c.n) (m : Mem ℝ) :
    call (envOf s (nx * 2 ^ k) (ny * 2 ^ k) (nz * 2 ^ k) M) t sched c m = call3 (envOf s (nx * 2 ^ k) (ny * 2 ^ k) (nz * 2 ^ k) M) t sched c m := by
  unfold call call3
  refine rcLoop_congr _ _ _ _ _ _ fun it hit bufs => ?_
  unfold body body3
  simp only [coord_eq hf M c.n it.k (hs it hit), hbc]

theorem sched_ok (hf : Fits s k nx ny nz) (M : Bool → Nat → ProbeIdx3 → Seg ℝ) {o : WaveOrder} (ho : Orders s k nx ny nz o) (t : Nat) :
    Sched3 (envOf s (nx * 2 ^ k) (ny * 2 ^ k) (nz * 2 ^ k) M) t (o.rc t) := by
  intro c N hc hN
  rw [env_num hf] at hN
  injection hN with hN
  have hN : probesOn (nx * 2 ^ k) c.n * probesOn (ny * 2 ^ k) c.n * probesOn (nz * 2 ^ k) c.n = N := by exact_mod_cast hN
  rw [← hN]
  exact ho.rc t c hc

/-- One subset: cascade 0 holds the radiances. -/
theorem pass_ok (hf : Fits s k nx ny nz) (M : Bool → Nat → ProbeIdx3 → Seg ℝ) (hM : ∀ n p, M true n p = M false n p) {o : WaveOrder}
    (ho : Orders s k nx ny nz o) (t : Nat) (ht : t < subsetTasks3 s.cfg) (m : Mem ℝ) (hm : MemShape (bufSizes s k nx ny nz) m) :
    ∃ m' b, runTasks (call (envOf s (nx * 2 ^ k) (ny * 2 ^ k) (nz * 2 ^ k) M) t (o.rc t)) (tasks s.num) m = .ok m' ∧
      MemShape (bufSizes s k nx ny nz) m' ∧ m'.bufs[0]? = some b ∧ Holds3 (envOf s (nx * 2 ^ k) (ny * 2 ^ k) (nz * 2 ^ k) M) t 0 b := by
  have hs := sched_ok hf M ho t
  have hr : Rays3 (envOf s (nx * 2 ^ k) (ny * 2 ^ k) (nz * 2 ^ k) M) := rays_pos hf
  have hno : NoOverflow3 (envOf s (nx * 2 ^ k) (ny * 2 ^ k) (nz * 2 ^ k) M) := hf.products
  have hbf : BuffersFit3 (envOf s (nx * 2 ^ k) (ny * 2 ^ k) (nz * 2 ^ k) M) (bufSizes s k nx ny nz) := hf.buffers
  have hp : Probes3Ok (envOf s (nx * 2 ^ k) (ny * 2 ^ k) (nz * 2 ^ k) M) := by
    refine (C74_probes_dense3 (envOf s (nx * 2 ^ k) (ny * 2 ^ k) (nz * 2 ^ k) M) ?_ ?_ fun n _ => ?_).1
    · rw [env_np0, env_np1, env_np2]; exact sides_pos hf
    · rw [env_np0, env_np1, env_np2]; exact cells_le hf
    · rw [env_np0, env_np1, env_np2]; exact env_dims M n
  set e := envOf s (nx * 2 ^ k) (ny * 2 ^ k) (nz * 2 ^ k) M with he
  have hfit := fits3 e hbf
  obtain ⟨m0, b0, a1, a2, a3, a4, a5, a6⟩ := call3_ok e hr hno hp ht hs hfit ⟨s.num, false, false⟩
    (le_refl _) (by simp) m hm (by simp) (fun h => absurd h (by show ¬ s.num < s.num; omega))
  have htop : ∀ p, callVal3 e true s.num p = callVal3 e false s.num p := by
    intro p
    unfold callVal3
    rw [show e.march true s.num p = e.march false s.num p from hM _ _]
  obtain ⟨m', d1, d2, d3, d4⟩ := middle3 e hr hno hp ht hs hfit 0 s.num (by show 0 + s.num ≤ s.num; omega) m0 a2
    (by
      rw [Nat.zero_add]
      exact ⟨b0, a5, fun p h1 h2 => by rw [show val3 e s.num p = _ from val3_top e p]; rw [show callVal3 e true e.num p = _ from htop p]; exact (a6 p h1 h2).1⟩)
  obtain ⟨b, d5, d6⟩ := d4
  rw [bufOf_zero] at d5
  refine ⟨m', b, ?_, d2, d5, d6⟩
  have hrw : runTasks (call e t (o.rc t)) (tasks s.num) m = runTasks (call3 e t (o.rc t)) (tasks s.num) m := by
    refine runTasks_congr _ _ _ _ fun c hc m => ?_
    unfold tasks at hc
    simp only [List.mem_map, List.mem_reverse, List.mem_range] at hc
    obtain ⟨n, hn, rfl⟩ := hc
    refine call_eq hf M t (o.rc t) _ rfl (fun it hit => ?_) m
    have := (ho.rc t ⟨n, false, false⟩ (by show n ≤ s.num; omega)).mem_iff.1 hit
    exact mem_jIters3 this
  rw [hrw]
  unfold tasks
  rw [List.range_succ, List.reverse_append, List.reverse_singleton, List.singleton_append, List.map_cons]
  show (call3 e t (o.rc t) ⟨s.num, false, false⟩ m).bind _ = _
  rw [a1]
  have d1' := d1
  simp only [Nat.zero_add] at d1'
  exact d1'

/-- what the merge to J of the dynamic formal solution would read in this run -/
def mergeOf (s : Settings) (g : Given) (Nx Ny Nz : Nat) : MergeEnv3 :=
  { cfg := s.cfg, s := c0Of s Nx Ny Nz, P := { sparse := false, np := probeDims3 s.cfg.branch (c0Of s Nx Ny Nz) 0, active := [] }, B := s.B, bm := g.bm }

theorem merge_probes (hf : Fits s k nx ny nz) : (mergeOf s g (nx * 2 ^ k) (ny * 2 ^ k) (nz * 2 ^ k)).P =
    { sparse := false, np := { x := (nx * 2 ^ k : Nat), y := (ny * 2 ^ k : Nat), z := (nz * 2 ^ k : Nat) }, active := [] } := by
  have h := env_dims (s := s) (k := k) (nx := nx) (ny := ny) (nz := nz) (fun _ _ _ => ⟨0, 0, 0⟩) 0
  obtain ⟨p0, p1, p2⟩ := sides_pos hf
  have q : ∀ N, 0 < N → probesOn N 0 = N := by
    intro N hN
    unfold probesOn
    simp only [pow_zero, Nat.div_one]
    omega
  rw [q _ p0, q _ p1, q _ p2] at h
  exact h

theorem merge_run (hf : Fits s k nx ny nz) (hg : Good s k nx ny nz nw eta chi scale g) :
    Run3 (mergeOf s g (nx * 2 ^ k) (ny * 2 ^ k) (nz * 2 ^ k)) k nx ny nz (fun _ => True) where
  rays := rays_pos hf
  block := hf.block
  axes := ⟨(bounds hf).1, (bounds hf).2.1, (bounds hf).2.2.1⟩
  cells := by
    have := cells_le hf
    unfold i32Max
    exact_mod_cast this
  some_cells := hf.pos
  map := hg.map
  probes := by rw [merge_probes hf]
  storage := rfl
  active := fun h => absurd h (by simp [mergeOf])

/-- the addition of an iteration to J is that of the dynamic formal solution -/
theorem jBody_eq (hf : Fits s k nx ny nz) (M : Bool → Nat → ProbeIdx3 → Seg ℝ) (la : Nat) (c0 : List ℝ) (i : JIter3)
    (hi : i.k < nx * 2 ^ k * (ny * 2 ^ k) * (nz * 2 ^ k)) :
    jBody (envOf s (nx * 2 ^ k) (ny * 2 ^ k) (nz * 2 ^ k) M) la c0 i = jBody3 (mergeOf s g (nx * 2 ^ k) (ny * 2 ^ k) (nz * 2 ^ k)) la c0 i := by
  obtain ⟨p0, p1, p2⟩ := sides_pos hf
  have q : ∀ N, 0 < N → probesOn N 0 = N := by
    intro N hN
    unfold probesOn
    simp only [pow_zero, Nat.div_one]
    omega
  obtain ⟨c0', c1, c2⟩ := compute_np (s := s) (k := k) (nx := nx) (ny := ny) (nz := nz) M 0
  rw [q _ p0] at c0'
  rw [q _ p1] at c1
  rw [q _ p2] at c2
  have hcl := cells_le hf
  have h1 := probeCoord_ok _ _ _ _ i.k c0' c1 c2 p0 p1 p2 hcl hi
  have h2 := dense_coord3 _ _ _ i.k p0 p1 p2 hcl hi
  unfold jBody jBody3
  rw [h1, merge_probes hf, h2, Outcome.ok_bind, Outcome.ok_bind]
  have hks : (mergeOf s g (nx * 2 ^ k) (ny * 2 ^ k) (nz * 2 ^ k)).ks
      { x := ((i.k % (nx * 2 ^ k) : Nat) : Int), y := ((i.k / (nx * 2 ^ k) % (ny * 2 ^ k) : Nat) : Int), z := ((i.k / (nx * 2 ^ k) / (ny * 2 ^ k) : Nat) : Int) } = .ok (i.k : Int) := by
    unfold MergeEnv3.ks
    rw [merge_probes hf]
    simp only [Bool.false_eq_true, if_false]
    generalize nx * 2 ^ k = W at *
    generalize ny * 2 ^ k = D at *
    generalize nz * 2 ^ k = H at *
    have hdm := Nat.div_add_mod i.k W
    have hdm2 := Nat.div_add_mod (i.k / W) D
    have hle : i.k / W ≤ i.k := Nat.div_le_self _ _
    have hc : D * (i.k / W / D) ≤ i.k / W := by omega
    have hmul : mulI32 ((i.k / W / D : Nat) : Int) (D : Int) = .ok ((D * (i.k / W / D) : Nat) : Int) := by
      unfold mulI32
      rw [show ((i.k / W / D : Nat) : Int) * (D : Int) = ((D * (i.k / W / D) : Nat) : Int) by push_cast; ring, if_pos]
      rw [fitsI32_iff]; omega
    rw [hmul, Outcome.ok_bind, if_pos]
    · congr 1
      rw [← Nat.cast_add, hdm2, ← Nat.cast_mul, ← Nat.cast_add]
      congr 1
      rw [mul_comm]; exact hdm
    · rw [← Nat.cast_add, hdm2, fitsI32_iff]; omega
  rw [hks, Outcome.ok_bind]
  rfl

theorem addAll_rows {K ι : Type} [Field K] (f : ι → Outcome (Int × Int × K)) : ∀ (l : List ι) (J J' : Arr2 K),
    addAll f l J = .ok J' → J'.rows = J.rows
  | [], J, J', h => by injection h with h; rw [h]
  | i :: l, J, J', h => by
    unfold addAll at h
    obtain ⟨a, -, h⟩ := AtmosFile.obind h
    obtain ⟨J1, h1, h⟩ := AtmosFile.obind h
    rw [addAll_rows f l J1 J' h]
    unfold Arr2.add at h1
    split at h1
    · injection h1 with h1; rw [← h1]
    · exact absurd h1 (by simp)

/-- One wavelength. -/
theorem wave_ok (hf : Fits s k nx ny nz) (hg : Good s k nx ny nz nw eta chi scale g) (o : WaveOrder) (la : Nat) (hla : la < nw)
    (ho : Orders s k nx ny nz o) :
    ∃ march, Marches3 (fileWorld k nx ny nz eta chi scale) (envOf s (nx * 2 ^ k) (ny * 2 ^ k) (nz * 2 ^ k) march) s.len la ∧
      ∀ J : Arr2 ℝ, J.cols = nx * 2 ^ k * (ny * 2 ^ k) * (nz * 2 ^ k) → la < J.rows →
        ∃ J', wave3 s g o la J = .ok J' ∧ J'.rows = J.rows ∧ J'.cols = J.cols ∧
          (∀ x y z, x < nx * 2 ^ k → y < ny * 2 ^ k → z < nz * 2 ^ k →
            J'.get la ((z * (ny * 2 ^ k) + y) * (nx * 2 ^ k) + x) = J.get la ((z * (ny * 2 ^ k) + y) * (nx * 2 ^ k) + x) +
              meanIntensity3 s.cfg.c0az s.cfg.c0polar (radiance3 march (nx * 2 ^ k) (ny * 2 ^ k) (nz * 2 ^ k)
                (upperTexels3 s.cfg.branch).1 (upperTexels3 s.cfg.branch).2 s.num s.num) x y z) ∧
          ∀ r a, r ≠ la → J'.get r a = J.get r a := by
  obtain ⟨emis, a1, a2⟩ := copy_ok hf hg eta la hla o.copy ho.copy o.oldEmis g.lk
  obtain ⟨opac, b1, b2⟩ := copy_ok hf hg chi la hla o.copy ho.copy o.oldOpac g.lk
  obtain ⟨lk, p1, p2⟩ := pack_ok hf hg o.tiles ho.tiles
  have he : StoredAt3 (2 ^ k) nx ny nz (fun _ => True) (mrOf s g lk) 0 emis (fun c => eta c la) := a2
  have hc : StoredAt3 (2 ^ k) nx ny nz (fun _ => True) (mrOf s g lk) 0 opac (fun c => chi c la) := b2
  have hray := fun bc n p sg => ray_iff hf hg lk o la emis opac he hc p2 bc n p sg
  have hNx : g.nx.toNat = nx * 2 ^ k := by rw [hg.sx, ← Nat.cast_mul, Int.toNat_natCast]
  have hNy : g.ny.toNat = ny * 2 ^ k := by rw [hg.sy, ← Nat.cast_mul, Int.toNat_natCast]
  have hNz : g.nz.toNat = nz * 2 ^ k := by rw [hg.sz, ← Nat.cast_mul, Int.toNat_natCast]
  obtain ⟨ord, q, hbr, haz, hq⟩ := hf.healpix
  obtain ⟨⟨m1, hm1⟩, huniq⟩ := C79_dense3 (cascades s k nx ny nz) (fileWorld k nx ny nz eta chi scale) s.len la
    (by show (1 : ℤ) ≤ ((2 ^ k : Nat) : ℤ); exact_mod_cast Nat.one_le_two_pow) (fun n c hc => file_dense n c hc) ord q hbr
    (by rw [npix_zero hf, haz]) hq hf.length
  obtain ⟨M, hM⟩ : ∃ M, M = marchOf (memArgs s g lk o emis opac (nx * 2 ^ k) (ny * 2 ^ k) (nz * 2 ^ k)) := ⟨_, rfl⟩
  have hMb : ∀ n p, M true n p = M false n p := by intro n p; rw [hM]; rfl
  have hspec : ∀ bc n p sg, MarchRay3 (fileWorld k nx ny nz eta chi scale) (cascades s k nx ny nz) s.len la bc n p sg →
      (M bc n p).I = sg.I ∧ (M bc n p).T = sg.T := by
    intro bc n p sg hsg
    haveI : Nonempty (Seg ℝ) := ⟨⟨0, 0, 0⟩⟩
    have h1 : StaticRay (memArgs s g lk o emis opac (nx * 2 ^ k) (ny * 2 ^ k) (nz * 2 ^ k)) n p (M bc n p) := by
      rw [hM]
      exact Classical.epsilon_spec (p := StaticRay (memArgs s g lk o emis opac (nx * 2 ^ k) (ny * 2 ^ k) (nz * 2 ^ k)) n p)
        ⟨_, (hray bc n p ⟨sg.I, sg.T, 0⟩).2 ⟨sg, hsg, rfl⟩⟩
    obtain ⟨s', h2, h3⟩ := (hray bc n p _).1 h1
    have := huniq bc n p s' sg h2 hsg
    rw [h3, this]
    exact ⟨rfl, rfl⟩
  obtain ⟨M', hM'⟩ : ∃ M' : Bool → Nat → ProbeIdx3 → Seg ℝ, M' = fun bc n p => ⟨(M bc n p).I, (M bc n p).T, (m1 bc n p).psi⟩ := ⟨_, rfl⟩
  have hsame : ∀ bc n p, MarchRay3 (fileWorld k nx ny nz eta chi scale) (cascades s k nx ny nz) s.len la bc n p (m1 bc n p) →
      MarchRay3 (fileWorld k nx ny nz eta chi scale) (cascades s k nx ny nz) s.len la bc n p (M' bc n p) := by
    intro bc n p h
    have : M' bc n p = m1 bc n p := by
      obtain ⟨i1, i2⟩ := hspec bc n p _ h
      rw [hM']
      show (⟨(M bc n p).I, (M bc n p).T, (m1 bc n p).psi⟩ : Seg ℝ) = _
      rw [i1, i2]
    rw [this]; exact h
  refine ⟨M', ⟨fun n p hn hr => ?_, fun p hr => ?_⟩, fun J hcols hrows => ?_⟩
  · exact hsame false n p (hm1.1 n p hn ⟨hr.u, hr.v, hr.w, hr.az, hr.polar⟩)
  · exact hsame true s.num p (hm1.2 p ⟨hr.u, hr.v, hr.w, hr.az, hr.polar⟩)
  · have hrun := merge_run hf hg
    have hP : (envOf s (nx * 2 ^ k) (ny * 2 ^ k) (nz * 2 ^ k) M).probes 0 = (mergeOf s g (nx * 2 ^ k) (ny * 2 ^ k) (nz * 2 ^ k)).P := rfl
    obtain ⟨m', J', f1, f2, f3, f4, f5⟩ := J3_of_pass (envOf s (nx * 2 ^ k) (ny * 2 ^ k) (nz * 2 ^ k) M)
      (mergeOf s g (nx * 2 ^ k) (ny * 2 ^ k) (nz * 2 ^ k)) k nx ny nz (fun _ => True) hrun rfl rfl hP o.j (fun t n hn => by
        have hnum : n = ((nx * 2 ^ k * (ny * 2 ^ k) * (nz * 2 ^ k) : Nat) : Int) := by
          rw [← hP, env_num hf] at hn
          injection hn with hn
          rw [← hn]
          obtain ⟨p0, p1, p2⟩ := sides_pos hf
          have q : ∀ N, 0 < N → probesOn N 0 = N := by
            intro N hN
            unfold probesOn
            simp only [pow_zero, Nat.div_one]
            omega
          rw [q _ p0, q _ p1, q _ p2]
        rw [hnum, Int.toNat_natCast]
        exact ho.j t) la (bufSizes s k nx ny nz) hf.buffers o.mem ho.mem
      (fun t m => runTasks (call (envOf s (nx * 2 ^ k) (ny * 2 ^ k) (nz * 2 ^ k) M) t (o.rc t)) (tasks s.num) m)
      (fun t ht m hm => pass_ok hf M hMb ho t ht m hm) J (by
        unfold jCols3
        rw [if_neg (by simp [mergeOf]), hcols]
        push_cast; ring) (Or.inr hrows)
    have hrow : (if J.rows = 1 then 0 else la) = la := by
      split
      · omega
      · rfl
    simp only [hrow] at f4 f5
    refine ⟨J', ?_, f2, f3, fun x y z hx hy hz => ?_, f5⟩
    · unfold wave3
      rw [hg.emis, hg.opac, a1, Outcome.ok_bind, b1, Outcome.ok_bind, p1, Outcome.ok_bind, hNx, hNy, hNz]
      simp only [← hM]
      have hsub : ∀ (ts : List Nat) (m : Mem ℝ) (J1 : Arr2 ℝ), J1.rows = J.rows →
          subsets (envOf s (nx * 2 ^ k) (ny * 2 ^ k) (nz * 2 ^ k) M) la o.rc o.j ts m J1 =
          passesJ (fun t m => runTasks (call (envOf s (nx * 2 ^ k) (ny * 2 ^ k) (nz * 2 ^ k) M) t (o.rc t)) (tasks s.num) m)
            (fun t c0 J => mergeC0ToJ3 (mergeOf s g (nx * 2 ^ k) (ny * 2 ^ k) (nz * 2 ^ k)) la c0 (o.j t) J) ts m J1 := by
        intro ts
        induction ts with
        | nil => intro m J1 _; rfl
        | cons t ts ih =>
          intro m J1 hJ1
          unfold subsets passesJ
          congr 1; funext m2
          congr 1; funext c0
          have hmerge : addAll (jBody (envOf s (nx * 2 ^ k) (ny * 2 ^ k) (nz * 2 ^ k) M) la c0) (o.j t) J1 =
              mergeC0ToJ3 (mergeOf s g (nx * 2 ^ k) (ny * 2 ^ k) (nz * 2 ^ k)) la c0 (o.j t) J1 := by
            unfold mergeC0ToJ3
            rw [hJ1, hrow]
            refine addAll_congr _ _ _ _ fun i hi => jBody_eq hf M la c0 i ?_
            exact mem_jIters3 ((ho.j t).mem_iff.1 hi)
          rw [hmerge]
          cases hJ2 : mergeC0ToJ3 (mergeOf s g (nx * 2 ^ k) (ny * 2 ^ k) (nz * 2 ^ k)) la c0 (o.j t) J1 with
          | ok J2 =>
            rw [Outcome.ok_bind, Outcome.ok_bind]
            refine ih m2 J2 ?_
            rw [← hJ1]
            exact addAll_rows _ _ _ _ hJ2
          | throws => rfl
          | ub => rfl
      rw [hsub _ _ _ rfl]
      have f1' : passesJ (fun t m => runTasks (call (envOf s (nx * 2 ^ k) (ny * 2 ^ k) (nz * 2 ^ k) M) t (o.rc t)) (tasks s.num) m)
            (fun t c0 J => mergeC0ToJ3 (mergeOf s g (nx * 2 ^ k) (ny * 2 ^ k) (nz * 2 ^ k)) la c0 (o.j t) J) (List.range (subsetTasks3 s.cfg)) o.mem J = .ok (m', J') := f1
      rw [f1']; rfl
    · obtain ⟨a, q1, q2, q3⟩ := f4 ⟨x, y, z⟩ (by
        unfold Computed3; rw [if_neg (by simp [mergeOf])]
        exact ⟨by positivity, Int.ofNat_lt.2 hx, by positivity, Int.ofNat_lt.2 hy, by positivity, Int.ofNat_lt.2 hz⟩)
      have ha : (z * (ny * 2 ^ k) + y) * (nx * 2 ^ k) + x = a := by
        refine (q2 _).1 ?_
        unfold JAddr3
        rw [if_neg (by simp [mergeOf]), hrun.probes]
        push_cast; ring
      rw [ha, q3, env_np0, env_np1, env_np2]
      congr 1
      have hI : radiance3 M (nx * 2 ^ k) (ny * 2 ^ k) (nz * 2 ^ k) (upperTexels3 s.cfg.branch).1 (upperTexels3 s.cfg.branch).2 s.num s.num =
          radiance3 M' (nx * 2 ^ k) (ny * 2 ^ k) (nz * 2 ^ k) (upperTexels3 s.cfg.branch).1 (upperTexels3 s.cfg.branch).2 s.num s.num := by
        funext p
        exact radiance3_congr M M' (fun bc n p => by rw [hM']; exact ⟨rfl, rfl⟩) _ _ _ _ _ _ _ p
      show meanIntensity3 s.cfg.c0az s.cfg.c0polar (radiance3 M _ _ _ _ _ s.num s.num) _ _ _ = _
      rw [show (upperTexels3 (envOf s (nx * 2 ^ k) (ny * 2 ^ k) (nz * 2 ^ k) M).cfg.branch) = upperTexels3 s.cfg.branch from rfl, hI]
      rfl

end DexRT.Given3
