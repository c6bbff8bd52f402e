import Verif.Lemmas.FormalSol3b
/-! Helper lemmas for the 3D formal solution: probe loops. -/
namespace DexRT.Fs
open DexRT

variable {K : Type} [Field K] [CharZero K]

omit [CharZero K] in
theorem fits3 (e : Env3 K) {sizes : List Nat} (h : BuffersFit3 e sizes) :
    Fits e.pp sizes (fun n => cascadeEntries3 (cascadeSize3 e.cfg.branch e.c0 n)) e.num := by
  intro n hn
  have := h n hn
  rw [cascadeIndices_eq] at this
  exact this

theorem dense_coord3 (W D H i : Nat) (hW0 : 0 < W) (hD0 : 0 < D) (hH0 : 0 < H) (hcl : W * D * H ≤ 2147483647)
    (hi : i < W * D * H) :
    Probes3.coord { sparse := false, np := { x := W, y := D, z := H }, active := [] } i =
      .ok { x := ((i % W : Nat) : Int), y := ((i / W % D : Nat) : Int), z := ((i / W / D : Nat) : Int) } := by
  have hWD : W * D ≤ W * D * H := Nat.le_mul_of_pos_right _ hH0
  have eWD : (W : Int) * D = ((W * D : Nat) : Int) := by push_cast; ring
  have hstride : mulI32 (W : Int) D = .ok ((W * D : Nat) : Int) := by
    unfold mulI32; rw [eWD, if_pos]; rw [fitsI32_iff]; omega
  have hm : i % W < W := Nat.mod_lt _ hW0
  have hdm := Nat.div_add_mod i W
  have hdm2 := Nat.div_add_mod (i / W) D
  have htd : i / (W * D) = i / W / D := (Nat.div_div_eq_div_mul i W D).symm
  have etd : (i : Int).tdiv ((W * D : Nat) : Int) = ((i / W / D : Nat) : Int) := by
    rw [Int.tdiv_eq_ediv_of_nonneg (by omega), ← htd]; push_cast; rfl
  generalize hq : i / W = q at *
  generalize i % W = m at *
  generalize hz : q / D = z at *
  generalize q % D = y at *
  have hq2 : i = m + W * (y + D * z) := by rw [← hdm, ← hdm2]; ring
  have hzle : z * (W * D) ≤ i := by
    rw [hq2]; calc z * (W * D) = W * (D * z) := by ring
      _ ≤ m + W * (y + D * z) := by
        have : W * (D * z) ≤ W * (y + D * z) := Nat.mul_le_mul_left _ (by omega)
        omega
  have hrem : i - z * (W * D) = m + W * y := by
    rw [hq2, show m + W * (y + D * z) = (m + W * y) + z * (W * D) by ring]; omega
  have hoff : mulI32 (z : Int) ((W * D : Nat) : Int) = .ok ((z * (W * D) : Nat) : Int) := by
    unfold mulI32
    rw [show (z : Int) * ((W * D : Nat) : Int) = ((z * (W * D) : Nat) : Int) by push_cast; ring, if_pos]
    rw [fitsI32_iff]; omega
  have hremI : (i : Int) - ((z * (W * D) : Nat) : Int) = ((m + W * y : Nat) : Int) := by omega
  have htd2 : (((m + W * y : Nat) : Int)).tdiv (W : Int) = (y : Int) := by
    rw [Int.tdiv_eq_ediv_of_nonneg (by omega)]
    have : (m + W * y) / W = y := mix_div hm
    rw [← Int.natCast_ediv, this]
  have ho2 : mulI32 (y : Int) (W : Int) = .ok ((W * y : Nat) : Int) := by
    unfold mulI32
    rw [show (y : Int) * (W : Int) = ((W * y : Nat) : Int) by push_cast; ring, if_pos]
    rw [fitsI32_iff]; omega
  unfold Probes3.coord
  simp only [Bool.false_eq_true, if_false]
  rw [hstride]
  simp only [Outcome.ok_bind, etd, hoff, hremI, htd2, ho2]
  congr 2
  omega

/-- a run without sparsity: every probe of every cascade is computed -/
theorem dense_ok3 (e : Env3 K) (hpos : 0 < e.c0.np0 ∧ 0 < e.c0.np1 ∧ 0 < e.c0.np2)
    (hfit : e.c0.np0 * e.c0.np1 * e.c0.np2 ≤ 2147483647)
    (h : ∀ n, n ≤ e.num → e.probes n =
      { sparse := false, np := { x := probesOn e.c0.np0 n, y := probesOn e.c0.np1 n, z := probesOn e.c0.np2 n },
        active := [] }) :
    Probes3Ok e ∧ ∀ n, n ≤ e.num → ∀ u v w, u < probesOn e.c0.np0 n → v < probesOn e.c0.np1 n →
      w < probesOn e.c0.np2 n → Listed3 e n u v w := by
  have hle : ∀ N n, 0 < N → 0 < probesOn N n ∧ probesOn N n ≤ N := by
    intro N n hN
    unfold probesOn
    have := Nat.div_le_self N (2 ^ n)
    omega
  have hprod : ∀ n, probesOn e.c0.np0 n * probesOn e.c0.np1 n * probesOn e.c0.np2 n ≤ 2147483647 := by
    intro n
    exact le_trans (Nat.mul_le_mul (Nat.mul_le_mul (hle _ n hpos.1).2 (hle _ n hpos.2.1).2) (hle _ n hpos.2.2).2) hfit
  have hnum : ∀ n, n ≤ e.num → (e.probes n).num =
      .ok (((probesOn e.c0.np0 n * probesOn e.c0.np1 n * probesOn e.c0.np2 n : Nat)) : Int) := by
    intro n hn
    rw [h n hn]
    unfold Probes3.num mulI32
    simp only [Bool.false_eq_true, if_false]
    rw [if_pos]
    · push_cast; rfl
    · have := hprod n
      have h2 := Nat.le_mul_of_pos_right (probesOn e.c0.np0 n * probesOn e.c0.np1 n) (hle _ n hpos.2.2).1
      have e1 : ((probesOn e.c0.np0 n : Nat) : Int) * ((probesOn e.c0.np1 n : Nat) : Int) =
        ((probesOn e.c0.np0 n * probesOn e.c0.np1 n : Nat) : Int) := by push_cast; rfl
      rw [e1, fitsI32_iff]
      omega
  have hlisted : ∀ n, n ≤ e.num → ∀ u v w, u < probesOn e.c0.np0 n → v < probesOn e.c0.np1 n →
      w < probesOn e.c0.np2 n → Listed3 e n u v w := by
    intro n hn u v w hu hv hw
    have hlt := mix_lt hv hw
    have hlt2 := mix_lt hu hlt
    rw [← Nat.mul_assoc] at hlt2
    refine ⟨u + probesOn e.c0.np0 n * (v + probesOn e.c0.np1 n * w), _, hnum n hn, by exact_mod_cast hlt2, ?_⟩
    rw [h n hn, dense_coord3 _ _ _ _ (hle _ n hpos.1).1 (hle _ n hpos.2.1).1 (hle _ n hpos.2.2).1 (hprod n) hlt2]
    simp only [mix_mod hu, mix_div hu, mix_mod hv, mix_div hv]
  refine ⟨⟨fun n hn => ⟨_, hnum n hn, fun k hk => ?_⟩,
    fun n hn u v w _ U V W hU hV hW _ _ _ => hlisted (n + 1) (by omega) U V W hU hV hW⟩, hlisted⟩
  refine ⟨k % probesOn e.c0.np0 n, k / probesOn e.c0.np0 n % probesOn e.c0.np1 n,
    k / probesOn e.c0.np0 n / probesOn e.c0.np1 n, ?_, Nat.mod_lt _ (hle _ n hpos.1).1,
    Nat.mod_lt _ (hle _ n hpos.2.1).1, ?_⟩
  · rw [h n hn]
    exact dense_coord3 _ _ _ _ (hle _ n hpos.1).1 (hle _ n hpos.2.1).1 (hle _ n hpos.2.2).1 (hprod n) hk
  · rw [Nat.div_lt_iff_lt_mul (hle _ n hpos.2.1).1, Nat.div_lt_iff_lt_mul (hle _ n hpos.1).1]
    calc k < probesOn e.c0.np0 n * probesOn e.c0.np1 n * probesOn e.c0.np2 n := hk
      _ = _ := by ring

/-- the lists of a sparse 3D run are usable -/
theorem sparse_ok3 (e : Env3 K) (k nx ny nz : Nat) (Active : Coord3 → Prop) (bm : BlockMap Coord3)
    (hx : FitsI32Axis k nx) (hy : FitsI32Axis k ny) (hz : FitsI32Axis k nz)
    (hm : MapFor3 (2 ^ k) nx ny nz Active bm)
    (h0 : e.c0.np0 = nx * 2 ^ k) (h1 : e.c0.np1 = ny * 2 ^ k) (h2 : e.c0.np2 = nz * 2 ^ k)
    (hpr : ∀ n, n ≤ e.num → (e.probes n).sparse = true ∧
      activeList3 (2 ^ k) bm (probeDims3 e.cfg.branch e.c0) n = .ok (e.probes n).active) : Probes3Ok e := by
  have hnum : ∀ n, n ≤ e.num → (e.probes n).num = .ok (((e.probes n).active.length : Nat) : Int) := by
    intro n hn
    unfold Probes3.num
    rw [if_pos (hpr n hn).1]
  have hcoord : ∀ n, n ≤ e.num → ∀ k c, (e.probes n).active[k]? = some c → (e.probes n).coord k = .ok c := by
    intro n hn k c hc
    unfold Probes3.coord
    rw [if_pos (hpr n hn).1, hc]
  have hin : ∀ n, n ≤ e.num → ∀ c ∈ (e.probes n).active, 0 ≤ c.x ∧ c.x < ((probesOn e.c0.np0 n : Nat) : Int) ∧
      0 ≤ c.y ∧ c.y < ((probesOn e.c0.np1 n : Nat) : Int) ∧ 0 ≤ c.z ∧ c.z < ((probesOn e.c0.np2 n : Nat) : Int) := by
    intro n hn c hc
    obtain ⟨l, u, l1, -, -, -, l5, -⟩ := C21_closed e.cfg.branch e.c0 k nx ny nz Active bm hx hy hz hm h0 h1 h2 n
    rw [(hpr n hn).2] at l1; injection l1 with l1; subst l1
    have hd := l5 c hc
    unfold inDims3 at hd; rw [decide_eq_true_eq] at hd
    unfold probeDims3 at hd
    have e0 := np_probesOn3 e.cfg.branch e.c0 n
    simp only [e0.1, e0.2.1, e0.2.2] at hd
    omega
  refine ⟨fun n hn => ⟨_, hnum n hn, fun i hi => ?_⟩, fun n hn u v w hl U V W hU hV hW hwU hwV hwW => ?_⟩
  · have hget : (e.probes n).active[i]? = some (e.probes n).active[i] := List.getElem?_eq_getElem hi
    have hd := hin n hn _ (List.getElem_mem hi)
    refine ⟨(e.probes n).active[i].x.toNat, (e.probes n).active[i].y.toNat, (e.probes n).active[i].z.toNat, ?_,
      by omega, by omega, by omega⟩
    rw [hcoord n hn i _ hget, Int.toNat_of_nonneg (by omega), Int.toNat_of_nonneg (by omega),
      Int.toNat_of_nonneg (by omega)]
  · obtain ⟨i, N, hN, hi, hc⟩ := hl
    rw [hnum n (by omega)] at hN; injection hN with hN
    have hi' : i < (e.probes n).active.length := by omega
    have hget : (e.probes n).active[i]? = some (e.probes n).active[i] := List.getElem?_eq_getElem hi'
    rw [hcoord n (by omega) i _ hget] at hc; injection hc with hc
    have hmem : ({ x := (u : Int), y := (v : Int), z := (w : Int) } : Coord3) ∈ (e.probes n).active :=
      hc ▸ List.getElem_mem hi'
    obtain ⟨lo, up, g1, g2, -, -, -, g6⟩ := C21_closed e.cfg.branch e.c0 k nx ny nz Active bm hx hy hz hm h0 h1 h2 n
    rw [(hpr n (by omega)).2] at g1; injection g1 with g1; subst g1
    rw [(hpr (n + 1) (by omega)).2] at g2; injection g2 with g2; subst g2
    have hd := hin n (by omega) _ hmem
    simp only at hd
    have cu : cornerN u < probesOn e.c0.np0 (n + 1) := cornerN_lt (by omega)
    have cv : cornerN v < probesOn e.c0.np1 (n + 1) := cornerN_lt (by omega)
    have cw : cornerN w < probesOn e.c0.np2 (n + 1) := cornerN_lt (by omega)
    have e1 := np_probesOn3 e.cfg.branch e.c0 (n + 1)
    have hD : probeDims3 e.cfg.branch e.c0 (n + 1) =
        { x := ((probesOn e.c0.np0 (n + 1) : Nat) : Int), y := ((probesOn e.c0.np1 (n + 1) : Nat) : Int), z := ((probesOn e.c0.np2 (n + 1) : Nat) : Int) } := by
      unfold probeDims3; rw [e1.1, e1.2.1, e1.2.2]
    have key := g6 _ hmem
    simp only [hD] at key
    have tri := trilinear_nat u v w _ _ _ cu cv cw
    obtain ⟨bu, rfl, wu⟩ := axisWeight_pick cu hwU
    obtain ⟨bv, rfl, wv⟩ := axisWeight_pick cv hwV
    obtain ⟨bw, rfl, ww⟩ := axisWeight_pick cw hwW
    have hbits : ∃ j, j < 8 ∧ bitsOf j = (bu, bv, bw) := by
      cases bu <;> cases bv <;> cases bw
      · exact ⟨0, by omega, rfl⟩
      · exact ⟨3, by omega, rfl⟩
      · exact ⟨2, by omega, rfl⟩
      · exact ⟨6, by omega, rfl⟩
      · exact ⟨1, by omega, rfl⟩
      · exact ⟨5, by omega, rfl⟩
      · exact ⟨4, by omega, rfl⟩
      · exact ⟨7, by omega, rfl⟩
    obtain ⟨j, hj, hb⟩ := hbits
    have hin' := key j hj
    rw [tri j, hb] at hin'
    have hin' := hin' (mul_ne_zero (mul_ne_zero wu wv) ww)
    obtain ⟨r, hr⟩ := List.mem_iff_getElem?.1 hin'
    have hr' : r < (e.probes (n + 1)).active.length := by
      by_contra hcon; rw [List.getElem?_eq_none (by omega)] at hr; simp at hr
    exact ⟨r, _, hnum (n + 1) (by omega), by omega, hcoord (n + 1) (by omega) r _ hr⟩

end DexRT.Fs
