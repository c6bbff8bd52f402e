import Verif.Lemmas.ProbeLookup
import Verif.Props.FormalSol
import Verif.Props.FormalSol3
/-!
**C95** Which probes a kernel computes. A kernel over cascade `n` binds the lookup object to `n`, runs its loop over
`num_active_probes` indices, and asks the lookup for the probe of an index. `probesOn N n` is `max 1 (N / 2^n)`.
-/
namespace DexRT.Lookup
open DexRT DexRT.Fs

/-- **C95** (set-up): the object cannot be made for a sparse run without lists, and is made as given otherwise. -/
theorem C95_init2 (c0 : Casc2) (sp : Bool) (lists : List (List Coord2)) :
    (Host2.init c0 sp lists = .throws ↔ sp = true ∧ lists = []) ∧
    (¬(sp = true ∧ lists = []) → Host2.init c0 sp lists = .ok ⟨sp, c0, lists⟩) := by
  unfold Host2.init
  cases sp <;> cases lists <;> simp

/-- **C95** (set-up, 3D). -/
theorem C95_init3 (c0 : Casc3) (sp : Bool) (lists : List (List Coord3)) :
    (Host3.init c0 sp lists = .throws ↔ sp = true ∧ lists = []) ∧
    (¬(sp = true ∧ lists = []) → Host3.init c0 sp lists = .ok ⟨sp, c0, lists⟩) := by
  unfold Host3.init
  cases sp <;> cases lists <;> simp

/-- **C95** (dense, 2D): when the number of probes of cascade `n` fits an `i32`, host and device agree on it, index
`v * W + u` is probe `(u, v)`, so every probe of the cascade is computed by exactly one index, and nothing outside it. -/
theorem C95_dense2 (cfg : RcCfg) (h : Host2) (hs : h.sparse = false) (n : Nat)
    (hfit : probesOn h.c0.np0 n * probesOn h.c0.np1 n ≤ 2147483647) :
    ∃ P, h.bind cfg n = .ok P ∧ h.num cfg n = .ok ((probesOn h.c0.np0 n * probesOn h.c0.np1 n : Nat) : Int) ∧
      P.num = .ok ((probesOn h.c0.np0 n * probesOn h.c0.np1 n : Nat) : Int) ∧
      (∀ k, k < probesOn h.c0.np0 n * probesOn h.c0.np1 n → ∃ u v, u < probesOn h.c0.np0 n ∧ v < probesOn h.c0.np1 n ∧
        k = v * probesOn h.c0.np0 n + u ∧ P.coord k = .ok { x := u, z := v }) ∧
      (∀ u v : Nat, u < probesOn h.c0.np0 n → v < probesOn h.c0.np1 n →
        ∃! k, k < probesOn h.c0.np0 n * probesOn h.c0.np1 n ∧ P.coord k = .ok { x := u, z := v }) := by
  have hW : 0 < probesOn h.c0.np0 n := by unfold probesOn; omega
  obtain ⟨d0, d1⟩ := dims2 cfg h.c0 n
  obtain ⟨W, hWd⟩ : ∃ W, W = probesOn h.c0.np0 n := ⟨_, rfl⟩
  obtain ⟨H, hHd⟩ : ∃ H, H = probesOn h.c0.np1 n := ⟨_, rfl⟩
  rw [← hWd] at hfit hW d0 ⊢; rw [← hHd] at hfit d1 ⊢
  have hI : (W : Int) * (H : Int) ≤ i32Max := by unfold i32Max; exact_mod_cast hfit
  have hc : ∀ k, k < W * H → Probes2.coord { sparse := false, np := { x := W, z := H }, active := [] } k =
      .ok { x := ((k % W : Nat) : Int), z := ((k / W : Nat) : Int) } :=
    fun k hk => dense_coord W H hI hW k (by exact_mod_cast hk)
  have hdm := fun k => Nat.div_add_mod k W
  refine ⟨{ sparse := false, np := { x := W, z := H }, active := [] }, ?_, ?_, ?_, ?_, ?_⟩
  · unfold Host2.bind; rw [hs, d0, d1]; rfl
  · unfold Host2.num; rw [hs, d0, d1]
    simp only [Bool.false_eq_true, if_false]
    unfold mulI64; rw [if_pos]
    · push_cast; rfl
    · have : ((W * H : Nat) : Int) = (W : Int) * H := by push_cast; rfl
      rw [← this]; omega
  · unfold Probes2.num mulI32
    simp only [Bool.false_eq_true, if_false]
    have : (W : Int) * H = ((W * H : Nat) : Int) := by push_cast; rfl
    rw [this, if_pos]; rw [fitsI32_iff]; omega
  · intro k hk
    refine ⟨k % W, k / W, Nat.mod_lt _ hW, Nat.div_lt_of_lt_mul hk, ?_, hc k hk⟩
    have := hdm k; rw [Nat.mul_comm (k / W)]; omega
  · intro u v hu hv
    have hlt : v * W + u < W * H := by
      have : (v + 1) * W ≤ H * W := Nat.mul_le_mul_right _ hv
      rw [Nat.mul_comm W H]; rw [Nat.add_mul] at this; omega
    have e1 : (v * W + u) % W = u := by rw [Nat.mul_comm]; simp [Nat.mul_add_mod, Nat.mod_eq_of_lt hu]
    have e2 : (v * W + u) / W = v := by
      rw [Nat.mul_comm, Nat.mul_add_div hW, Nat.div_eq_of_lt hu]; rfl
    refine ⟨v * W + u, ⟨hlt, by rw [hc _ hlt, e1, e2]⟩, ?_⟩
    rintro k ⟨hk, hkc⟩
    rw [hc k hk] at hkc
    injection hkc with hkc
    injection hkc with h1 h2
    have h1' : k % W = u := by exact_mod_cast h1
    have h2' : k / W = v := by exact_mod_cast h2
    have := hdm k; rw [h1', h2', Nat.mul_comm] at this; exact this.symm

/-- **C95** (dense, 3D): the same when the probes of all planes but the last fit an `i32`; index
`(w * D + v) * W + u` is probe `(u, v, w)`. -/
theorem C95_dense3 (br : Branch3) (h : Host3) (hs : h.sparse = false) (n : Nat)
    (hpl : probesOn h.c0.np0 n * probesOn h.c0.np1 n ≤ 2147483647) (hH : probesOn h.c0.np2 n ≤ 2147483647)
    (hfit : probesOn h.c0.np0 n * probesOn h.c0.np1 n * (probesOn h.c0.np2 n - 1) ≤ 2147483647) :
    ∃ P, h.bind br n = .ok P ∧
      h.num br n = .ok ((probesOn h.c0.np0 n * probesOn h.c0.np1 n * probesOn h.c0.np2 n : Nat) : Int) ∧
      P.num = .ok ((probesOn h.c0.np0 n * probesOn h.c0.np1 n * probesOn h.c0.np2 n : Nat) : Int) ∧
      (∀ k, k < probesOn h.c0.np0 n * probesOn h.c0.np1 n * probesOn h.c0.np2 n → ∃ u v w, u < probesOn h.c0.np0 n ∧
        v < probesOn h.c0.np1 n ∧ w < probesOn h.c0.np2 n ∧
        k = (w * probesOn h.c0.np1 n + v) * probesOn h.c0.np0 n + u ∧ P.coord k = .ok { x := u, y := v, z := w }) ∧
      (∀ u v w : Nat, u < probesOn h.c0.np0 n → v < probesOn h.c0.np1 n → w < probesOn h.c0.np2 n →
        ∃! k, k < probesOn h.c0.np0 n * probesOn h.c0.np1 n * probesOn h.c0.np2 n ∧
          P.coord k = .ok { x := u, y := v, z := w }) := by
  have hW0 : 0 < probesOn h.c0.np0 n := by unfold probesOn; omega
  have hD0 : 0 < probesOn h.c0.np1 n := by unfold probesOn; omega
  obtain ⟨d0, d1, d2⟩ := np_probesOn3 br h.c0 n
  obtain ⟨W, hWd⟩ : ∃ W, W = probesOn h.c0.np0 n := ⟨_, rfl⟩
  obtain ⟨D, hDd⟩ : ∃ D, D = probesOn h.c0.np1 n := ⟨_, rfl⟩
  obtain ⟨H, hHd⟩ : ∃ H, H = probesOn h.c0.np2 n := ⟨_, rfl⟩
  rw [← hWd] at hfit hpl hW0 d0 ⊢; rw [← hDd] at hfit hpl hD0 d1 ⊢; rw [← hHd] at hfit hH d2 ⊢
  have hc := fun k => coord3_wide W D H k hW0 hD0 hpl hfit
  have htot : W * D * H ≤ 4611686018427387904 :=
    le_trans (Nat.mul_le_mul hpl hH) (by norm_num)
  have ePl : (W : Int) * D = ((W * D : Nat) : Int) := by push_cast; rfl
  have eTot : ((W * D : Nat) : Int) * H = ((W * D * H : Nat) : Int) := by push_cast; rfl
  have hdm := fun k => Nat.div_add_mod k W
  have hdm2 := fun k => Nat.div_add_mod (k / W) D
  refine ⟨{ sparse := false, np := { x := W, y := D, z := H }, active := [] }, ?_, ?_, ?_, ?_, ?_⟩
  · unfold Host3.bind; rw [hs, d0, d1, d2]; rfl
  · unfold Host3.num; rw [hs, d0, d1, d2]
    simp only [Bool.false_eq_true, if_false]
    unfold mulI64; rw [ePl, if_pos (by omega), Outcome.ok_bind, eTot, if_pos (by omega)]
  · unfold Probes3.num mulI32
    simp only [Bool.false_eq_true, if_false]
    rw [ePl, if_pos (by rw [fitsI32_iff]; omega), Outcome.ok_bind, eTot]
  · intro k hk
    refine ⟨k % W, k / W % D, k / W / D, Nat.mod_lt _ hW0, Nat.mod_lt _ hD0, ?_, ?_, hc k hk⟩
    · rw [Nat.div_div_eq_div_mul]; exact Nat.div_lt_of_lt_mul hk
    · have a := hdm k; have b := hdm2 k
      rw [Nat.mul_comm (k / W / D) D, b, Nat.mul_comm]; omega
  · intro u v w hu hv hw
    have l1 : w * D + v < D * H := by
      have : (w + 1) * D ≤ H * D := Nat.mul_le_mul_right _ hw
      rw [Nat.mul_comm D H]; rw [Nat.add_mul] at this; omega
    have hlt : (w * D + v) * W + u < W * D * H := by
      have : (w * D + v + 1) * W ≤ D * H * W := Nat.mul_le_mul_right _ l1
      rw [Nat.mul_assoc, Nat.mul_comm W]; rw [Nat.add_mul] at this; omega
    have e1 : ((w * D + v) * W + u) % W = u := by rw [Nat.mul_comm]; simp [Nat.mul_add_mod, Nat.mod_eq_of_lt hu]
    have e2 : ((w * D + v) * W + u) / W = w * D + v := by
      rw [Nat.mul_comm, Nat.mul_add_div hW0, Nat.div_eq_of_lt hu]; rfl
    have e3 : (w * D + v) % D = v := by rw [Nat.mul_comm]; simp [Nat.mul_add_mod, Nat.mod_eq_of_lt hv]
    have e4 : (w * D + v) / D = w := by
      rw [Nat.mul_comm, Nat.mul_add_div hD0, Nat.div_eq_of_lt hv]; rfl
    refine ⟨(w * D + v) * W + u, ⟨hlt, by rw [hc _ hlt, e1, e2, e3, e4]⟩, ?_⟩
    rintro k ⟨hk, hkc⟩
    rw [hc k hk] at hkc
    injection hkc with hkc
    injection hkc with h1 h2 h3
    have h1' : k % W = u := by exact_mod_cast h1
    have h2' : k / W % D = v := by exact_mod_cast h2
    have h3' : k / W / D = w := by exact_mod_cast h3
    have a := hdm k; have b := hdm2 k
    rw [h2', h3'] at b
    rw [h1', ← b] at a
    rw [← a]; ring

/-- **C95** is false for larger dense runs, 2D: with 2^31 probes the host counts them and the device count overflows. -/
theorem C95_overflow2_refuted (cfg : RcCfg) (d w i : Nat) :
    ∃ h P, Host2.init ⟨65536, 32768, d, w, i⟩ false [] = .ok h ∧ h.bind cfg 0 = .ok P ∧ h.num cfg 0 = .ok 2147483648 ∧
      P.num = .ub := by
  refine ⟨_, _, rfl, rfl, ?_, ?_⟩
  · simp [Host2.num, cascadeSize, mulI64]
  · simp [Probes2.num, cascadeSize, mulI32, fitsI32]

/-- **C95** fails for every dense 3D cascade beyond the bound of `C95_dense3`: both counts are right, and the first probe
of the last plane overflows. -/
theorem C95_overflow3_refuted (br : Branch3) (h : Host3) (hs : h.sparse = false) (n : Nat)
    (hpl : probesOn h.c0.np0 n * probesOn h.c0.np1 n ≤ 2147483647)
    (hbig : 2147483647 < probesOn h.c0.np0 n * probesOn h.c0.np1 n * (probesOn h.c0.np2 n - 1)) :
    ∃ P, h.bind br n = .ok P ∧
      P.num = .ok ((probesOn h.c0.np0 n * probesOn h.c0.np1 n * probesOn h.c0.np2 n : Nat) : Int) ∧
      ∃ k, k < probesOn h.c0.np0 n * probesOn h.c0.np1 n * probesOn h.c0.np2 n ∧ P.coord k = .ub := by
  have hW0 : 0 < probesOn h.c0.np0 n := by unfold probesOn; omega
  have hD0 : 0 < probesOn h.c0.np1 n := by unfold probesOn; omega
  have hH0 : 0 < probesOn h.c0.np2 n := by unfold probesOn; omega
  obtain ⟨d0, d1, d2⟩ := np_probesOn3 br h.c0 n
  refine ⟨{ sparse := false, np := { x := probesOn h.c0.np0 n, y := probesOn h.c0.np1 n, z := probesOn h.c0.np2 n },
            active := [] }, ?_, ?_, _, ?_, coord3_over _ _ _ hW0 hD0 hpl hbig⟩
  · unfold Host3.bind; rw [hs, d0, d1, d2]; rfl
  · unfold Probes3.num mulI32
    simp only [Bool.false_eq_true, if_false]
    have ePl : ((probesOn h.c0.np0 n : Nat) : Int) * ((probesOn h.c0.np1 n : Nat) : Int) =
      ((probesOn h.c0.np0 n * probesOn h.c0.np1 n : Nat) : Int) := by push_cast; rfl
    rw [ePl, if_pos (by rw [fitsI32_iff]; omega), Outcome.ok_bind]
    congr 1
  · exact Nat.mul_lt_mul_of_pos_left (by omega) (Nat.mul_pos hW0 hD0)

/-- **C95** (sparse, 2D): a cascade with a list is computed on exactly the entries of its list, in order, and host and device
agree on their number; a cascade without a list is an exception on the host, before any kernel runs. -/
theorem C95_sparse2 (cfg : RcCfg) (h : Host2) (hs : h.sparse = true) (n : Nat) :
    (∀ l, h.active[n]? = some l → ∃ P, h.bind cfg n = .ok P ∧ h.num cfg n = .ok l.length ∧ P.num = .ok l.length ∧
      (∀ k c, P.coord k = .ok c ↔ l[k]? = some c) ∧ ∀ k, k < l.length → ∃ c, P.coord k = .ok c) ∧
    (h.active.length ≤ n → h.bind cfg n = .throws ∧ h.num cfg n = .throws) := by
  constructor
  · intro l hl
    refine ⟨{ sparse := true, np := { x := 0, z := 0 }, active := l }, ?_, ?_, rfl, ?_, ?_⟩
    · unfold Host2.bind; rw [if_pos hs, hl]
    · unfold Host2.num; rw [if_pos hs, hl]
    · intro k c
      simp only [Probes2.coord, if_true]
      cases l[k]? <;> simp
    · intro k hk
      simp only [Probes2.coord, if_true, List.getElem?_eq_getElem hk]
      exact ⟨_, rfl⟩
  · intro hn
    have : h.active[n]? = none := List.getElem?_eq_none hn
    simp [Host2.bind, Host2.num, hs, this]

/-- **C95** (sparse, 3D). -/
theorem C95_sparse3 (br : Branch3) (h : Host3) (hs : h.sparse = true) (n : Nat) :
    (∀ l, h.active[n]? = some l → ∃ P, h.bind br n = .ok P ∧ h.num br n = .ok l.length ∧ P.num = .ok l.length ∧
      (∀ k c, P.coord k = .ok c ↔ l[k]? = some c) ∧ ∀ k, k < l.length → ∃ c, P.coord k = .ok c) ∧
    (h.active.length ≤ n → h.bind br n = .throws ∧ h.num br n = .throws) := by
  constructor
  · intro l hl
    refine ⟨{ sparse := true, np := { x := 0, y := 0, z := 0 }, active := l }, ?_, ?_, rfl, ?_, ?_⟩
    · unfold Host3.bind; rw [if_pos hs, hl]
    · unfold Host3.num; rw [if_pos hs, hl]
    · intro k c
      simp only [Probes3.coord, if_true]
      cases l[k]? <;> simp
    · intro k hk
      simp only [Probes3.coord, if_true, List.getElem?_eq_getElem hk]
      exact ⟨_, rfl⟩
  · intro hn
    have : h.active[n]? = none := List.getElem?_eq_none hn
    simp [Host3.bind, Host3.num, hs, this]

/-- **C95** (from the state, 2D): a dense object needs nothing of the block map, so the final dense pass can make it whatever
the sparse run was; a sparse one has the list of every cascade up to the last and of none above. -/
theorem C95_state2 (cfg : RcCfg) (c0 : Casc2) (k nx nz : Nat) (Active : Coord2 → Prop) (bm : BlockMap Coord2)
    (order : Nat → List Coord2) (hr : SparseRun2 cfg c0 k nx nz Active bm order) (maxC : Nat) :
    (∀ B bm' order', Host2.initState cfg B bm' order' c0 false maxC = .ok ⟨false, c0, []⟩) ∧
    ∃ h, Host2.initState cfg (2 ^ k) bm order c0 true maxC = .ok h ∧ h.sparse = true ∧ h.c0 = c0 ∧
      h.active.length = maxC + 1 ∧
      ∀ n, n ≤ maxC → ∃ l, activeList2 (2 ^ k) bm (probeDims2 cfg c0) order n = .ok l ∧ h.active[n]? = some l := by
  refine ⟨fun _ _ _ => rfl, ?_⟩
  obtain ⟨ls, h1, h2⟩ := collect_spec (activeList2 (2 ^ k) bm (probeDims2 cfg c0) order) (List.range (maxC + 1))
    (fun n _ => by obtain ⟨l, hl, -⟩ := C20_lists hr n; exact ⟨l, hl⟩)
  have hlen : ls.length = maxC + 1 := by rw [← h2.length_eq, List.length_range]
  refine ⟨⟨true, c0, ls⟩, ?_, rfl, rfl, hlen, fun n hn => ?_⟩
  · unfold Host2.initState Host2.init
    simp only [if_true, h1, Outcome.ok_bind]
    rw [if_neg (by rw [Bool.true_and, beq_iff_eq]; omega)]
  · obtain ⟨b, hb, hr'⟩ := forall₂_get h2 n n (List.getElem?_range (by omega))
    exact ⟨b, hr', hb⟩

/-- **C95** (from the state, 3D). -/
theorem C95_state3 (br : Branch3) (c0 : Casc3) (k nx ny nz : Nat) (Active : Coord3 → Prop) (bm : BlockMap Coord3)
    (hx : FitsI32Axis k nx) (hy : FitsI32Axis k ny) (hz : FitsI32Axis k nz) (hm : MapFor3 (2 ^ k) nx ny nz Active bm)
    (h0 : c0.np0 = nx * 2 ^ k) (h1 : c0.np1 = ny * 2 ^ k) (h2 : c0.np2 = nz * 2 ^ k) (maxC : Nat) :
    (∀ B bm', Host3.initState br B bm' c0 false maxC = .ok ⟨false, c0, []⟩) ∧
    ∃ h, Host3.initState br (2 ^ k) bm c0 true maxC = .ok h ∧ h.sparse = true ∧ h.c0 = c0 ∧
      h.active.length = maxC + 1 ∧
      ∀ n, n ≤ maxC → ∃ l, activeList3 (2 ^ k) bm (probeDims3 br c0) n = .ok l ∧ h.active[n]? = some l := by
  refine ⟨fun _ _ => rfl, ?_⟩
  obtain ⟨ls, g1, g2⟩ := collect_spec (activeList3 (2 ^ k) bm (probeDims3 br c0)) (List.range (maxC + 1))
    (fun n _ => by
      obtain ⟨l, u, l1, -⟩ := C21_closed br c0 k nx ny nz Active bm hx hy hz hm h0 h1 h2 n
      exact ⟨l, l1⟩)
  have hlen : ls.length = maxC + 1 := by rw [← g2.length_eq, List.length_range]
  refine ⟨⟨true, c0, ls⟩, ?_, rfl, rfl, hlen, fun n hn => ?_⟩
  · unfold Host3.initState Host3.init
    simp only [if_true, g1, Outcome.ok_bind]
    rw [if_neg (by rw [Bool.true_and, beq_iff_eq]; omega)]
  · obtain ⟨b, hb, hr'⟩ := forall₂_get g2 n n (List.getElem?_range (by omega))
    exact ⟨b, hr', hb⟩

/-- **C95** (used by a formal solution, 3D): whatever tiles have data, the object made for a sparse or a dense run gives each
cascade of a formal solution probes inside its grid, and never lacks one that a merge interpolates from (`Probes3Ok`). -/
theorem C95_formal3 {K : Type} [Field K] [CharZero K] (e : Env3 K) (k nx ny nz : Nat) (Active : Coord3 → Prop)
    (bm : BlockMap Coord3) (hx : FitsI32Axis k nx) (hy : FitsI32Axis k ny) (hz : FitsI32Axis k nz)
    (hm : MapFor3 (2 ^ k) nx ny nz Active bm)
    (h0 : e.c0.np0 = nx * 2 ^ k) (h1 : e.c0.np1 = ny * 2 ^ k) (h2 : e.c0.np2 = nz * 2 ^ k)
    (hpos : 0 < e.c0.np0 ∧ 0 < e.c0.np1 ∧ 0 < e.c0.np2) (hfit : e.c0.np0 * e.c0.np1 * e.c0.np2 ≤ 2147483647)
    (sp : Bool) (h : Host3) (hi : Host3.initState e.cfg.branch (2 ^ k) bm e.c0 sp e.num = .ok h)
    (hb : ∀ n, n ≤ e.num → h.bind e.cfg.branch n = .ok (e.probes n)) : Probes3Ok e := by
  cases sp with
  | false =>
    rw [(C95_state3 e.cfg.branch e.c0 k nx ny nz Active bm hx hy hz hm h0 h1 h2 e.num).1] at hi
    injection hi with hi; subst hi
    refine (C74_probes_dense3 e hpos hfit fun n hn => ?_).1
    have := hb n hn
    unfold Host3.bind at this
    obtain ⟨d0, d1, d2⟩ := np_probesOn3 e.cfg.branch e.c0 n
    simp only [Bool.false_eq_true, if_false, d0, d1, d2] at this
    injection this with this; exact this.symm
  | true =>
    obtain ⟨h', g1, g2, g3, -, g5⟩ :=
      (C95_state3 e.cfg.branch e.c0 k nx ny nz Active bm hx hy hz hm h0 h1 h2 e.num).2
    rw [g1] at hi; injection hi with hi; subst hi
    refine C74_probes_sparse3 e k nx ny nz Active bm hx hy hz hm h0 h1 h2 fun n hn => ?_
    obtain ⟨l, l1, l2⟩ := g5 n hn
    have := hb n hn
    unfold Host3.bind at this
    rw [if_pos g2, l2] at this
    injection this with this; rw [← this]
    exact ⟨rfl, l1⟩

/-- **C95** (used by a formal solution, 2D): as in 3D for dense runs; for sparse runs while the cascades are finer than a tile, or
with data everywhere. Missing: coarser cascades of a sparse run (`C20_refuted`). -/
theorem C95_formal2_partial {K : Type} [Field K] [CharZero K] (e : Env2 K) (k nx nz : Nat) (Active : Coord2 → Prop)
    (bm : BlockMap Coord2) (order : Nat → List Coord2) (hr : SparseRun2 e.cfg e.c0 k nx nz Active bm order)
    (hpos : 0 < e.c0.np0 ∧ 0 < e.c0.np1) (hfit : (e.c0.np0 : Int) * (e.c0.np1 : Int) ≤ i32Max)
    (sp : Bool) (hcase : sp = true → e.num + 1 ≤ k ∨ (0 < nx ∧ 0 < nz ∧ ∀ t, Active t))
    (h : Host2) (hi : Host2.initState e.cfg (2 ^ k) bm order e.c0 sp e.num = .ok h)
    (hb : ∀ n, n ≤ e.num → h.bind e.cfg n = .ok (e.probes n)) : Probes2Ok e := by
  cases sp with
  | false =>
    rw [(C95_state2 e.cfg e.c0 k nx nz Active bm order hr e.num).1] at hi
    injection hi with hi; subst hi
    refine (C74_probes_dense2 e hpos hfit fun n hn => ?_).1
    have := hb n hn
    unfold Host2.bind at this
    obtain ⟨d0, d1⟩ := dims2 e.cfg e.c0 n
    simp only [Bool.false_eq_true, if_false, d0, d1] at this
    injection this with this; exact this.symm
  | true =>
    obtain ⟨h', g1, g2, g3, -, g5⟩ := (C95_state2 e.cfg e.c0 k nx nz Active bm order hr e.num).2
    rw [g1] at hi; injection hi with hi; subst hi
    refine C74_probes_sparse2_partial e k nx nz Active bm order hr (fun n hn => ?_) (hcase rfl)
    obtain ⟨l, l1, l2⟩ := g5 n hn
    have := hb n hn
    unfold Host2.bind at this
    rw [if_pos g2, l2] at this
    injection this with this; rw [← this]
    exact ⟨rfl, l1⟩

/-- Non-vacuity: a dense 64 by 48 run, cascade 2 is 16 by 12, its probe 17 is (1, 1). -/
example (cfg : RcCfg) : ∃ h P, Host2.init ⟨64, 48, 1, 8, 4⟩ false [] = .ok h ∧ h.bind cfg 2 = .ok P ∧ h.num cfg 2 = .ok 192 ∧
    P.coord 17 = .ok { x := 1, z := 1 } := by
  refine ⟨_, _, rfl, rfl, ?_, ?_⟩
  · simp [Host2.num, cascadeSize, mulI64]
  · simp [Probes2.coord, cascadeSize, mulI32, fitsI32]

/-- Non-vacuity: a 3D grid past the bound of `C95_dense3`. -/
example : 2147483647 < probesOn 2048 0 * probesOn 2048 0 * (probesOn 1024 0 - 1) ∧
    probesOn 2048 0 * probesOn 2048 0 ≤ 2147483647 := by decide

/-- Non-vacuity: a sparse object with two lists. -/
example : ∃ h, Host2.init ⟨4, 4, 1, 8, 4⟩ true [[{ x := 0, z := 0 }, { x := 1, z := 0 }], [{ x := 0, z := 0 }]] = .ok h ∧
    h.sparse = true ∧ h.active.length = 2 := ⟨_, rfl, rfl, rfl⟩

end DexRT.Lookup
