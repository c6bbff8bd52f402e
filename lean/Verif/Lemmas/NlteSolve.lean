import Verif.Lemmas.NlteBatch2
/-! Lemmas for C89: all batches of an iteration. -/
namespace DexRT.Nlte
open DexRT DexRT.Fs DexRT.AtmosFile DexRT.Dir DexRT.Given DexRT.Emis DexRT.LteRun DexRT.RadGamma DexRT.Rates Classical

theorem batchesCpuG_of (sol : Nat → (Elem → ℝ) → Arr2 ℝ → Outcome ((Elem → ℝ) × Arr2 ℝ)) (solJ : Nat → Arr2 ℝ → Outcome (Arr2 ℝ)) (waves : Nat → Nat)
    (ops : Nat → List (AddOp Elem ℝ)) : ∀ las : List Nat, (∀ la ∈ las, ∀ J J', solJ la J = .ok J' → ∀ G, sol la G J = .ok (addOps (ops la) G, J')) →
    ∀ G J Jc x, batchesCpu solJ waves las J Jc = .ok x → batchesCpuG sol waves las G J Jc = .ok (addOps (las.flatMap ops) G, x.2)
  | [], _, G, J, Jc, x, hx => by
    rw [batchesCpu] at hx; injection hx with hx; subst hx; rfl
  | la :: las, hh, G, J, Jc, x, hx => by
    rw [batchesCpu] at hx
    obtain ⟨J1, h1, hx⟩ := Config.obind_ok hx
    obtain ⟨J2, h2, hx⟩ := Config.obind_ok hx
    rw [batchesCpuG, hh la List.mem_cons_self _ _ h1, Outcome.ok_bind]
    simp only [h2, Outcome.ok_bind]
    rw [batchesCpuG_of sol solJ waves ops las (fun l hl => hh l (List.mem_cons_of_mem _ hl)) _ _ _ _ hx, List.flatMap_cons, addOps_append]

theorem batchesDevG_of (sol : Nat → (Elem → ℝ) → Arr2 ℝ → Outcome ((Elem → ℝ) × Arr2 ℝ)) (solJ : Nat → Arr2 ℝ → Outcome (Arr2 ℝ))
    (ops : Nat → List (AddOp Elem ℝ)) : ∀ las : List Nat, (∀ la ∈ las, ∀ J J', solJ la J = .ok J' → ∀ G, sol la G J = .ok (addOps (ops la) G, J')) →
    ∀ G J x, batchesDev solJ las J = .ok x → batchesDevG sol las G J = .ok (addOps (las.flatMap ops) G, x)
  | [], _, G, J, x, hx => by
    rw [batchesDev] at hx; injection hx with hx; subst hx; rfl
  | la :: las, hh, G, J, x, hx => by
    rw [batchesDev] at hx
    obtain ⟨J1, h1, hx⟩ := Config.obind_ok hx
    rw [batchesDevG, hh la List.mem_cons_self _ _ h1, Outcome.ok_bind]
    simp only
    rw [batchesDevG_of sol solJ ops las (fun l hl => hh l (List.mem_cons_of_mem _ hl)) _ _ _ hx, List.flatMap_cons, addOps_append]

theorem total_flatMap {ι : Type} (ops : ι → List (AddOp Elem ℝ)) (l : List ι) (d : Elem) : total (l.flatMap ops) d = (l.map fun x => total (ops x) d).sum := by
  induction l with
  | nil => simp [total]
  | cons x l ih => rw [List.flatMap_cons, total_append, ih, List.map_cons, List.sum_cons]

theorem starts_perm (s : Settings) (hW : 0 < s.W) (nw : Nat) :
    ((batchStarts s nw).flatMap fun la => (List.range (la + waves s nw la - la)).map (la + ·)).Perm (List.range nw) := by
  have hsub : ∀ la, la + waves s nw la - la = min s.W (nw - la) := fun la => by unfold waves; omega
  refine (List.perm_ext_iff_of_nodup ?_ List.nodup_range).2 fun x => ?_
  · rw [List.nodup_flatMap]
    refine ⟨fun la _ => List.nodup_range.map fun x y e => Nat.add_left_cancel e, ?_⟩
    refine List.Pairwise.imp_of_mem ?_ (starts_nodup s hW nw)
    intro la la' h1 h2 hne x hx hx'
    obtain ⟨w, hw, rfl⟩ := List.mem_map.1 hx
    obtain ⟨w', hw', e⟩ := List.mem_map.1 hx'
    have hw := List.mem_range.1 hw
    have hw' := List.mem_range.1 hw'
    rw [hsub] at hw hw'
    obtain ⟨⟨b, rfl⟩, -⟩ := (starts_mem s hW nw la).1 h1
    obtain ⟨⟨b', rfl⟩, -⟩ := (starts_mem s hW nw la').1 h2
    have e1 : (s.W * b + w) / s.W = b := by rw [Nat.mul_add_div hW, Nat.div_eq_of_lt (by omega), Nat.add_zero]
    have e2 : (s.W * b' + w') / s.W = b' := by rw [Nat.mul_add_div hW, Nat.div_eq_of_lt (by omega), Nat.add_zero]
    have e : s.W * b' + w' = s.W * b + w := e
    rw [e, e1] at e2
    exact hne (by rw [e2])
  · rw [List.mem_flatMap, List.mem_range]
    constructor
    · rintro ⟨la, hla, hx⟩
      obtain ⟨w, hw, rfl⟩ := List.mem_map.1 hx
      have hw := List.mem_range.1 hw
      rw [hsub] at hw
      show la + w < nw
      omega
    · intro hx
      have h1 := Nat.div_add_mod x s.W
      have h2 := Nat.mod_lt x hW
      refine ⟨s.W * (x / s.W), (starts_mem s hW nw _).2 ⟨dvd_mul_right _ _, by omega⟩, ?_⟩
      rw [List.mem_map]
      refine ⟨x % s.W, List.mem_range.2 (by rw [hsub]; omega), h1⟩

variable {q : Setup} {k nx nz : Nat} {a : Cond} {h : Coord2 → ℝ} {pf : Coord2 → Emis.Pops} {st : Started}

/-- The formal solutions of an iteration. -/
theorem solve_ok (hf : Fits q.r.s k nx nz) (hr : NlteReady q) (hc : Cells q.r k nx nz a h pf st) (o : IterOrder)
    (ho : ∀ la, la < q.r.ad.wavelength.length → q.r.s.W ∣ la →
      LteOrders q.r k nx nz (min q.r.s.W (q.r.ad.wavelength.length - la)) (o.batch la) ∧ (o.batch la).b.mem.psi.isSome)
    (lam : Bool) (w : Nat → Nat → ℝ) (hw : ∀ c, Given.InGrid k nx nz c → ∀ adr, Addr2 (2 ^ k) st.g.bm c adr → ∀ kr, kr < q.r.ad.lines.length →
      w adr.toNat kr = quadFactor q.env (q.quad (nx * 2 ^ k) (nz * 2 ^ k)) (gasCell q.r a h pf c) kr) (G0 : Elem → ℝ) :
    ∃ G J march, (if q.r.s.onCpu then
        batchesCpuG (fun la G J => batchG q st (o.batch la) lam w la G J) (waves q.r.s st.g.nw.toNat) (batchStarts q.r.s st.g.nw.toNat) G0
          ⟨q.r.s.W, jCols q.r.s st.g, fun _ _ => 0⟩ ⟨st.g.nw.toNat, jCols q.r.s st.g, fun _ _ => 0⟩
      else batchesDevG (fun la G J => batchG q st (o.batch la) lam w la G J) (batchStarts q.r.s st.g.nw.toNat) G0 ⟨st.g.nw.toNat, jCols q.r.s st.g, fun _ _ => 0⟩) = .ok (G, J) ∧
      Light q k nx nz a pf h march ∧ MeanOf q k nx nz march J ∧
      ∀ c, Given.InGrid k nx nz c → ∀ adr, Addr2 (2 ^ k) st.g.bm c adr → ∀ ia, ia < q.r.ad.atoms.length → ∀ x y,
        G (ia, x, y, adr.toNat) = G0 (ia, x, y, adr.toNat) +
          radiativeRate q.env (gasCell q.r a h pf c) (quadFactor q.env (q.quad (nx * 2 ^ k) (nz * 2 ^ k)) (gasCell q.r a h pf c))
            (Finset.range q.r.ad.wavelength.length) (quadRays q k nx nz a h pf march lam c) ia x y := by
  have hg := hc.good
  set nw := q.r.ad.wavelength.length with hnwd
  have hW := hf.batch
  have hp := Nat.two_pow_pos k
  have hnw : st.g.nw.toNat = nw := by rw [hg.sw]; rfl
  have hb := fun la (h1 : la < nw) (h2 : q.r.s.W ∣ la) => batchG_ok hf hr hc (o.batch la) la h2 h1 (ho la h1 h2).1 (ho la h1 h2).2 lam w hw
  haveI : Nonempty (Bool → Nat → ProbeIdx2 → Seg ℝ) := ⟨fun _ _ _ => ⟨0, 0, 0⟩⟩
  choose! march ops hm1 hm2 hm3 using hb
  set Nx := nx * 2 ^ k with hNx
  set Nz := nz * 2 ^ k with hNz
  have hx0 : 0 < Nx := Nat.mul_pos hf.pos.1 hp
  have hcols : jCols q.r.s st.g = Nx * Nz := by
    unfold jCols
    rw [hg.map.dims, hf.block]
    have : (nx : Int) * nz * (((2 ^ k : Nat) : Int) * ((2 ^ k : Nat) : Int)) = ((Nx * Nz : Nat) : Int) := by
      rw [hNx, hNz]; push_cast; ring
    show ((nx : Int) * nz * (((2 ^ k : Nat) : Int) * ((2 ^ k : Nat) : Int))).toNat = _
    rw [this, Int.toNat_natCast]
  set M : Nat → Nat → ℝ := fun p x => jOf q.r.s Nx Nz (march (p / q.r.s.W * q.r.s.W)) (x % Nx) (x / Nx) (p % q.r.s.W) with hM
  obtain ⟨solJ, hsolJ⟩ : ∃ solJ : Nat → Arr2 ℝ → Outcome (Arr2 ℝ), solJ = fun la J =>
    if hh : ∃ J', ∀ G, batchG q st (o.batch la) lam w la G J = .ok (addOps (ops la) G, J') then .ok hh.choose else .ub := ⟨_, rfl⟩
  have hsol1 : ∀ la J J', solJ la J = .ok J' → ∀ G, batchG q st (o.batch la) lam w la G J = .ok (addOps (ops la) G, J') := by
    intro la J J' e
    rw [hsolJ] at e
    simp only at e
    split at e
    · rename_i hh
      injection e with e
      rw [← e]
      exact hh.choose_spec
    · cases e
  have hsol2 : ∀ la J J', (∀ G, batchG q st (o.batch la) lam w la G J = .ok (addOps (ops la) G, J')) → solJ la J = .ok J' := by
    intro la J J' e
    have hh : ∃ J', ∀ G, batchG q st (o.batch la) lam w la G J = .ok (addOps (ops la) G, J') := ⟨J', e⟩
    have h1 := hh.choose_spec (fun _ => 0)
    rw [e] at h1
    injection h1 with h1
    injection h1 with h1 h2
    rw [hsolJ]
    simp only
    rw [dif_pos hh, ← h2]
  have hspec : ∀ la ∈ batchStarts q.r.s nw, q.r.s.W ∣ la ∧ la < nw ∧ BatchSpec solJ q.r.s.W (Nx * Nz) (waves q.r.s nw) M la := by
    intro la hla
    obtain ⟨h1, h2⟩ := (starts_mem q.r.s hW nw la).1 hla
    refine ⟨h1, h2, fun J hc hr => ?_⟩
    obtain ⟨J', q1, q2, q3, q4, q5⟩ := hm3 la h2 h1 J (by rw [hc]; push_cast [hNx, hNz]; ring) hr
    refine ⟨J', hsol2 la J J' q1, q2, q3, fun wave x hw ha => ?_, q5⟩
    have hww : wave < q.r.s.W := by unfold waves at hw; omega
    have hd : x / Nx < Nz := by rw [Nat.div_lt_iff_lt_mul hx0, Nat.mul_comm]; exact ha
    have := q4 wave (x % Nx) (x / Nx) hw (Nat.mod_lt _ hx0) hd
    have ea : x / Nx * Nx + x % Nx = x := by rw [Nat.mul_comm]; exact Nat.div_add_mod x Nx
    rw [ea] at this
    rw [this, hM]
    obtain ⟨b, rfl⟩ := h1
    have e1 : (q.r.s.W * b + wave) / q.r.s.W * q.r.s.W = q.r.s.W * b := by
      rw [Nat.mul_add_div hW, Nat.div_eq_of_lt hww, Nat.add_zero, Nat.mul_comm]
    have e2 : (q.r.s.W * b + wave) % q.r.s.W = wave := by rw [Nat.mul_add_mod, Nat.mod_eq_of_lt hww]
    simp only [e1, e2]
  have hin : ∀ la, la < nw → la / q.r.s.W * q.r.s.W ∈ batchStarts q.r.s nw := by
    intro la hla
    exact (starts_mem q.r.s hW nw _).2 ⟨dvd_mul_left _ _, lt_of_le_of_lt (Nat.div_mul_le_self la q.r.s.W) hla⟩
  have hfin : ∀ J : Arr2 ℝ, J.rows = nw → J.cols = Nx * Nz → (∀ p x, p < nw → x < Nx * Nz → J.get p x = M p x) → MeanOf q k nx nz march J := by
    intro J h1 h2 h3
    refine ⟨h1, h2, fun la hla x z hx hz => ?_⟩
    have ha : z * Nx + x < Nx * Nz := by
      calc z * Nx + x < z * Nx + Nx := by omega
        _ = (z + 1) * Nx := by ring
        _ ≤ Nz * Nx := Nat.mul_le_mul_right _ hz
        _ = Nx * Nz := Nat.mul_comm _ _
    rw [h3 la _ hla ha, hM]
    have e1 : (z * Nx + x) % Nx = x := by rw [Nat.mul_comm, Nat.mul_add_mod, Nat.mod_eq_of_lt hx]
    have e2 : (z * Nx + x) / Nx = z := by rw [Nat.mul_comm, Nat.mul_add_div hx0, Nat.div_eq_of_lt hx, Nat.add_zero]
    simp only [e1, e2]
    rfl
  have hlight : Light q k nx nz a pf h march := ⟨hc.neutral, fun la hla hd => hm1 la hla hd⟩
  have hG : ∀ c, Given.InGrid k nx nz c → ∀ adr, Addr2 (2 ^ k) st.g.bm c adr → ∀ ia, ia < q.r.ad.atoms.length → ∀ x y,
        addOps ((batchStarts q.r.s nw).flatMap ops) G0 (ia, x, y, adr.toNat) = G0 (ia, x, y, adr.toNat) +
          radiativeRate q.env (gasCell q.r a h pf c) (quadFactor q.env (q.quad (nx * 2 ^ k) (nz * 2 ^ k)) (gasCell q.r a h pf c))
            (Finset.range nw) (quadRays q k nx nz a h pf march lam c) ia x y := by
    intro c hin adr hadr ia hia x y
    rw [addOps_total, total_flatMap]
    congr 1
    have e1 : ((batchStarts q.r.s nw).map fun la => total (ops la) (ia, x, y, adr.toNat)) =
        (batchStarts q.r.s nw).map fun la => ∑ wave ∈ Finset.range (la + waves q.r.s nw la - la),
          (fun la' => waveRate q k nx nz a h pf (march (la' / q.r.s.W * q.r.s.W)) lam c ia x y la') (la + wave) := by
      refine List.map_congr_left fun la hla => ?_
      obtain ⟨h1, h2⟩ := (starts_mem q.r.s hW nw la).1 hla
      rw [hm2 la h2 h1 c hin adr hadr ia hia x y, Nat.add_sub_cancel_left]
      refine Finset.sum_congr rfl fun wave hwave => ?_
      have hwave := Finset.mem_range.1 hwave
      have hww : wave < q.r.s.W := by unfold waves at hwave; omega
      obtain ⟨b, rfl⟩ := h1
      have e1 : (q.r.s.W * b + wave) / q.r.s.W * q.r.s.W = q.r.s.W * b := by
        rw [Nat.mul_add_div hW, Nat.div_eq_of_lt hww, Nat.add_zero, Nat.mul_comm]
      simp only [e1]
    rw [e1, batches_sum (batchStarts q.r.s nw) (fun la => la) (fun la => la + waves q.r.s nw la) nw (starts_perm q.r.s hW nw)
      (fun la' => waveRate q k nx nz a h pf (march (la' / q.r.s.W * q.r.s.W)) lam c ia x y la')]
    rfl
  refine ⟨addOps ((batchStarts q.r.s nw).flatMap ops) G0, ?_⟩
  simp only [hnw, hcols]
  by_cases hcpu : q.r.s.onCpu = true
  · obtain ⟨J', Jc, r1, r2, r3, r4⟩ := batches_cpu solJ q.r.s.W (Nx * Nz) nw (waves q.r.s nw) M hW (fun _ => rfl) (batchStarts q.r.s nw) (starts_nodup q.r.s hW nw)
      hspec ⟨q.r.s.W, Nx * Nz, fun _ _ => 0⟩ ⟨nw, Nx * Nz, fun _ _ => 0⟩ rfl rfl rfl rfl
    refine ⟨Jc, march, ?_, hlight, hfin Jc r2 r3 fun p x hr ha => ?_, hG⟩
    · rw [if_pos hcpu]
      exact batchesCpuG_of _ solJ _ ops _ (fun la _ J J' e => hsol1 la J J' e) _ _ _ _ r1
    · rw [r4 p x hr ha, if_pos (hin p hr)]
  · obtain ⟨J', r1, r2, r3, r4⟩ := batches_dev solJ q.r.s.W (Nx * Nz) nw (waves q.r.s nw) M hW (fun _ => rfl) (batchStarts q.r.s nw) (starts_nodup q.r.s hW nw)
      hspec ⟨nw, Nx * Nz, fun _ _ => 0⟩ rfl rfl
    refine ⟨J', march, ?_, hlight, hfin J' r2 r3 fun p x hr ha => ?_, hG⟩
    · rw [if_neg hcpu]
      exact batchesDevG_of _ solJ ops _ (fun la _ J J' e => hsol1 la J J' e) _ _ _ r1
    · rw [r4 p x hr ha, if_pos (hin p hr)]
      show (0 : ℝ) + _ = _
      rw [zero_add]

end DexRT.Nlte
