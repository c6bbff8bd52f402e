import Verif.Lemmas.Nlte3Batch2
/-! Lemmas for C93: all wavelengths of an iteration. -/
namespace DexRT.Nlte3
open DexRT DexRT.Fs DexRT.AtmosFile DexRT.Dir DexRT.Given3 DexRT.Emis DexRT.Lte3 DexRT.RadGamma Classical

open DexRT.Rates (total)
open DexRT.Nlte (addOps addOps_total batchesCpuG_of batchesDevG_of batchesCpuG batchesDevG)

variable {q : Setup} {k nx ny nz : Nat} {a : Cond} {h : Coord3 → ℝ} {pf : Coord3 → Emis.Pops} {st : Started}

/-- The rays of a cell as the kernels index them. -/
noncomputable def quadRays (q : Setup) (k nx ny nz : Nat) (a : Cond) (h : Coord3 → ℝ) (pf : Coord3 → Emis.Pops) (march : Marched) (lam : Bool)
    (c : Coord3) : RaySet (Nat × Nat) :=
  raySet3 (q.quad (nx * 2 ^ k) (ny * 2 ^ k) (nz * 2 ^ k)) (gasCell q.r a h pf c) (arriving q.r.s (nx * 2 ^ k) (ny * 2 ^ k) (nz * 2 ^ k) march c)
    (operator lam march c)

/-- The formal solutions of an iteration. -/
theorem solve_ok (hf : Fits q.r.s k nx ny nz) (hr : NlteReady q) (hc : Cells q.r k nx ny nz a h pf st) (o : IterOrder)
    (ho : ∀ la, la < q.r.ad.wavelength.length → LaOrders q.r k nx ny nz (o.batch la) ∧ (o.batch la).b.mem.psi.isSome)
    (lam : Bool) (w : Nat → Nat → ℝ) (hw : ∀ c, InGrid k nx ny nz c → ∀ adr, Addr3 (2 ^ k) st.g.bm c adr → ∀ kr, kr < q.r.ad.lines.length →
      w adr.toNat kr = quadFactor q.env (q.quad (nx * 2 ^ k) (ny * 2 ^ k) (nz * 2 ^ k)) (gasCell q.r a h pf c) kr) (G0 : Elem → ℝ) :
    ∃ G J march, (if q.r.onCpu then
        batchesCpuG (fun la G J => waveG q st (o.batch la) lam w la G J) (fun la => min 1 (st.g.nw.toNat - la)) (List.range st.g.nw.toNat) G0
          ⟨1, Given3.jCols q.r.s st.g, fun _ _ => 0⟩ ⟨st.g.nw.toNat, Given3.jCols q.r.s st.g, fun _ _ => 0⟩
      else batchesDevG (fun la G J => waveG q st (o.batch la) lam w la G J) (List.range st.g.nw.toNat) G0 ⟨st.g.nw.toNat, Given3.jCols q.r.s st.g, fun _ _ => 0⟩) = .ok (G, J) ∧
      Light q k nx ny nz a pf h march ∧ MeanOf q k nx ny nz march J ∧
      ∀ c, InGrid k nx ny nz c → ∀ adr, Addr3 (2 ^ k) st.g.bm c adr → ∀ ia, ia < q.r.ad.atoms.length → ∀ x y,
        G (ia, x, y, adr.toNat) = G0 (ia, x, y, adr.toNat) +
          radiativeRate q.env (gasCell q.r a h pf c) (quadFactor q.env (q.quad (nx * 2 ^ k) (ny * 2 ^ k) (nz * 2 ^ k)) (gasCell q.r a h pf c))
            (Finset.range q.r.ad.wavelength.length) (quadRays q k nx ny nz a h pf march lam c) ia x y := by
  have hg := hc.good
  set nw := q.r.ad.wavelength.length with hnwd
  have hnw : st.g.nw.toNat = nw := by rw [hg.sw]; rfl
  have hb := fun la (h1 : la < nw) => waveG_ok hf hr hc (o.batch la) la h1 (ho la h1).1 (ho la h1).2 lam w hw
  haveI : Nonempty (Bool → Nat → ProbeIdx3 → Seg ℝ) := ⟨fun _ _ _ => ⟨0, 0, 0⟩⟩
  choose! march ops hm1 hm2 hm3 using hb
  obtain ⟨hx0, hy0, -⟩ := sides_pos hf
  set Nx := nx * 2 ^ k with hNx
  set Ny := ny * 2 ^ k with hNy
  set Nz := nz * 2 ^ k with hNz
  have hcols : Given3.jCols q.r.s st.g = Nx * Ny * Nz := by
    unfold Given3.jCols
    rw [hg.map.dims, hf.block]
    have : (nx : Int) * ny * nz * (((2 ^ k : Nat) : Int) * ((2 ^ k : Nat) : Int) * ((2 ^ k : Nat) : Int)) = ((Nx * Ny * Nz : Nat) : Int) := by
      rw [hNx, hNy, hNz]; push_cast; ring
    show ((nx : Int) * ny * nz * (((2 ^ k : Nat) : Int) * ((2 ^ k : Nat) : Int) * ((2 ^ k : Nat) : Int))).toNat = _
    rw [this, Int.toNat_natCast]
  have hidx : ∀ x y z, x < Nx → y < Ny → ((z * Ny + y) * Nx + x) % Nx = x ∧ ((z * Ny + y) * Nx + x) / Nx % Ny = y ∧ ((z * Ny + y) * Nx + x) / Nx / Ny = z := by
    intro x y z hx hy
    have e : ((z * Ny + y) * Nx + x) / Nx = z * Ny + y := by rw [Nat.mul_comm, Nat.mul_add_div hx0, Nat.div_eq_of_lt hx, Nat.add_zero]
    refine ⟨by rw [Nat.mul_comm, Nat.mul_add_mod, Nat.mod_eq_of_lt hx], ?_, ?_⟩
    · rw [e, Nat.mul_comm, Nat.mul_add_mod, Nat.mod_eq_of_lt hy]
    · rw [e, Nat.mul_comm, Nat.mul_add_div hy0, Nat.div_eq_of_lt hy, Nat.add_zero]
  set M : Nat → Nat → ℝ := fun p x => jOf q.r.s Nx Ny Nz (march p) (x % Nx) (x / Nx % Ny) (x / Nx / Ny) with hM
  obtain ⟨solJ, hsolJ⟩ : ∃ solJ : Nat → Arr2 ℝ → Outcome (Arr2 ℝ), solJ = fun la J =>
    if hh : ∃ J', ∀ G, waveG q st (o.batch la) lam w la G J = .ok (addOps (ops la) G, J') then .ok hh.choose else .ub := ⟨_, rfl⟩
  have hsol1 : ∀ la J J', solJ la J = .ok J' → ∀ G, waveG q st (o.batch la) lam w la G J = .ok (addOps (ops la) G, J') := by
    intro la J J' e
    rw [hsolJ] at e
    simp only at e
    split at e
    · rename_i hh
      injection e with e
      rw [← e]
      exact hh.choose_spec
    · cases e
  have hsol2 : ∀ la J J', (∀ G, waveG q st (o.batch la) lam w la G J = .ok (addOps (ops la) G, J')) → solJ la J = .ok J' := by
    intro la J J' e
    have hh : ∃ J', ∀ G, waveG q st (o.batch la) lam w la G J = .ok (addOps (ops la) G, J') := ⟨J', e⟩
    have h1 := hh.choose_spec (fun _ => 0)
    rw [e] at h1
    injection h1 with h1
    injection h1 with h1 h2
    rw [hsolJ]
    simp only
    rw [dif_pos hh, ← h2]
  have hspec : ∀ la ∈ List.range nw, 1 ∣ la ∧ la < nw ∧ BatchSpec solJ 1 (Nx * Ny * Nz) (fun la => min 1 (nw - la)) M la := by
    intro la hla
    have h2 := List.mem_range.1 hla
    have hw1 : min 1 (nw - la) = 1 := by omega
    refine ⟨one_dvd _, h2, fun J hc hr => ?_⟩
    simp only [hw1] at hr ⊢
    obtain ⟨J', q1, q2, q3, q4, q5⟩ := hm3 la h2 J hc (by omega)
    refine ⟨J', hsol2 la J J' q1, q2, q3, fun wave x hw ha => ?_, fun q x hq => ?_⟩
    · obtain rfl : wave = 0 := by omega
      have hd1 : x / Nx < Ny * Nz := by rw [Nat.div_lt_iff_lt_mul hx0]; calc x < Nx * Ny * Nz := ha
          _ = Ny * Nz * Nx := by ring
      have hd : x / Nx / Ny < Nz := by rw [Nat.div_lt_iff_lt_mul hy0, Nat.mul_comm]; exact hd1
      have := q4 (x % Nx) (x / Nx % Ny) (x / Nx / Ny) (Nat.mod_lt _ hx0) (Nat.mod_lt _ hy0) hd
      have ea : (x / Nx / Ny * Ny + x / Nx % Ny) * Nx + x % Nx = x := by
        rw [Nat.div_add_mod', Nat.div_add_mod']
      rw [ea] at this
      simp only [Nat.add_zero]
      exact this
    · refine q5 q x ?_
      have := hq 0 (by omega)
      simpa using this
  have hin : ∀ la, la < nw → la / 1 * 1 ∈ List.range nw := by
    intro la hla
    rw [Nat.div_one, Nat.mul_one]; exact List.mem_range.2 hla
  have hfin : ∀ J : Arr2 ℝ, J.rows = nw → J.cols = Nx * Ny * Nz → (∀ q x, q < nw → x < Nx * Ny * Nz → J.get q x = M q x) →
      MeanOf q k nx ny nz march J := by
    intro J h1 h2 h3
    refine ⟨h1, h2, fun la hla x y z hx hy hz => ?_⟩
    have ha : (z * Ny + y) * Nx + x < Nx * Ny * Nz := by
      have h4 : z * Ny + y < Nz * Ny := by
        calc z * Ny + y < z * Ny + Ny := by omega
          _ = (z + 1) * Ny := by ring
          _ ≤ Nz * Ny := Nat.mul_le_mul_right _ hz
      calc (z * Ny + y) * Nx + x < (z * Ny + y) * Nx + Nx := by omega
        _ = (z * Ny + y + 1) * Nx := by ring
        _ ≤ Nz * Ny * Nx := Nat.mul_le_mul_right _ h4
        _ = Nx * Ny * Nz := by ring
    rw [h3 la _ hla ha, hM]
    obtain ⟨e1, e2, e3⟩ := hidx x y z hx hy
    simp only [e1, e2, e3]
    rfl
  have hlight : Light q k nx ny nz a pf h march := ⟨hc.neutral, fun la hla => hm1 la hla⟩
  have hG : ∀ c, InGrid k nx ny nz c → ∀ adr, Addr3 (2 ^ k) st.g.bm c adr → ∀ ia, ia < q.r.ad.atoms.length → ∀ x y,
        addOps ((List.range nw).flatMap ops) G0 (ia, x, y, adr.toNat) = G0 (ia, x, y, adr.toNat) +
          radiativeRate q.env (gasCell q.r a h pf c) (quadFactor q.env (q.quad Nx Ny Nz) (gasCell q.r a h pf c))
            (Finset.range nw) (quadRays q k nx ny nz a h pf march lam c) ia x y := by
    intro c hin adr hadr ia hia x y
    rw [addOps_total, total_flatMap]
    congr 1
    have e1 : ((List.range nw).map fun la => total (ops la) (ia, x, y, adr.toNat)) =
        (List.range nw).map fun la => waveRate q k nx ny nz a h pf (march la) lam c ia x y la := by
      refine List.map_congr_left fun la hla => ?_
      exact hm2 la (List.mem_range.1 hla) c hin adr hadr ia hia x y
    rw [e1, sum_range_map]
    rfl
  refine ⟨addOps ((List.range nw).flatMap ops) G0, ?_⟩
  simp only [hnw, hcols]
  by_cases hcpu : q.r.onCpu = true
  · obtain ⟨J', Jc, r1, r2, r3, r4⟩ := batches_cpu solJ 1 (Nx * Ny * Nz) nw (fun la => min 1 (nw - la)) M Nat.one_pos (fun _ => rfl) (List.range nw) List.nodup_range
      hspec ⟨1, Nx * Ny * Nz, fun _ _ => 0⟩ ⟨nw, Nx * Ny * Nz, fun _ _ => 0⟩ rfl rfl rfl rfl
    refine ⟨Jc, march, ?_, hlight, hfin Jc r2 r3 fun p x hr ha => ?_, hG⟩
    · rw [if_pos hcpu]
      exact batchesCpuG_of _ solJ _ ops _ (fun la _ J J' e => hsol1 la J J' e) _ _ _ _ r1
    · rw [r4 p x hr ha, if_pos (hin p hr)]
  · obtain ⟨J', r1, r2, r3, r4⟩ := batches_dev solJ 1 (Nx * Ny * Nz) nw (fun la => min 1 (nw - la)) M Nat.one_pos (fun _ => rfl) (List.range nw) List.nodup_range
      hspec ⟨nw, Nx * Ny * Nz, fun _ _ => 0⟩ rfl rfl
    refine ⟨J', march, ?_, hlight, hfin J' r2 r3 fun p x hr ha => ?_, hG⟩
    · rw [if_neg hcpu]
      exact batchesDevG_of _ solJ ops _ (fun la _ J J' e => hsol1 la J J' e) _ _ _ r1
    · rw [r4 p x hr ha, if_pos (hin p hr)]
      show (0 : ℝ) + _ = _
      rw [zero_add]

end DexRT.Nlte3
