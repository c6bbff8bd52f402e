import Verif.Lemmas.RayStart3
import Verif.Lemmas.RayCells
/-! Lemmas for C92: what is loaded, and the emissivity and opacity of the cells. -/
namespace DexRT.RayRun3
open DexRT DexRT.AtmosFile DexRT.Emis DexRT.Ray DexRT.RayRun DexRT.Lte3 Classical

variable {t : Tool} {k nx ny nz : Nat} {a : Cond} {res : Result} {d : Loaded}

/-- what is loaded -/
structure IsLoaded (t : Tool) (k nx ny nz : Nat) (a : Cond) (res : Result) (d : Loaded) : Prop where
  map : MapFor3 (2 ^ k) nx ny nz (ActiveTile t k a) d.bm
  mrbm : d.mr.bm = d.bm
  off : d.mr.off 0 = 0
  store : 0 < d.mr.maxStore
  levels : LevelsFor (GridTile3 (2 ^ k) (nx * (2 ^ k : Nat)) (ny * (2 ^ k : Nat)) (nz * (2 ^ k : Nat))) (ActiveTile t k a) d.mr (tileLevel t k a)
  rows : d.rows = res.levels
  cell : ∀ c, HasData3 (2 ^ k) nx ny nz (ActiveTile t k a) c → ∀ adr, Addr3 (2 ^ k) d.bm c adr → d.atmos.temperature adr = a.temperature c ∧
    d.atmos.ne adr = (updated a res).ne c ∧ d.atmos.nhTot adr = (updated a res).nhTot c ∧ d.atmos.vturb adr = a.vturb c ∧ d.atmos.vx adr = a.vx c ∧
    d.atmos.vy adr = a.vy c ∧ d.atmos.vz adr = a.vz c
  pops : ∀ c, HasData3 (2 ^ k) nx ny nz (ActiveTile t k a) c → ∀ adr, Addr3 (2 ^ k) d.bm c adr → 0 ≤ adr ∧ adr.toNat < d.cols ∧
    ∀ i < res.levels, d.pops adr i = res.pops c i
  scale : d.atmos.voxelScale = a.scale
  offX : d.atmos.offsetX = a.offset 0
  offY : d.atmos.offsetY = a.offset 1
  offZ : d.atmos.offsetZ = a.offset 2

section
variable {W : Type} {cv : W → ℝ} {f : NcFile Coord3 W} {bm : BlockMap Coord3} {at' : Atmos Int ℝ} {sc : Sched Coord3} {junk : Atmos Int ℝ} {out : OutFile}

/-- a density from the output -/
theorem updateField3_ok (hf : RayFits t k nx ny nz) (hm : MapFor3 (2 ^ k) nx ny nz (ActiveTile t k a) bm)
    (hsc : GoodSched (2 ^ k * 2 ^ k * 2 ^ k) inDims3 sc) (hl : load3 (2 ^ k) LteRun.realOps cv (fun x => decide (x = 0)) f t.cutoff sc junk = .ok (bm, at'))
    (n : Nat) (hlt : ∀ c i, Kept3 t k nx ny nz a c → Stored t cv f k c i → i.toNat < n)
    (name : String) (q : Option (Coord3 → ℝ)) (hq : HasDensity t cv f k nx ny nz a out n name q)
    (old : Int → ℝ) (base : Coord3 → ℝ) (hold : ∀ c, HasData3 (2 ^ k) nx ny nz (ActiveTile t k a) c → ∀ adr, Addr3 (2 ^ k) bm c adr → old adr = base c) :
    ∃ m, updateField3 (2 ^ k) bm out name old = .ok m ∧
      ∀ c, HasData3 (2 ^ k) nx ny nz (ActiveTile t k a) c → ∀ adr, Addr3 (2 ^ k) bm c adr → m adr = q.getD base c := by
  have H := iterSpace3 k nx ny nz _ bm hf.axes.1 hf.axes.2.1 hf.axes.2.2 hm
  cases q with
  | none =>
    have hq : out.var name = none := hq
    unfold updateField3
    rw [hq]
    exact ⟨old, rfl, hold⟩
  | some q =>
    obtain ⟨v, h1, h2, h3⟩ := hq
    unfold updateField3
    rw [h1]
    have hst : ∀ c adr, Addr3 (2 ^ k) bm c adr → Stored t cv f k c adr := fun c adr h => ⟨sc, junk, bm, at', hsc, hl, h⟩
    have hle : numActiveCells (((2 ^ k : Nat) : Int) * ((2 ^ k : Nat) : Int) * ((2 ^ k : Nat) : Int)) bm ≤ ((n : Nat) : Int) := by
        by_contra hcon
        push Not at hcon
        obtain ⟨p, hp, e⟩ := H.ontoN n (by omega) hcon
        obtain ⟨c, -, c2, c3⟩ := H.co p hp
        rw [e] at c3
        have := hlt c n ((kept_iff _ _ _ _ _ _ _).2 c2) (hst c n c3)
        simp at this
    simp only [readVar, h1, need, Outcome.ok_bind, h2]
    rw [if_pos (by rfl)]
    simp only [Outcome.ok_bind, h2]
    rw [if_pos (by exact hle)]
    exact ⟨_, rfl, fun c hc adr hadr => h3 c _ ((kept_iff _ _ _ _ _ _ _).2 hc) (hst c adr hadr)⟩

theorem loadPops3_ok (hf : RayFits t k nx ny nz) (hm : MapFor3 (2 ^ k) nx ny nz (ActiveTile t k a) bm)
    (hsc : GoodSched (2 ^ k * 2 ^ k * 2 ^ k) inDims3 sc) (hl : load3 (2 ^ k) LteRun.realOps cv (fun x => decide (x = 0)) f t.cutoff sc junk = .ok (bm, at'))
    (n : Nat) (hlt : ∀ c i, Kept3 t k nx ny nz a c → Stored t cv f k c i → i.toNat < n)
    (hq : ∃ v, out.var "pops" = some v ∧ v.dims = [res.levels, n] ∧ ∀ l < res.levels, HoldsField t cv f k nx ny nz a v [l] (fun c => res.pops c l)) :
    ∃ m, loadPops3 out = .ok (res.levels, n, m) ∧
      ∀ c, HasData3 (2 ^ k) nx ny nz (ActiveTile t k a) c → ∀ adr, Addr3 (2 ^ k) bm c adr → 0 ≤ adr ∧ adr.toNat < n ∧ ∀ i < res.levels, m adr i = res.pops c i := by
  have H := iterSpace3 k nx ny nz _ bm hf.axes.1 hf.axes.2.1 hf.axes.2.2 hm
  have hrng : ∀ c, HasData3 (2 ^ k) nx ny nz (ActiveTile t k a) c → ∀ adr, Addr3 (2 ^ k) bm c adr →
      0 ≤ adr ∧ adr < numActiveCells (((2 ^ k : Nat) : Int) * ((2 ^ k : Nat) : Int) * ((2 ^ k : Nat) : Int)) bm := by
    intro c hc adr hadr
    obtain ⟨p, hp, hpc⟩ := H.ontoC c hc
    obtain ⟨c', c1, -, c3⟩ := H.co p hp
    rw [hpc] at c1
    rw [Outcome.ok.inj c1] at hadr
    rw [H.fn _ _ _ hadr c3]
    exact H.rng p hp
  obtain ⟨v, h1, h2, h3⟩ := hq
  unfold loadPops3
  simp only [readVar, h1, need, Outcome.ok_bind, h2]
  rw [if_pos (by rfl)]
  simp only [Outcome.ok_bind, h2]
  refine ⟨_, rfl, fun c hc adr hadr => ?_⟩
  have hst : Stored t cv f k c adr := ⟨sc, junk, bm, at', hsc, hl, hadr⟩
  have hk := (kept_iff t k nx ny nz a c).2 hc
  exact ⟨(hrng c hc adr hadr).1, hlt c adr hk hst, fun i hi => h3 i hi c _ hk hst⟩

theorem load_ok (hf : RayFits t k nx ny nz) (hd : Describes f cv (2 ^ k) nx ny nz a) {n : Nat} (ho : OutputIs t cv f k nx ny nz a out n res) (o : StartOrder)
    (hs : StartOrders t cv f k o) : ∃ d, load t cv f out o = .ok d ∧ IsLoaded t k nx ny nz a res d ∧
      ∃ at', load3 (2 ^ k) LteRun.realOps cv (fun x => decide (x = 0)) f t.cutoff o.load o.junk = .ok (d.bm, at') := by
  obtain ⟨bm, s, hl, hm, hcell, hsca, hox, hoy, hoz⟩ := load_cells hf hd o.load hs.load o.junk
  have s1 := hs.rest bm s hl
  obtain ⟨lk, lk', off, c1, c2, c3, c4, c5⟩ := configure_ok hf bm hm o.tiles s1
  obtain ⟨hlt, hp, hne, hnh⟩ := ho
  obtain ⟨mne, n1, n2⟩ := updateField3_ok hf hm hs.load hl n hlt "ne" res.ne hne s.ne a.ne (fun c hc adr hadr => (hcell c hc adr hadr).2.1)
  obtain ⟨mnh, h1, h2⟩ := updateField3_ok hf hm hs.load hl n hlt "nh_tot" res.nhTot hnh s.nhTot a.nhTot
    (fun c hc adr hadr => (hcell c hc adr hadr).2.2.1)
  obtain ⟨mp, p1, p2⟩ := loadPops3_ok (res := res) hf hm hs.load hl n hlt hp
  unfold load
  rw [hf.block]
  simp only [hl, c1, c2, c4, n1, h1, p1, Outcome.ok_bind]
  refine ⟨_, rfl, ⟨hm, rfl, c3, ?_, c5, rfl, fun c hc adr hadr => ?_, p2, hsca, hox, hoy, hoz⟩, s, rfl⟩
  · show 0 < 2 ^ t.E - 1
    have : 2 ≤ 2 ^ t.E := by
      calc 2 = 2 ^ 1 := rfl
        _ ≤ 2 ^ t.E := Nat.pow_le_pow_right (by norm_num) hf.entry.1
    omega
  · obtain ⟨x1, -, -, x4, x5, x6, x7⟩ := hcell c hc adr hadr
    exact ⟨x1, n2 c hc adr hadr, h2 c hc adr hadr, x4, x5, x6, x7⟩
end

/-- the neutral hydrogen density the tool computes -/
noncomputable def hOf (t : Tool) (a : Cond) (res : Result) (c : Coord3) : ℝ :=
  if t.haveH then res.pops c 0
  else match Lte.hPart t.sahaConst t.ionE (a.temperature c) ((updated a res).ne c) ((updated a res).nhTot c) with
    | .ok h => h.1
    | _ => 0

theorem hOf_neutral (hr : RayReady t) (hw : t.haveH = false → WarmKept t k nx ny nz a res) : NeutralH t k nx ny nz a res (hOf t a res) := by
  intro c hc
  unfold hOf
  by_cases hh : t.haveH = true
  · simp [hh]
  · have hh' : t.haveH = false := by simpa using hh
    obtain ⟨w1, w2, w3⟩ := hw hh' c hc
    obtain ⟨n0, n1, u, e1, e2, e3, e4, e5, e6⟩ := _root_.DexRT.C50_hydrogen t.sahaConst t.ionE _ _ _ hr.saha w1 w2 w3
    simp only [hh', Bool.false_eq_true, if_false, e1]
    exact ⟨e3, by linarith, u, e5, by rw [← e2, add_sub_cancel_left]; exact e6⟩

/-- emissivity and opacity of a cell -/
theorem cellVal_ok (hr : RayReady t) (hI : IsLoaded t k nx ny nz a res d) (hlev : totalLevels t.ad ≤ res.levels) (hw : t.haveH = false → WarmKept t k nx ny nz a res)
    (mu : Boundary.V3) (lambda : ℝ) (scratch : Emis.Pops) (c : Coord3) (hc : HasData3 (2 ^ k) nx ny nz (ActiveTile t k a) c) (adr : Int)
    (hadr : Addr3 (2 ^ k) d.bm c adr) :
    cellVal t d mu lambda scratch adr.toNat = .ok (gasAt t (updated a res) res (hOf t a res) mu lambda c) := by
  obtain ⟨p1, p2, p3⟩ := hI.pops c hc adr hadr
  obtain ⟨x1, x2, x3, x4, x5, x6, x7⟩ := hI.cell c hc adr hadr
  have hpos : t.haveH = true → 0 < res.levels := by
    intro hh
    have hne := hr.hydrogen hh
    obtain ⟨y, l, hyl⟩ := List.exists_cons_of_ne_nil hne
    have : 0 < totalLevels t.ad := by
      unfold totalLevels
      rw [hyl]; simp
    omega
  have hz : ((adr.toNat : Nat) : Int) = adr := Int.toNat_of_nonneg p1
  unfold cellVal
  rw [if_neg]
  swap
  · rintro (h | h | h | ⟨h1, h2⟩)
    · rw [hI.rows] at h; omega
    · omega
    · exact h hr.levels
    · rw [hI.rows] at h2; have := hpos h1; omega
  simp only [hz]
  have hh : (if t.haveH = true then Outcome.ok (d.pops adr 0) else do
      let h ← Lte.hPart t.sahaConst t.ionE (d.atmos.temperature adr) (d.atmos.ne adr) (d.atmos.nhTot adr)
      .ok h.1) = .ok (hOf t a res c) := by
    unfold hOf
    by_cases hh : t.haveH = true
    · simp only [hh, if_true]
      rw [p3 0 (hpos hh)]
    · have hh' : t.haveH = false := by simpa using hh
      obtain ⟨w1, w2, w3⟩ := hw hh' c ((kept_iff _ _ _ _ _ _ _).2 hc)
      obtain ⟨n0, n1, u, e1, -⟩ := _root_.DexRT.C50_hydrogen t.sahaConst t.ionE _ _ _ hr.saha w1 w2 w3
      simp only [hh', Bool.false_eq_true, if_false, x1, x2, x3, e1, Outcome.ok_bind]
  rw [hh, Outcome.ok_bind]
  have hpt : pointOf d mu (hOf t a res c) adr =
      point (updated a res) (hOf t a res) (-((updated a res).vx c * mu.x + (updated a res).vy c * mu.y + (updated a res).vz c * mu.z)) c := by
    unfold pointOf point updated
    simp only [x1, x4]
    rw [x2, x3]
    have : a.vx c * -mu.x + a.vy c * -mu.y + a.vz c * -mu.z = -(a.vx c * mu.x + a.vy c * mu.y + a.vz c * mu.z) := by ring
    rw [x5, x6, x7, this]
    rfl
  rw [hpt]
  have hpop : ∀ ia at', t.ad.atoms[ia]? = some at' → ∀ l, l < at'.top + 1 → popsAt t d adr ia l = popsOf t res c ia l := by
    intro ia x hx l hl
    unfold popsAt popsOf levelStart
    refine p3 _ (lt_of_lt_of_le (level_lt t.ad _ _ _ hx l hl) hlev)
  obtain ⟨c1, c2⟩ := count_spec t.ad.wavelength hr.sorted lambda
  obtain ⟨g1, g2⟩ := C54_any_wavelength t.k t.phi t.ad hr.wellFormed hr.sorted (popsAt t d adr) scratch
    (point (updated a res) (hOf t a res) (-((updated a res).vx c * mu.x + (updated a res).vy c * mu.y + (updated a res).vz c * mu.z)) c) lambda
  unfold gasAt
  cases hn : (t.ad.wavelength.filter fun w => decide (w ≤ lambda)).length with
  | zero => rw [g1 (c1 hn)]; rfl
  | succ la =>
    obtain ⟨q1, q2, q3⟩ := c2 la hn
    obtain ⟨nStar, scratch', s1, s2⟩ := g2 la q1 q2 q3
    rw [s2]
    simp only [Outcome.ok_bind, Nat.succ_ne_zero, if_false, Nat.add_sub_cancel]
    rw [lines_congr' hr.levels _ _ hpop, conts_congr' hr.levels _ _ _ nStar (starOf t (updated a res) c) hpop]
    intro ia x hx l hl
    unfold starOf
    have : ∃ y, EmisSpec.lte t.k t.ad (point (updated a res) (fun _ => 0) 0 c) ia l = some y ∧
        EmisSpec.lte t.k t.ad (point (updated a res) (hOf t a res) (-((updated a res).vx c * mu.x + (updated a res).vy c * mu.y + (updated a res).vz c * mu.z)) c) ia l = some y := by
      unfold EmisSpec.lte
      simp only [hx, Option.bind_some, dif_pos hl]
      exact ⟨_, rfl, rfl⟩
    obtain ⟨y, y1, y2⟩ := this
    rw [y1, s1 ia l y y2]
    rfl

end DexRT.RayRun3
