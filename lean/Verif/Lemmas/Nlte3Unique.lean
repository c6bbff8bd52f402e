import Verif.Lemmas.Nlte3Loop
import Verif.Lemmas.LteSolve3
import Verif.Spec.NlteLambda3
/-! Lemmas for C93: the result of an iteration is unique. -/
namespace DexRT.Nlte3
open DexRT DexRT.Fs DexRT.AtmosFile DexRT.Dir DexRT.Given3 DexRT.Emis DexRT.Lte3 DexRT.RadGamma Classical
open DexRT.Nlte (SameCell rayRate_congr)

variable {q : Setup} {k nx ny nz : Nat} {a : Cond} {pf pf' : Coord3 → Emis.Pops} {h h' : Coord3 → ℝ}

/-- the populations of all levels agree -/
def SameLevels (r : Lte3.Run) (pf pf' : Coord3 → Emis.Pops) (c : Coord3) : Prop :=
  ∀ ia at', r.ad.atoms[ia]? = some at' → ∀ l, l < at'.top + 1 → pf c ia l = pf' c ia l

theorem gas_congr {r : Lte3.Run} (hl : LteRun.LevelsExist r.ad) (c : Coord3) (hs : SameLevels r pf pf' c) (la : Nat) (mu : Fin 3 → ℝ) :
    gasOf r a h pf la mu c = gasOf r a h pf' la mu c :=
  LteRun.gas_congr (r := flat r) (a := same a c) (h := fun _ => h c) hl (fun _ => pf c) (fun _ => pf' c) ⟨0, 0⟩ hs la mu

theorem arriving_congr (hf : Fits q.r.s k nx ny nz) (hq : NlteReady q) (b' : Bool) (m' : Nat)
    (hpf : ∀ c, InGrid k nx ny nz c → SameLevels q.r pf pf' c) (he : ∀ c, InGrid k nx ny nz c → h c = h' c) (march march' : Marched)
    (hm : ∀ la, la < q.r.ad.wavelength.length → Marches3 (gasWorld q.r k nx ny nz a h pf) (envOf q.r.s (nx * 2 ^ k) (ny * 2 ^ k) (nz * 2 ^ k) (march la)) q.r.s.len la)
    (hm' : ∀ la, la < q.r.ad.wavelength.length → Marches3 (gasWorld (q.rearranged b' m').r k nx ny nz a h' pf')
      (envOf (q.rearranged b' m').r.s (nx * 2 ^ k) (ny * 2 ^ k) (nz * 2 ^ k) (march' la)) (q.rearranged b' m').r.s.len la)
    (la : Nat) (hla : la < q.r.ad.wavelength.length) (x y z p b : Nat) (hx : x < nx * 2 ^ k) (hy : y < ny * 2 ^ k) (hz : z < nz * 2 ^ k) (hp : p < q.r.s.cfg.c0polar) (hb : b < q.r.s.cfg.c0az) :
    radiance3 (march la) (nx * 2 ^ k) (ny * 2 ^ k) (nz * 2 ^ k) (upperTexels3 q.r.s.cfg.branch).1 (upperTexels3 q.r.s.cfg.branch).2 q.r.s.num q.r.s.num ⟨x, y, z, p, b⟩ =
      radiance3 (march' la) (nx * 2 ^ k) (ny * 2 ^ k) (nz * 2 ^ k) (upperTexels3 q.r.s.cfg.branch).1 (upperTexels3 q.r.s.cfg.branch).2 q.r.s.num q.r.s.num ⟨x, y, z, p, b⟩ ∧
    march la false 0 ⟨x, y, z, p, b⟩ = march' la false 0 ⟨x, y, z, p, b⟩ := by
  have hgas : ∀ c, InGrid k nx ny nz c → ∀ mu, gasOf q.r a h pf la mu c = gasOf q.r a h' pf' la mu c := by
    intro c hc mu
    rw [gas_congr hq.ready.levels c (hpf c hc) la mu]
    unfold gasOf point
    rw [he c hc]
  have m1 := hm la hla
  have m1' := hm' la hla
  refine ⟨radiance_congr hf a ⟨rfl, rfl⟩ h' pf' la hgas (march la) (march' la) m1 m1' x y z p b hx hy hz hp hb, ?_⟩
  have r0 := ray_zero hf (march la) x y z p b hx hy hz hp hb
  have a1 := m1.1 0 _ hq.ready.cascades r0
  have a2 := m1'.1 0 ⟨x, y, z, p, b⟩ hq.ready.cascades ⟨r0.u, r0.v, r0.w, r0.az, r0.polar⟩
  exact marchRay3_unique _ _ _ _ _ _ _ _ _ ((march_congr (fun l mu c => (gasOf q.r a h' pf' l.toNat mu c).eta) (fun l mu c => (gasOf q.r a h' pf' l.toNat mu c).chi) la
    (fun c hc mu => ⟨congrArg EO.eta (hgas c hc mu), congrArg EO.chi (hgas c hc mu)⟩) (march la) (march' la) false 0 ⟨x, y, z, p, b⟩ _).1 a1) a2

/-- the rates are those of the light -/
theorem rate_congr (hq : NlteReady q) (b' : Bool) (m' : Nat) (hpf : ∀ c, InGrid k nx ny nz c → SameLevels q.r pf pf' c)
    (he : ∀ c, InGrid k nx ny nz c → h c = h' c) (march march' : Marched) (lam : Bool) (c : Coord3) (hc : InGrid k nx ny nz c)
    (hA : ∀ la, la < q.r.ad.wavelength.length → ∀ p b, p < q.r.s.cfg.c0polar → b < q.r.s.cfg.c0az →
      arriving q.r.s (nx * 2 ^ k) (ny * 2 ^ k) (nz * 2 ^ k) march c la (p, b) = arriving (q.rearranged b' m').r.s (nx * 2 ^ k) (ny * 2 ^ k) (nz * 2 ^ k) march' c la (p, b) ∧
      operator lam march c la (p, b) = operator lam march' c la (p, b)) (ia n : Nat) (C : Fin n → Fin n → ℝ) :
    rate q k nx ny nz a h pf march lam c ia n C = rate (q.rearranged b' m') k nx ny nz a h' pf' march' lam c ia n C := by
  have hs : SameCell (flat q.r) (gasCell q.r a h pf c) (gasCell (q.rearranged b' m').r a h' pf' c) := by
    constructor
    all_goals first | rfl | exact he c hc | exact ⟨rfl, rfl, rfl⟩ | (intro ia at' h1 l h2; exact hpf c hc ia at' h1 l h2)
  have hlf : ∀ kr, lineFactor q (gasCell q.r a h pf c) kr = lineFactor (q.rearranged b' m') (gasCell (q.rearranged b' m').r a h' pf' c) kr := by
    intro kr
    have hg : gasCell q.r a h pf c = { gasCell (q.rearranged b' m').r a h' pf' c with n := pf c } := by
      unfold gasCell
      rw [he c hc]
      rfl
    rw [hg]
    rfl
  funext i j
  have key : radiativeRate (rateData q) (gasCell q.r a h pf c) (lineFactor q (gasCell q.r a h pf c))
      (Finset.range q.r.ad.wavelength.length) (cellRays q k nx ny nz a h pf march lam c) ia i j =
      radiativeRate (rateData q) (gasCell (q.rearranged b' m').r a h' pf' c) (lineFactor (q.rearranged b' m') (gasCell (q.rearranged b' m').r a h' pf' c))
      (Finset.range q.r.ad.wavelength.length) (cellRays (q.rearranged b' m') k nx ny nz a h' pf' march' lam c) ia i j := by
    unfold radiativeRate
    refine Finset.sum_congr rfl fun la hla => Finset.sum_congr rfl fun x hx => ?_
    have hx1 := Finset.mem_range.1 (Finset.mem_product.1 hx).1
    have hx2 := Finset.mem_range.1 (Finset.mem_product.1 hx).2
    obtain ⟨e1, e2⟩ := hA la (Finset.mem_range.1 hla) x.1 x.2 hx1 hx2
    have f1 : (cellRays q k nx ny nz a h pf march lam c).I la x = (cellRays (q.rearranged b' m') k nx ny nz a h' pf' march' lam c).I la x := e1
    have f2 : (cellRays q k nx ny nz a h pf march lam c).psi la x = (cellRays (q.rearranged b' m') k nx ny nz a h' pf' march' lam c).psi la x := e2
    have f3 : (cellRays q k nx ny nz a h pf march lam c).weight x = (cellRays (q.rearranged b' m') k nx ny nz a h' pf' march' lam c).weight x := rfl
    have f4 : (cellRays q k nx ny nz a h pf march lam c).vel x = (cellRays (q.rearranged b' m') k nx ny nz a h' pf' march' lam c).vel x := rfl
    rw [f1, f2, f3, f4]
    rw [rayRate_congr (r := flat q.r) (rateData q) rfl hq.ready.levels _ _ hs _ _ (fun kr _ => hlf kr) ia i j la (fun t _ _ _ => ⟨rfl, rfl⟩)]
  exact congrArg (C i j + ·) key

theorem neutral_unique' (hq : NlteReady q) (hw : q.r.haveH = false → Warm k nx ny nz a) (b' : Bool) (m' : Nat)
    (hpf : ∀ c, InGrid k nx ny nz c → SameLevels q.r pf pf' c) (h1 : NeutralOf q.r k nx ny nz a pf h) (h2 : NeutralOf (q.rearranged b' m').r k nx ny nz a pf' h') :
    ∀ c, InGrid k nx ny nz c → h c = h' c := by
  refine neutral_unique hq.ready.saha hw h' h1 fun c hc => ?_
  have := h2 c hc
  by_cases hh : q.r.haveH = true
  · rw [if_pos (show (q.rearranged b' m').r.haveH = true from hh)] at this
    rw [if_pos hh, this]
    obtain ⟨x, xs, hx⟩ := List.exists_cons_of_ne_nil (hq.ready.hydrogen hh)
    exact (hpf c hc 0 x (by rw [hx]; rfl) 0 (by omega)).symm
  · rw [if_neg (show ¬ (q.rearranged b' m').r.haveH = true from hh)] at this
    rw [if_neg hh]
    exact this

/-- one iteration -/
theorem iterates_unique (hf : Fits q.r.s k nx ny nz) (hq : NlteReady q) (hw : q.r.haveH = false → Warm k nx ny nz a) (b' : Bool) (m' : Nat)
    (hpf : ∀ c, InGrid k nx ny nz c → SameLevels q.r pf pf' c) (lam : Bool) (hs : Solvable q k nx ny nz a lam pf) {p p' : Coord3 → Emis.Pops} {J J' : Arr2 ℝ}
    (hi : Iterates q k nx ny nz a lam pf p J) (hi' : Iterates (q.rearranged b' m') k nx ny nz a lam pf' p' J') :
    (∀ c, InGrid k nx ny nz c → SameLevels q.r p p' c) ∧
      ∀ la x y z, la < q.r.ad.wavelength.length → x < nx * 2 ^ k → y < ny * 2 ^ k → z < nz * 2 ^ k → J.get la ((z * (ny * 2 ^ k) + y) * (nx * 2 ^ k) + x) = J'.get la ((z * (ny * 2 ^ k) + y) * (nx * 2 ^ k) + x) := by
  obtain ⟨h, march, l1, l2, l3⟩ := hi
  obtain ⟨h', march', l1', l2', l3'⟩ := hi'
  have he := neutral_unique' hq hw b' m' hpf l1.neutral l1'.neutral
  have hA := arriving_congr hf hq b' m' hpf he march march' l1.rays l1'.rays
  constructor
  · intro c hc ia x hx l hl
    obtain ⟨C, c1, c2, c3⟩ := l3 c hc ia x hx
    obtain ⟨C', c1', c2', c3'⟩ := l3' c hc ia x hx
    obtain ⟨n1, n2⟩ := hs h march l1 c hc ia x hx C c1
    have hCC : C = C' := by
      unfold Collisional at c1 c1'
      rw [he c hc] at c1
      have : (Outcome.ok C : Outcome _) = .ok C' := c1.symm.trans c1'
      injection this
    subst hCC
    have hcx : c.x.toNat < nx * 2 ^ k := by have := hc.1; have := hc.2.1; omega
    have hcy : c.y.toNat < ny * 2 ^ k := by have := hc.2.2.1; have := hc.2.2.2.1; omega
    have hcz : c.z.toNat < nz * 2 ^ k := by have := hc.2.2.2.2.1; have := hc.2.2.2.2.2; omega
    rw [← rate_congr hq b' m' hpf he march march' lam c hc (fun la hla d th hd ht => by
      obtain ⟨e1, e2⟩ := hA la hla c.x.toNat c.y.toNat c.z.toNat d th hcx hcy hcz hd ht
      refine ⟨e1, ?_⟩
      unfold operator rayAt
      show (if lam = true then (0 : ℝ) else _) = if lam = true then (0 : ℝ) else _
      cases lam
      · simp only [Bool.false_eq_true, if_false]
        exact congrArg Seg.psi e2
      · rfl)] at c2'
    have u1 := C25_unique 0 _ (a.nhTot c * x.abundance) n1 (n2 0) _ c2 c3
    have u2 := C25_unique 0 _ (a.nhTot c * x.abundance) n1 (n2 0) _ c2' c3'
    rw [u1] at u2
    exact congrFun (Option.some.inj u2) ⟨l, hl⟩
  · intro la x y z hla hx hy hz
    rw [l2.value la hla x y z hx hy hz, l2'.value la hla x y z hx hy hz]
    exact mean_congr3 _ _ _ _ _ _ _ fun d th hd ht => (hA la hla x y z d th hx hy hz hd ht).1

/-- the largest change is unique -/
theorem change_unique {p p' : Coord3 → Emis.Pops} (b' : Bool) (m' : Nat) (hpf : ∀ c, InGrid k nx ny nz c → SameLevels q.r pf pf' c) (hp : ∀ c, InGrid k nx ny nz c → SameLevels q.r p p' c)
    {d d' : ℝ} (h1 : LargestChange q k nx ny nz a pf p d) (h2 : LargestChange (q.rearranged b' m') k nx ny nz a pf' p' d') : d = d' := by
  refine le_antisymm ?_ ?_
  · rcases h1.attained with e | ⟨c, ia, x, l, e1, e2, e3, e4, e5⟩
    · rw [e]; exact h2.nonneg
    · rw [e5, hpf c e1 ia x e2 l e3, hp c e1 ia x e2 l e3]
      rw [hpf c e1 ia x e2 l e3] at e4
      exact h2.bound c e1 ia x e2 l e3 e4
  · rcases h2.attained with e | ⟨c, ia, x, l, e1, e2, e3, e4, e5⟩
    · rw [e]; exact h1.nonneg
    · rw [e5, ← hpf c e1 ia x e2 l e3, ← hp c e1 ia x e2 l e3]
      rw [← hpf c e1 ia x e2 l e3] at e4
      exact h1.bound c e1 ia x e2 l e3 e4

/-- traces agree as far as both go -/
theorem trace_unique (hf : Fits q.r.s k nx ny nz) (hq : NlteReady q) (hw : q.r.haveH = false → Warm k nx ny nz a) (b' : Bool) (m' : Nat)
    {n n' : Nat} {ps ps' : Nat → Coord3 → Emis.Pops} {Js Js' : Nat → Arr2 ℝ} {ds ds' : Nat → ℝ} (ht : Trace q k nx ny nz a n ps Js ds)
    (ht' : Trace (q.rearranged b' m') k nx ny nz a n' ps' Js' ds') (hs : ∀ i, i < n → Solvable q k nx ny nz a (decide (i < q.initial)) (ps i)) :
    ∀ i, i ≤ n → i ≤ n' → (∀ c, InGrid k nx ny nz c → SameLevels q.r (ps i) (ps' i) c) ∧ ∀ j, j < i → ds j = ds' j ∧
      ∀ la x y z, la < q.r.ad.wavelength.length → x < nx * 2 ^ k → y < ny * 2 ^ k → z < nz * 2 ^ k → (Js j).get la ((z * (ny * 2 ^ k) + y) * (nx * 2 ^ k) + x) = (Js' j).get la ((z * (ny * 2 ^ k) + y) * (nx * 2 ^ k) + x) := by
  intro i
  induction i with
  | zero =>
    intro _ _
    refine ⟨fun c _ ia x _ l _ => ?_, fun j hj => absurd hj (by omega)⟩
    rw [ht.start, ht'.start]; rfl
  | succ i ih =>
    intro hn hn'
    obtain ⟨i1, i2⟩ := ih (by omega) (by omega)
    obtain ⟨s1, s2⟩ := ht.step i (by omega)
    obtain ⟨s1', s2'⟩ := ht'.step i (by omega)
    obtain ⟨u1, u2⟩ := iterates_unique hf hq hw b' m' i1 _ (hs i (by omega)) s1 s1'
    refine ⟨u1, fun j hj => ?_⟩
    rcases Nat.lt_succ_iff_lt_or_eq.1 hj with h | h
    · exact i2 j h
    · rw [h]; exact ⟨change_unique b' m' i1 u1 s2 s2', u2⟩

end DexRT.Nlte3
