import Verif.Lemmas.NlteLoop
import Verif.Lemmas.LteSolve
import Verif.Spec.NlteLambda
/-! Lemmas for C89: the result of an iteration is unique. -/
namespace DexRT.Nlte
open DexRT DexRT.Fs DexRT.AtmosFile DexRT.Dir DexRT.Given DexRT.Emis DexRT.LteRun DexRT.RadGamma Classical

variable {q : Setup} {k nx nz : Nat} {a : Cond} {pf pf' : Coord2 → Emis.Pops} {h h' : Coord2 → ℝ}

theorem arriving_congr (hf : Fits q.r.s k nx nz) (hq : NlteReady q) (W' : Nat) (hW' : 0 < W') (b' : Bool) (m' : Nat)
    (hpf : ∀ c, Given.InGrid k nx nz c → SameLevels q.r pf pf' c) (he : ∀ c, Given.InGrid k nx nz c → h c = h' c) (march march' : Marched)
    (hm : ∀ la, la < q.r.ad.wavelength.length → q.r.s.W ∣ la → Marches2 (gasWorld q.r k nx nz a h pf) (envOf q.r.s (nx * 2 ^ k) (nz * 2 ^ k) (march la)) (raysFrom q.r.s la)
      (min q.r.s.W (q.r.ad.wavelength.length - la)))
    (hm' : ∀ la, la < q.r.ad.wavelength.length → W' ∣ la → Marches2 (gasWorld (q.r.rearranged W' b' m') k nx nz a h' pf')
      (envOf (q.r.rearranged W' b' m').s (nx * 2 ^ k) (nz * 2 ^ k) (march' la)) (raysFrom (q.r.rearranged W' b' m').s la) (min W' (q.r.ad.wavelength.length - la)))
    (la : Nat) (hla : la < q.r.ad.wavelength.length) (x z d th : Nat) (hx : x < nx * 2 ^ k) (hz : z < nz * 2 ^ k) (hd : d < q.r.s.cfg.p0rays) (ht : th < q.r.s.incl) :
    radiance2 (march (la / q.r.s.W * q.r.s.W)) (nx * 2 ^ k) (nz * 2 ^ k) (upperTexelsPerRay q.r.s.cfg) q.r.s.num q.r.s.num ⟨x, z, d, th, la % q.r.s.W⟩ =
      radiance2 (march' (la / W' * W')) (nx * 2 ^ k) (nz * 2 ^ k) (upperTexelsPerRay q.r.s.cfg) q.r.s.num q.r.s.num ⟨x, z, d, th, la % W'⟩ ∧
    march (la / q.r.s.W * q.r.s.W) false 0 ⟨x, z, d, th, la % q.r.s.W⟩ = march' (la / W' * W') false 0 ⟨x, z, d, th, la % W'⟩ := by
  obtain ⟨b1, b2⟩ := batch_pos hf la hla
  have c1 := Nat.div_add_mod' la W'
  have c2 := Nat.mod_lt la hW'
  have d1 : la / q.r.s.W * q.r.s.W ≤ la := Nat.div_mul_le_self _ _
  have d2 : la / W' * W' ≤ la := Nat.div_mul_le_self _ _
  have hw' : la % W' < min W' (q.r.ad.wavelength.length - la / W' * W') := by omega
  have m1 := hm (la / q.r.s.W * q.r.s.W) (by omega) (Dvd.intro_left _ rfl)
  have m1' := hm' (la / W' * W') (by omega) (Dvd.intro_left _ rfl)
  refine ⟨radiance_congr hq.ready.levels pf' hpf hf hq.ready.noMips W' b' m' h' la _ _ _ _ _ _ b1 c1 b2 hw' he _ _ m1 m1' x z d th hx hz hd ht, ?_⟩
  have hgas : ∀ c, Given.InGrid k nx nz c → ∀ mu, gasOf q.r a h pf la mu c = gasOf q.r a h' pf' la mu c := by
    intro c hc mu
    rw [gas_congr hq.ready.levels pf pf' c (hpf c hc) la mu]
    unfold gasOf point
    rw [he c hc]
  have r0 := ray_zero hf (march (la / q.r.s.W * q.r.s.W)) _ x z d th _ hx hz hd ht b2
  have a1 := m1.1 0 _ hq.ready.cascades r0
  have a2 := m1'.1 0 ⟨x, z, d, th, la % W'⟩ hq.ready.cascades ⟨r0.u, r0.v, r0.dir, hw', r0.incl⟩
  exact marchRay2_unique _ _ _ _ _ _ _ _ ((march_congr hf hq.ready.noMips W' b' m' (fun l mu c => (gasOf q.r a h' pf' l.toNat mu c).eta) (fun l mu c => (gasOf q.r a h' pf' l.toNat mu c).chi)
    la (la / q.r.s.W * q.r.s.W) (la / W' * W') (la % q.r.s.W) (la % W') b1 c1
    (fun c hc mu => ⟨congrArg EO.eta (hgas c hc mu), congrArg EO.chi (hgas c hc mu)⟩) (march (la / q.r.s.W * q.r.s.W)) (march' (la / W' * W')) false 0 (Nat.zero_le _) ⟨x, z, d, th, 0⟩ _).1 a1) a2

/-- the rates are those of the light -/
theorem rate_congr (hq : NlteReady q) (W' : Nat) (b' : Bool) (m' : Nat) (hpf : ∀ c, Given.InGrid k nx nz c → SameLevels q.r pf pf' c)
    (he : ∀ c, Given.InGrid k nx nz c → h c = h' c) (march march' : Marched) (lam : Bool) (c : Coord2) (hc : Given.InGrid k nx nz c)
    (hA : ∀ la, la < q.r.ad.wavelength.length → ∀ d th, d < q.r.s.cfg.p0rays → th < q.r.s.incl →
      arriving q.r.s (nx * 2 ^ k) (nz * 2 ^ k) march c la (d, th) = arriving (q.rearranged W' b' m').r.s (nx * 2 ^ k) (nz * 2 ^ k) march' c la (d, th) ∧
      operator q.r.s lam march c la (d, th) = operator (q.rearranged W' b' m').r.s lam march' c la (d, th)) (ia n : Nat) (C : Fin n → Fin n → ℝ) :
    rate q k nx nz a h pf march lam c ia n C = rate (q.rearranged W' b' m') k nx nz a h' pf' march' lam c ia n C := by
  have hs : SameCell q.r (gasCell q.r a h pf c) (gasCell (q.rearranged W' b' m').r a h' pf' c) := by
    constructor
    all_goals first | rfl | exact he c hc | exact ⟨rfl, rfl, rfl⟩ | (intro ia at' h1 l h2; exact hpf c hc ia at' h1 l h2)
  have hlf : ∀ kr, lineFactor q (gasCell q.r a h pf c) kr = lineFactor (q.rearranged W' b' m') (gasCell (q.rearranged W' b' m').r a h' pf' c) kr := by
    intro kr
    have hg : gasCell q.r a h pf c = { gasCell (q.rearranged W' b' m').r a h' pf' c with n := pf c } := by
      unfold gasCell
      rw [he c hc]
      rfl
    rw [hg]
    rfl
  funext i j
  have key : radiativeRate (rateData q) (gasCell q.r a h pf c) (lineFactor q (gasCell q.r a h pf c))
      (Finset.range q.r.ad.wavelength.length) (cellRays q k nx nz a h pf march lam c) ia i j =
      radiativeRate (rateData q) (gasCell (q.rearranged W' b' m').r a h' pf' c) (lineFactor (q.rearranged W' b' m') (gasCell (q.rearranged W' b' m').r a h' pf' c))
      (Finset.range q.r.ad.wavelength.length) (cellRays (q.rearranged W' b' m') k nx nz a h' pf' march' lam c) ia i j := by
    unfold radiativeRate
    refine Finset.sum_congr rfl fun la hla => Finset.sum_congr rfl fun x hx => ?_
    have hx1 := Finset.mem_range.1 (Finset.mem_product.1 hx).1
    have hx2 := Finset.mem_range.1 (Finset.mem_product.1 hx).2
    obtain ⟨e1, e2⟩ := hA la (Finset.mem_range.1 hla) x.1 x.2 hx1 hx2
    have f1 : (cellRays q k nx nz a h pf march lam c).I la x = (cellRays (q.rearranged W' b' m') k nx nz a h' pf' march' lam c).I la x := e1
    have f2 : (cellRays q k nx nz a h pf march lam c).psi la x = (cellRays (q.rearranged W' b' m') k nx nz a h' pf' march' lam c).psi la x := e2
    have f3 : (cellRays q k nx nz a h pf march lam c).weight x = (cellRays (q.rearranged W' b' m') k nx nz a h' pf' march' lam c).weight x := rfl
    have f4 : (cellRays q k nx nz a h pf march lam c).vel x = (cellRays (q.rearranged W' b' m') k nx nz a h' pf' march' lam c).vel x := rfl
    rw [f1, f2, f3, f4]
    rw [rayRate_congr (r := q.r) (rateData q) rfl hq.ready.levels _ _ hs _ _ (fun kr _ => hlf kr) ia i j la (fun t _ _ _ => ⟨rfl, rfl⟩)]
  exact congrArg (C i j + ·) key

theorem neutral_unique' (hq : NlteReady q) (hw : q.r.haveH = false → Warm k nx nz a) (W' : Nat) (b' : Bool) (m' : Nat)
    (hpf : ∀ c, Given.InGrid k nx nz c → SameLevels q.r pf pf' c) (h1 : NeutralOf q.r k nx nz a pf h) (h2 : NeutralOf (q.r.rearranged W' b' m') k nx nz a pf' h') :
    ∀ c, Given.InGrid k nx nz c → h c = h' c := by
  refine neutral_unique hq.ready.saha hw h' h1 fun c hc => ?_
  have := h2 c hc
  by_cases hh : q.r.haveH = true
  · rw [if_pos (show (q.r.rearranged W' b' m').haveH = true from hh)] at this
    rw [if_pos hh, this]
    obtain ⟨x, xs, hx⟩ := List.exists_cons_of_ne_nil (hq.ready.hydrogen hh)
    exact (hpf c hc 0 x (by rw [hx]; rfl) 0 (by omega)).symm
  · rw [if_neg (show ¬ (q.r.rearranged W' b' m').haveH = true from hh)] at this
    rw [if_neg hh]
    exact this

/-- one iteration -/
theorem iterates_unique (hf : Fits q.r.s k nx nz) (hq : NlteReady q) (hw : q.r.haveH = false → Warm k nx nz a) (W' : Nat) (hW' : 0 < W') (b' : Bool) (m' : Nat)
    (hpf : ∀ c, Given.InGrid k nx nz c → SameLevels q.r pf pf' c) (lam : Bool) (hs : Solvable q k nx nz a lam pf) {p p' : Coord2 → Emis.Pops} {J J' : Arr2 ℝ}
    (hi : Iterates q k nx nz a lam pf p J) (hi' : Iterates (q.rearranged W' b' m') k nx nz a lam pf' p' J') :
    (∀ c, Given.InGrid k nx nz c → SameLevels q.r p p' c) ∧
      ∀ la x z, la < q.r.ad.wavelength.length → x < nx * 2 ^ k → z < nz * 2 ^ k → J.get la (z * (nx * 2 ^ k) + x) = J'.get la (z * (nx * 2 ^ k) + x) := by
  obtain ⟨h, march, l1, l2, l3⟩ := hi
  obtain ⟨h', march', l1', l2', l3'⟩ := hi'
  have he := neutral_unique' hq hw W' b' m' hpf l1.neutral l1'.neutral
  have hA := arriving_congr hf hq W' hW' b' m' hpf he march march' l1.rays l1'.rays
  constructor
  · intro c hc ia x hx l hl
    obtain ⟨C, c1, c2, c3⟩ := l3 c hc ia x hx
    obtain ⟨C', c1', c2', c3'⟩ := l3' c hc ia x hx
    obtain ⟨n1, n2⟩ := hs h march l1 c hc ia x hx C c1
    have hCC : C = C' := by
      unfold Collisional at c1 c1'
      rw [he c hc] at c1
      have : (Outcome.ok C : Outcome _) = .ok C' := c1.symm.trans c1'
      injection this
    subst hCC
    have hcx : c.x.toNat < nx * 2 ^ k := by have := hc.1; have := hc.2.1; omega
    have hcz : c.z.toNat < nz * 2 ^ k := by have := hc.2.2.1; have := hc.2.2.2; omega
    rw [← rate_congr hq W' b' m' hpf he march march' lam c hc (fun la hla d th hd ht => by
      obtain ⟨e1, e2⟩ := hA la hla c.x.toNat c.z.toNat d th hcx hcz hd ht
      refine ⟨e1, ?_⟩
      unfold operator rayAt
      show (if lam = true then (0 : ℝ) else _) = if lam = true then (0 : ℝ) else _
      cases lam
      · simp only [Bool.false_eq_true, if_false]
        exact congrArg Seg.psi e2
      · rfl)] at c2'
    have u1 := C25_unique 0 _ (a.nhTot c * x.abundance) n1 (n2 0) _ c2 c3
    have u2 := C25_unique 0 _ (a.nhTot c * x.abundance) n1 (n2 0) _ c2' c3'
    rw [u1] at u2
    exact congrFun (Option.some.inj u2) ⟨l, hl⟩
  · intro la x z hla hx hz
    rw [l2.value la hla x z hx hz, l2'.value la hla x z hx hz]
    exact mean_congr2 _ _ _ _ _ _ _ _ _ fun d th hd ht => (hA la hla x z d th hx hz hd ht).1

/-- the largest change is unique -/
theorem change_unique {p p' : Coord2 → Emis.Pops} (W' : Nat) (b' : Bool) (m' : Nat) (hpf : ∀ c, Given.InGrid k nx nz c → SameLevels q.r pf pf' c) (hp : ∀ c, Given.InGrid k nx nz c → SameLevels q.r p p' c)
    {d d' : ℝ} (h1 : LargestChange q k nx nz a pf p d) (h2 : LargestChange (q.rearranged W' b' m') k nx nz a pf' p' d') : d = d' := by
  refine le_antisymm ?_ ?_
  · rcases h1.attained with e | ⟨c, ia, x, l, e1, e2, e3, e4, e5⟩
    · rw [e]; exact h2.nonneg
    · rw [e5, hpf c e1 ia x e2 l e3, hp c e1 ia x e2 l e3]
      rw [hpf c e1 ia x e2 l e3] at e4
      exact h2.bound c e1 ia x e2 l e3 e4
  · rcases h2.attained with e | ⟨c, ia, x, l, e1, e2, e3, e4, e5⟩
    · rw [e]; exact h1.nonneg
    · rw [e5, ← hpf c e1 ia x e2 l e3, ← hp c e1 ia x e2 l e3]
      rw [← hpf c e1 ia x e2 l e3] at e4
      exact h1.bound c e1 ia x e2 l e3 e4

/-- traces agree as far as both go -/
theorem trace_unique (hf : Fits q.r.s k nx nz) (hq : NlteReady q) (hw : q.r.haveH = false → Warm k nx nz a) (W' : Nat) (hW' : 0 < W') (b' : Bool) (m' : Nat)
    {n n' : Nat} {ps ps' : Nat → Coord2 → Emis.Pops} {Js Js' : Nat → Arr2 ℝ} {ds ds' : Nat → ℝ} (ht : Trace q k nx nz a n ps Js ds)
    (ht' : Trace (q.rearranged W' b' m') k nx nz a n' ps' Js' ds') (hs : ∀ i, i < n → Solvable q k nx nz a (decide (i < q.initial)) (ps i)) :
    ∀ i, i ≤ n → i ≤ n' → (∀ c, Given.InGrid k nx nz c → SameLevels q.r (ps i) (ps' i) c) ∧ ∀ j, j < i → ds j = ds' j ∧
      ∀ la x z, la < q.r.ad.wavelength.length → x < nx * 2 ^ k → z < nz * 2 ^ k → (Js j).get la (z * (nx * 2 ^ k) + x) = (Js' j).get la (z * (nx * 2 ^ k) + x) := by
  intro i
  induction i with
  | zero =>
    intro _ _
    refine ⟨fun c _ ia x _ l _ => ?_, fun j hj => absurd hj (by omega)⟩
    rw [ht.start, ht'.start]; rfl
  | succ i ih =>
    intro hn hn'
    obtain ⟨i1, i2⟩ := ih (by omega) (by omega)
    obtain ⟨s1, s2⟩ := ht.step i (by omega)
    obtain ⟨s1', s2'⟩ := ht'.step i (by omega)
    obtain ⟨u1, u2⟩ := iterates_unique hf hq hw W' hW' b' m' i1 _ (hs i (by omega)) s1 s1'
    refine ⟨u1, fun j hj => ?_⟩
    rcases Nat.lt_succ_iff_lt_or_eq.1 hj with h | h
    · exact i2 j h
    · rw [h]; exact ⟨change_unique W' b' m' i1 u1 s2 s2', u2⟩

end DexRT.Nlte
