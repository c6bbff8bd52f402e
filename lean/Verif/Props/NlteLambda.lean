import Verif.Lemmas.NlteLambda
import Verif.Lemmas.NlteUnique
/-!
C90: with physical data the Lambda iterations of a `NonLte` run cannot fail, and nothing becomes negative; C89: the result does not
depend on the order of the kernels, on the batches or on what memory held. Partial like C89. The vocabulary is in Spec/NlteLambda.lean.
-/
namespace DexRT.Nlte
open DexRT DexRT.Fs DexRT.AtmosFile DexRT.Dir DexRT.Given DexRT.Emis DexRT.LteRun DexRT.RadGamma Finset

variable {q : Setup} {k nx nz : Nat} {a : Cond}

/-- **C90** For all physical data and all populations that are not negative, whatever the velocities and even if levels are inverted (so
that a line amplifies): without approximate operator, no rate is negative and every level can reach every other. -/
theorem C90_solvable (hf : Fits q.r.s k nx nz) (hq : NlteReady q) (hp : PhysicalRun q k nx nz a) (pf : Coord2 → Emis.Pops) (hn : NoNegative q k nx nz pf) :
    Solvable q k nx nz a true pf := solvable_lambda hf hq hp hn

/-- **C90** The light that arrives in a cell is not negative, along every ray and at every wavelength. -/
theorem C90_light (hf : Fits q.r.s k nx nz) (hq : NlteReady q) (hp : PhysicalRun q k nx nz a) (pf : Coord2 → Emis.Pops) (hn : NoNegative q k nx nz pf)
    (h : Coord2 → ℝ) (march : Marched) (hL : Light q k nx nz a pf h march) (c : Coord2) (hc : Given.InGrid k nx nz c) (la : Nat)
    (hla : la < q.r.ad.wavelength.length) (dir incl : Nat) (hd : dir < q.r.s.cfg.p0rays) (hi : incl < q.r.s.incl) :
    0 ≤ arriving q.r.s (nx * 2 ^ k) (nz * 2 ^ k) march c la (dir, incl) := (rays_nonneg hf hq hp hn march hL c hc la hla (dir, incl) hd hi).1

/-- **C90** J of an iteration is not negative. -/
theorem C90_J (hf : Fits q.r.s k nx nz) (hq : NlteReady q) (hp : PhysicalRun q k nx nz a) (pf pf' : Coord2 → Emis.Pops) (hn : NoNegative q k nx nz pf)
    (lam : Bool) (J : Arr2 ℝ) (hi : Iterates q k nx nz a lam pf pf' J) (la x z : Nat) (hla : la < q.r.ad.wavelength.length)
    (hx : x < nx * 2 ^ k) (hz : z < nz * 2 ^ k) : 0 ≤ J.get la (z * (nx * 2 ^ k) + x) := by
  obtain ⟨h, march, h1, h2, -⟩ := hi
  rw [h2.value la hla x z hx hz]
  unfold meanIntensity2
  have hc : Given.InGrid k nx nz ⟨(x : Int), (z : Int)⟩ := ⟨Int.natCast_nonneg _, Int.ofNat_lt.2 hx, Int.natCast_nonneg _, Int.ofNat_lt.2 hz⟩
  have key : ∀ d th, d < q.r.s.cfg.p0rays → th < q.r.s.incl → 0 ≤ radiance2 (march (la / q.r.s.W * q.r.s.W)) (nx * 2 ^ k) (nz * 2 ^ k)
      (upperTexelsPerRay q.r.s.cfg) q.r.s.num q.r.s.num ⟨x, z, d, th, la % q.r.s.W⟩ :=
    fun d th hd ht => C90_light hf hq hp pf hn h march h1 ⟨(x : Int), (z : Int)⟩ hc la hla d th hd ht
  refine div_nonneg (Finset.sum_nonneg fun d hd => Finset.sum_nonneg fun th ht => mul_nonneg ?_ (key d th (Finset.mem_range.1 hd) (Finset.mem_range.1 ht))) (Nat.cast_nonneg _)
  rw [List.getD_eq_getElem?_getD]
  exact getD_nonneg hp.weights th

/-- The populations before iteration `i` are not negative, as long as the iterations are Lambda iterations, and positive after one. -/
theorem trace_positive (hf : Fits q.r.s k nx nz) (hq : NlteReady q) (hp : PhysicalRun q k nx nz a) {n : Nat} {ps : Nat → Coord2 → Emis.Pops} {Js : Nat → Arr2 ℝ}
    {ds : Nat → ℝ} (ht : Trace q k nx nz a n ps Js ds) : ∀ i, i ≤ n → i ≤ q.initial → ∀ c, Given.InGrid k nx nz c → ∀ ia x, q.r.ad.atoms[ia]? = some x →
      ∀ l, l < x.top + 1 → 0 < ps i c ia l := by
  intro i
  induction i with
  | zero =>
    intro _ _ c hc ia x hx l hl
    rw [ht.start]
    exact lte_pos hp c hc ia x hx l hl
  | succ i ih =>
    intro hn hi c hc ia x hx l hl
    have h0 := ih (by omega) (by omega)
    have hs : Solvable q k nx nz a (decide (i < q.initial)) (ps i) := by
      rw [decide_eq_true (by omega : i < q.initial)]
      exact solvable_lambda hf hq hp fun c hc ia x hx l hl => (h0 c hc ia x hx l hl).le
    refine C89_positive hs (ht.step i (by omega)).1 c hc ia x hx ?_ l hl
    exact mul_pos (hp.cells c hc).2.2 (hp.atoms x (List.mem_of_getElem? hx)).1

/-- **C90** For all atmosphere files, kernel orders and memory contents: a run with physical data can only fail in an iteration with
approximate operator, and then from populations that were positive when the Lambda iterations ended. -/
theorem C90_first_partial {W : Type} (cv : W → ℝ) (f : NcFile Coord2 W) (hf : Fits q.r.s k nx nz) (hq : NlteReady q) (hp : PhysicalRun q k nx nz a)
    (hd : Describes f cv (2 ^ k) nx nz a) (hw : q.r.haveH = false → Warm k nx nz a) (o0 : StartOrder) (ho0 : StartOrders q.r k nx nz o0)
    (o : Nat → IterOrder) (ho : ∀ i, IterOrders q k nx nz (o i)) (he : ∀ x, runNlte2 q cv f o0 o ≠ .ok x) :
    ∃ n ps Js ds, Trace q k nx nz a n ps Js ds ∧ q.initial ≤ n ∧ n < q.maxIter ∧
      ∀ c, Given.InGrid k nx nz c → ∀ ia x, q.r.ad.atoms[ia]? = some x → ∀ l, l < x.top + 1 → 0 < ps q.initial c ia l := by
  rcases C89_run_partial cv f hf hq hd hw o0 ho0 o ho with ⟨-, n, ps, Js, ds, h1, h2, h3⟩ | ⟨n, it, _, _, _, e, -⟩
  · have hle : q.initial ≤ n := by
      by_contra hlt
      refine h3 ?_
      rw [decide_eq_true (by omega : n < q.initial)]
      exact solvable_lambda hf hq hp fun c hc ia x hx l hl => (trace_positive hf hq hp h1 n le_rfl (by omega) c hc ia x hx l hl).le
    exact ⟨n, ps, Js, ds, h1, hle, h2, fun c hc ia x hx l hl => trace_positive hf hq hp h1 _ hle le_rfl c hc ia x hx l hl⟩
  · exact absurd e (he _)

/-- **C90** For all atmosphere files, kernel orders and memory contents: a run with physical data of which all iterations are Lambda
iterations ends; every population it leaves is positive and in every cell those of an atom add up to its abundance; J is not negative. -/
theorem C90_lambda {W : Type} (cv : W → ℝ) (f : NcFile Coord2 W) (hf : Fits q.r.s k nx nz) (hq : NlteReady q) (hp : PhysicalRun q k nx nz a)
    (hd : Describes f cv (2 ^ k) nx nz a) (hw : q.r.haveH = false → Warm k nx nz a) (o0 : StartOrder) (ho0 : StartOrders q.r k nx nz o0)
    (o : Nat → IterOrder) (ho : ∀ i, IterOrders q k nx nz (o i)) (hl : q.maxIter ≤ q.initial) (h0 : 0 < q.maxIter) :
    ∃ it pf, runNlte2 q cv f o0 o = .ok (q.maxIter, it) ∧ StoresPops q.r k nx nz pf it.st ∧
      (∀ c, Given.InGrid k nx nz c → ∀ ia x, q.r.ad.atoms[ia]? = some x →
        (∀ l, l < x.top + 1 → 0 < pf c ia l) ∧ ∑ l ∈ range (x.top + 1), pf c ia l = a.nhTot c * x.abundance) ∧
      ∀ la x z, la < q.r.ad.wavelength.length → x < nx * 2 ^ k → z < nz * 2 ^ k → 0 ≤ it.J.get la (z * (nx * 2 ^ k) + x) := by
  rcases C89_run_partial cv f hf hq hd hw o0 ho0 o ho with ⟨-, n, ps, Js, ds, h1, h2, h3⟩ | ⟨n, it, ps, Js, ds, e, h1, h2, h3, h4⟩
  · refine absurd ?_ h3
    rw [decide_eq_true (by omega : n < q.initial)]
    exact solvable_lambda hf hq hp fun c hc ia x hx l hl => (trace_positive hf hq hp h1 n le_rfl (by omega) c hc ia x hx l hl).le
  · have hn : n = q.maxIter := by rcases h4 with h | ⟨h, -⟩ <;> have := h1.few <;> omega
    subst hn
    refine ⟨it, ps q.maxIter, e, h2, fun c hc ia x hx => ⟨fun l hl' => trace_positive hf hq hp h1 _ le_rfl hl c hc ia x hx l hl', ?_⟩, fun la x z hla hx hz => ?_⟩
    · obtain ⟨⟨h, march, -, -, s⟩, -⟩ := h1.step (q.maxIter - 1) (by omega)
      obtain ⟨C, -, -, s3⟩ := s c hc ia x hx
      rw [show q.maxIter - 1 + 1 = q.maxIter by omega] at s3
      rw [← s3, Finset.sum_range]
    · rw [(h3 h0).1]
      exact C90_J hf hq hp _ _ (fun c hc ia x hx l hl' => (trace_positive hf hq hp h1 _ (by omega) (by omega) c hc ia x hx l hl').le) _ _ (h1.step (q.maxIter - 1) (by omega)).1 la x z hla hx hz

/-- **C89** For all atmosphere files: two runs that differ in the order of their kernels, in the number of wavelengths per batch, in where
J is kept, in the number of line slots and in what memory held make the same number of iterations and leave the same populations, the same
J and the same last change, if the rates can be balanced in each of these iterations. -/
theorem C89_deterministic_partial {W : Type} (cv : W → ℝ) (f : NcFile Coord2 W) (W' : Nat) (onCpu : Bool) (slots : Nat) (hf : Fits q.r.s k nx nz) (hq : NlteReady q)
    (hf' : Fits (q.rearranged W' onCpu slots).r.s k nx nz) (hq' : NlteReady (q.rearranged W' onCpu slots))
    (hd : Describes f cv (2 ^ k) nx nz a) (hw : q.r.haveH = false → Warm k nx nz a) (o0 o0' : StartOrder) (ho0 : StartOrders q.r k nx nz o0)
    (ho0' : StartOrders (q.rearranged W' onCpu slots).r k nx nz o0') (o o' : Nat → IterOrder) (ho : ∀ i, IterOrders q k nx nz (o i))
    (ho' : ∀ i, IterOrders (q.rearranged W' onCpu slots) k nx nz (o' i))
    (hs : ∀ n ps Js ds, Trace q k nx nz a n ps Js ds → n < q.maxIter → Solvable q k nx nz a (decide (n < q.initial)) (ps n))
    (n n' : Nat) (it it' : Iterated) (hr : runNlte2 q cv f o0 o = .ok (n, it)) (hr' : runNlte2 (q.rearranged W' onCpu slots) cv f o0' o' = .ok (n', it')) :
    n = n' ∧ (∃ pf, StoresPops q.r k nx nz pf it.st ∧ StoresPops q.r k nx nz pf it'.st) ∧ (0 < n → it.change = it'.change ∧
      ∀ la x z, la < q.r.ad.wavelength.length → x < nx * 2 ^ k → z < nz * 2 ^ k → it.J.get la (z * (nx * 2 ^ k) + x) = it'.J.get la (z * (nx * 2 ^ k) + x)) := by
  rcases C89_run_partial cv f hf hq hd hw o0 ho0 o ho with ⟨e, -⟩ | ⟨n1, it1, ps, Js, ds, e, h1, h2, h3, h4⟩
  · rw [e] at hr; cases hr
  rcases C89_run_partial cv f hf' hq' hd hw o0' ho0' o' ho' with ⟨e', -⟩ | ⟨n2, it2, ps', Js', ds', e', h1', h2', h3', h4'⟩
  · rw [e'] at hr'; cases hr'
  rw [e] at hr; rw [e'] at hr'
  injection hr with hr; injection hr' with hr'
  obtain ⟨rfl, rfl⟩ := Prod.mk.inj hr
  obtain ⟨rfl, rfl⟩ := Prod.mk.inj hr'
  have cut : ∀ i, i ≤ n1 → Trace q k nx nz a i ps Js ds := fun i hi =>
    ⟨h1.start, fun j hj => h1.step j (by omega), fun j hj => h1.goesOn j (by omega), le_trans hi h1.few⟩
  have hu := trace_unique hf hq hw W' hf'.batch onCpu slots h1 h1' (fun i hi => hs i ps Js ds (cut i hi.le) (lt_of_lt_of_le hi h1.few))
  have f1 := h1.few
  have f2 : n2 ≤ q.maxIter := h1'.few
  have hn : n1 = n2 := by
    rcases lt_trichotomy n1 n2 with h | h | h
    · rcases h4 with h5 | ⟨h5, h6⟩
      · omega
      · have g := h1'.goesOn (n1 - 1) (by omega) (show q.initial ≤ n1 - 1 by omega)
        rw [← ((hu n1 le_rfl h.le).2 (n1 - 1) (by omega)).1] at g
        exact absurd h6 (not_le.2 g)
    · exact h
    · rcases h4' with h5 | ⟨h5, h6⟩
      · have : n2 = q.maxIter := h5
        omega
      · have h5' : q.initial < n2 := h5
        have g := h1.goesOn (n2 - 1) (by omega) (by omega)
        rw [((hu n2 h.le le_rfl).2 (n2 - 1) (by omega)).1] at g
        exact absurd h6 (not_le.2 g)
  subst hn
  obtain ⟨u1, u2⟩ := hu n1 le_rfl le_rfl
  refine ⟨rfl, ⟨ps n1, h2, fun c hc => ?_⟩, fun h0 => ?_⟩
  · obtain ⟨adr, a1, a2⟩ := h2' c hc
    exact ⟨adr, a1, fun ia x hx l hl => (a2 ia x hx l hl).trans (u1 c hc ia x hx l hl).symm⟩
  · obtain ⟨v1, v2⟩ := u2 (n1 - 1) (by omega)
    rw [(h3 h0).1, (h3 h0).2, (h3' h0).1, (h3' h0).2]
    exact ⟨v1, v2⟩

end DexRT.Nlte
