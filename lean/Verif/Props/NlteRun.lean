import Verif.Lemmas.NlteLoop
import Verif.Props.RadGamma
/-!
C89: a `NonLte` run in 2D, end to end. Partial: exact real arithmetic; one rank; all cells computed at full resolution; no charge
or pressure conservation, Ng acceleration or restart; the run of the atmosphere file is dense. The vocabulary is in Spec/NlteRun.lean.
-/
namespace DexRT.Nlte
open DexRT DexRT.Fs DexRT.AtmosFile DexRT.Dir DexRT.Given DexRT.Emis DexRT.LteRun DexRT.RadGamma Finset

variable {q : Setup} {k nx nz : Nat} {a : Cond}

/-- **C89** For every atmosphere, whatever the orders in which the kernels run and whatever memory held: a `NonLte` run has no
undefined behaviour, and either a cell's rates cannot be balanced in some iteration (populations would be NaN), or it ends, having
made iterations that start from LTE populations, each going from populations to populations that balance the rates of the light of
the former; it stops after `max_iter` iterations, or when the last one (not one of the first `initial + 1`) changed nothing by more than
the tolerance; the populations it leaves are those after the last iteration and `J` is that of the populations **before** it. -/
theorem C89_run_partial {W : Type} (cv : W → ℝ) (f : NcFile Coord2 W) (hf : Fits q.r.s k nx nz) (hq : NlteReady q)
    (hd : Describes f cv (2 ^ k) nx nz a) (hw : q.r.haveH = false → Warm k nx nz a) (o0 : StartOrder) (ho0 : StartOrders q.r k nx nz o0)
    (o : Nat → IterOrder) (ho : ∀ i, IterOrders q k nx nz (o i)) :
    (runNlte2 q cv f o0 o = .throws ∧ ∃ n ps Js ds, Trace q k nx nz a n ps Js ds ∧ n < q.maxIter ∧
      ¬ Solvable q k nx nz a (decide (n < q.initial)) (ps n)) ∨
    ∃ n it ps Js ds, runNlte2 q cv f o0 o = .ok (n, it) ∧ Trace q k nx nz a n ps Js ds ∧ StoresPops q.r k nx nz (ps n) it.st ∧
      (0 < n → it.J = Js (n - 1) ∧ it.change = ds (n - 1)) ∧ (n = q.maxIter ∨ (q.initial < n ∧ ds (n - 1) ≤ q.tol)) := by
  obtain ⟨st, s1, s2⟩ := start_holds hf hq.ready hd hw o0 ho0
  have := loop_ok hf hq hw o ho q.maxIter 0 { st := st, J := ⟨st.g.nw.toNat, jCols q.r.s st.g, fun _ _ => 0⟩, G := fun _ => 0, change := 1 }
    (fun _ => ltePop q.r a) (fun _ => ⟨0, 0, fun _ _ => 0⟩) (fun _ => 0) (by omega)
    ⟨rfl, fun i hi => absurd hi (by omega), fun i hi => absurd hi (by omega), by omega⟩ s2 (fun h => absurd h (by omega))
  have hrun : runNlte2 q cv f o0 o = loop2 q o q.maxIter 0 { st := st, J := ⟨st.g.nw.toNat, jCols q.r.s st.g, fun _ _ => 0⟩, G := fun _ => 0, change := 1 } := by
    unfold runNlte2; rw [s1, Outcome.ok_bind]
  rw [hrun]
  rcases this with h | ⟨n, it, ps, Js, ds, e1, e2, e3, e4, e5⟩
  · exact Or.inl h
  · refine Or.inr ⟨n, it, ps, Js, ds, e1, e2, fun c hc => ?_, e4, e5⟩
    obtain ⟨-, ⟨adr, hadr⟩, -⟩ := cells_addr hf it.st.g.bm e3.good.map c hc
    exact ⟨adr, hadr, fun ia x hx l hl => e3.pops c hc adr hadr ia x hx l hl⟩

/-- **C89** (it ends) If the rates of every populations that a run can reach can be balanced, the run ends with a result. -/
theorem C89_ends_partial {W : Type} (cv : W → ℝ) (f : NcFile Coord2 W) (hf : Fits q.r.s k nx nz) (hq : NlteReady q)
    (hd : Describes f cv (2 ^ k) nx nz a) (hw : q.r.haveH = false → Warm k nx nz a) (o0 : StartOrder) (ho0 : StartOrders q.r k nx nz o0)
    (o : Nat → IterOrder) (ho : ∀ i, IterOrders q k nx nz (o i))
    (hs : ∀ n ps Js ds, Trace q k nx nz a n ps Js ds → n < q.maxIter → Solvable q k nx nz a (decide (n < q.initial)) (ps n)) :
    ∃ x, runNlte2 q cv f o0 o = .ok x := by
  rcases C89_run_partial cv f hf hq hd hw o0 ho0 o ho with ⟨-, n, ps, Js, ds, h1, h2, h3⟩ | ⟨n, it, _, _, _, e, -⟩
  · exact absurd (hs n ps Js ds h1 h2) h3
  · exact ⟨_, e⟩

/-- **C89** (positive) If the rates can be balanced, every population of every level after the iteration is positive, wherever there is any of the
element; and they are the only populations that balance the rates. -/
theorem C89_positive {lam : Bool} {pf pf' : Coord2 → Emis.Pops} {J : Arr2 ℝ} (hs : Solvable q k nx nz a lam pf) (hi : Iterates q k nx nz a lam pf pf' J)
    (c : Coord2) (hc : Given.InGrid k nx nz c) (ia : Nat) (x : Atom) (hx : q.r.ad.atoms[ia]? = some x) (h0 : 0 < a.nhTot c * x.abundance)
    (l : Nat) (hl : l < x.top + 1) : 0 < pf' c ia l := by
  obtain ⟨h, march, h1, -, h3⟩ := hi
  obtain ⟨C, c1, c2, c3⟩ := h3 c hc ia x hx
  obtain ⟨n1, n2⟩ := hs h march h1 c hc ia x hx C c1
  obtain ⟨p, p1, p2⟩ := C25_positive 0 _ (a.nhTot c * x.abundance) n1 n2 h0
  have := C25_unique 0 _ (a.nhTot c * x.abundance) n1 (n2 0) _ c2 c3
  rw [p1] at this
  have e := congrFun (Option.some.inj this) ⟨l, hl⟩
  simp only at e
  rw [← e]
  exact p2 _

/-- **C89** (converged) A run that stops before `max_iter` has made a last iteration that changed every positive population, but those below
the ignored fraction of their element, by at most the tolerance times its new value. -/
theorem C89_converged {n : Nat} {ps : Nat → Coord2 → Emis.Pops} {Js : Nat → Arr2 ℝ} {ds : Nat → ℝ} (ht : Trace q k nx nz a n ps Js ds)
    (hn : 0 < n) (hd : ds (n - 1) ≤ q.tol) (c : Coord2) (hc : Given.InGrid k nx nz c) (ia : Nat) (x : Atom) (hx : q.r.ad.atoms[ia]? = some x)
    (l : Nat) (hl : l < x.top + 1) (hbig : q.ignoreFrac * (a.nhTot c * x.abundance) ≤ ps (n - 1) c ia l) (hpos : 0 < ps n c ia l) :
    |ps n c ia l - ps (n - 1) c ia l| ≤ q.tol * ps n c ia l := by
  have := (ht.step (n - 1) (by omega)).2.bound c hc ia x hx l hl hbig
  rw [show n - 1 + 1 = n by omega] at this
  refine C25_change q.ignoreFrac (a.nhTot c * x.abundance) _ _ _ hpos hbig ?_
  unfold StatEq.change
  rw [if_neg (not_lt.2 hbig)]
  exact le_trans this hd

/-- **C89** (fixed point) Populations that an iteration leaves as they are satisfy the equations of statistical equilibrium with the
light they make themselves: in every level of every atom in every cell, collisional gains minus losses and photons absorbed minus emitted
cancel. This is so with and without approximate operator. -/
theorem C89_fixed_point {lam : Bool} {pf : Coord2 → Emis.Pops} {J : Arr2 ℝ} (hq : NlteReady q) (hi : Iterates q k nx nz a lam pf pf J) :
    ∃ h march, Light q k nx nz a pf h march ∧ MeanOf q k nx nz march J ∧ ∀ c, Given.InGrid k nx nz c → ∀ ia x, q.r.ad.atoms[ia]? = some x →
      ∃ C : Nat → Nat → ℝ, Collisional q a h c ia x (fun i j => C i j) ∧ ∀ i : Fin (x.top + 1),
        (∑ j ∈ range (x.top + 1), (C i j * pf c ia j - C j i * pf c ia i)) +
          photonGain (rateData q) (gasCell q.r a h pf c) (lineFactor q (gasCell q.r a h pf c))
            (range q.r.ad.wavelength.length) (cellRays q k nx nz a h pf march lam c) ia i = 0 := by
  obtain ⟨h, march, h1, h2, h3⟩ := hi
  refine ⟨h, march, h1, h2, fun c hc ia x hx => ?_⟩
  obtain ⟨C, c1, c2, -⟩ := h3 c hc ia x hx
  obtain ⟨D, hD⟩ : ∃ D : Nat → Nat → ℝ, ∀ i j : Fin (x.top + 1), D i j = C i j :=
    ⟨fun i j => if e : i < x.top + 1 ∧ j < x.top + 1 then C ⟨i, e.1⟩ ⟨j, e.2⟩ else 0, fun i j => dif_pos ⟨i.isLt, j.isLt⟩⟩
  have hDC : (fun i j : Fin (x.top + 1) => D i j) = C := by funext i j; exact hD i j
  refine ⟨D, by rw [hDC]; exact c1, ?_⟩
  have hn : (rateData q).numLevel[ia]? = some (x.top + 1) := by
    show (q.r.ad.atoms.map fun a => a.top + 1)[ia]? = _
    rw [List.getElem?_map, hx]; rfl
  refine (C80_fixed_point (rateData q) hq.consistent hq.physical (gasCell q.r a h pf c)
    (lineFactor q (gasCell q.r a h pf c)) (range q.r.ad.wavelength.length) (fun la hla => mem_range.1 hla)
    (cellRays q k nx nz a h pf march lam c) ia (x.top + 1) hn D).1 ?_
  have : rate q k nx nz a h pf march lam c ia (x.top + 1) C = fun i j : Fin (x.top + 1) => D i j +
        radiativeRate (rateData q) (gasCell q.r a h pf c) (lineFactor q (gasCell q.r a h pf c))
          (range q.r.ad.wavelength.length) (cellRays q k nx nz a h pf march lam c) ia i j := by
    funext i j; rw [hD]; rfl
  rw [this] at c2
  exact c2

end DexRT.Nlte
