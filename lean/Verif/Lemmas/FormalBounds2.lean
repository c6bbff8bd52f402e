import Verif.Lemmas.FormalBounds
import Verif.Lemmas.FormalSol2c
import Verif.Lemmas.FormalSol3c
/-!
Lemmas for C75: computed cells and angular means.
-/
namespace DexRT.Fs
open DexRT

theorem listed2_lt {K : Type} [Field K] {e : Env2 K} (hp : Probes2Ok e) {n u v : Nat} (hn : n ≤ e.num)
    (h : Listed2 e n u v) : u < probesOn e.c0.np0 n ∧ v < probesOn e.c0.np1 n := by
  obtain ⟨k, N, h1, h2, h3⟩ := h
  obtain ⟨N', g1, g2⟩ := hp.coords n hn
  rw [g1] at h1; injection h1 with h1; subst h1
  obtain ⟨u', v', q1, q2, q3⟩ := g2 k (by omega)
  rw [q1] at h3; injection h3 with h3
  simp only [Coord2.mk.injEq] at h3
  omega

theorem listed3_lt {K : Type} [Field K] {e : Env3 K} (hp : Probes3Ok e) {n u v w : Nat} (hn : n ≤ e.num)
    (h : Listed3 e n u v w) : u < probesOn e.c0.np0 n ∧ v < probesOn e.c0.np1 n ∧ w < probesOn e.c0.np2 n := by
  obtain ⟨k, N, h1, h2, h3⟩ := h
  obtain ⟨N', g1, g2⟩ := hp.coords n hn
  rw [g1] at h1; injection h1 with h1; subst h1
  obtain ⟨u', v', w', q1, q2, q3, q4⟩ := g2 k (by omega)
  rw [q1] at h3; injection h3 with h3
  simp only [Coord3.mk.injEq] at h3
  omega

theorem computed2_listed {K : Type} [Field K] [CharZero K] {e : Env2 K} {me : MergeEnv K} {k nx nz : Nat} {Active : Coord2 → Prop}
    (h : Run2 me k nx nz Active) (hP : e.probes 0 = me.P) {c : Coord2} (hc : Computed2 me k nx nz Active c) :
    Listed2 e 0 c.x.toNat c.z.toNat := by
  obtain ⟨f, hnum', hpos', hf, hback⟩ := run2_probes h
  obtain ⟨a, ha, hfa, -⟩ := hback c hc
  obtain ⟨g1, -, -, -, g2, -, g3, -⟩ := hf a ha
  refine ⟨a, _, by rw [hP]; exact hnum', ha, ?_⟩
  rw [hP, g1, hfa]
  rw [hfa] at g2 g3
  congr 1
  cases c
  simp only [Coord2.mk.injEq] at *
  omega

theorem computed3_listed {K : Type} [Field K] {e : Env3 K} {me : MergeEnv3} {k nx ny nz : Nat} {Active : Coord3 → Prop}
    (h : Run3 me k nx ny nz Active) (hP : e.probes 0 = me.P) {c : Coord3} (hc : Computed3 me k nx ny nz Active c) :
    Listed3 e 0 c.x.toNat c.y.toNat c.z.toNat := by
  obtain ⟨f, hnum', hpos', hf, hback⟩ := run3_probes h
  obtain ⟨a, ha, hfa, -⟩ := hback c hc
  obtain ⟨g1, -, -, -, g2, -, g3, -, g4, -⟩ := hf a ha
  refine ⟨a, _, by rw [hP]; exact hnum', ha, ?_⟩
  rw [hP, g1, hfa]
  rw [hfa] at g2 g3 g4
  congr 1
  cases c
  simp only [Coord3.mk.injEq] at *
  omega

theorem mean2_in {K : Type} [Field K] [LinearOrder K] [IsStrictOrderedRing K] (nrays nincl : Nat) (hr : 0 < nrays) (w : List K) (hw : ∀ x ∈ w, 0 ≤ x) (I : ProbeIdx2 → K)
    (u v wave : Nat) {lo hi : K} (hI : ∀ d th, lo ≤ I ⟨u, v, d, th, wave⟩ ∧ I ⟨u, v, d, th, wave⟩ ≤ hi) :
    lo * ∑ th ∈ Finset.range nincl, w.getD th 0 ≤ meanIntensity2 nrays nincl w I u v wave ∧
      meanIntensity2 nrays nincl w I u v wave ≤ hi * ∑ th ∈ Finset.range nincl, w.getD th 0 := by
  unfold meanIntensity2
  refine avg_in nrays hr _ fun d _ => ?_
  refine wsum_in _ _ _ (fun th _ => ?_) (fun th _ => hI d th)
  rw [List.getD_eq_getElem?_getD]
  cases hx : w[th]? with
  | none => simp
  | some x => simpa using hw x (List.mem_of_getElem? hx)

theorem mean3_in {K : Type} [Field K] [LinearOrder K] [IsStrictOrderedRing K] (naz npolar : Nat) (ha : 0 < naz) (hp : 0 < npolar) (I : ProbeIdx3 → K) (u v w : Nat) {lo hi : K}
    (hI : ∀ p a, lo ≤ I ⟨u, v, w, p, a⟩ ∧ I ⟨u, v, w, p, a⟩ ≤ hi) :
    lo ≤ meanIntensity3 naz npolar I u v w ∧ meanIntensity3 naz npolar I u v w ≤ hi := by
  unfold meanIntensity3
  rw [show (∑ p ∈ Finset.range npolar, ∑ a ∈ Finset.range naz, I ⟨u, v, w, p, a⟩) / ((naz * npolar : Nat) : K) =
    (∑ p ∈ Finset.range npolar, (∑ a ∈ Finset.range naz, I ⟨u, v, w, p, a⟩) / (naz : K)) / (npolar : K) by
      rw [← Finset.sum_div, div_div, Nat.cast_mul]]
  exact avg_in _ hp _ fun p _ => avg_in _ ha _ fun a _ => hI p a

end DexRT.Fs
