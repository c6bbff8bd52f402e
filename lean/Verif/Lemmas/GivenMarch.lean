import Verif.Lemmas.GivenFs
import Verif.Props.World
import Verif.Props.MultiLevel
/-! Lemmas for C82: what the march of a batch reads is the atmosphere of the file. -/
namespace DexRT
variable {dim : DdaDim}

theorem fold_congr (es : Bool) (sc is : ℝ) (f f1 : Dda dim → Step) : ∀ (l : List (Dda dim)) (v : MarchVars),
    (∀ s ∈ l, (f1 s).sample = (f s).sample ∧ ((f s).sample = true → f1 s = f s)) →
      (l.map f1).foldl (marchStep es sc is) v = (l.map f).foldl (marchStep es sc is) v
  | [], _, _ => rfl
  | s :: l, v, h => by
    obtain ⟨h1, h2⟩ := h s List.mem_cons_self
    have e : marchStep es sc is v (f1 s) = marchStep es sc is v (f s) := by
      by_cases hs : (f s).sample = true
      · rw [h2 hs]
      · unfold marchStep; rw [h1, if_neg hs, if_neg hs]
    simp only [List.map_cons, List.foldl_cons, e]
    exact fold_congr es sc is f f1 l _ fun s' hs' => h s' (List.mem_cons_of_mem _ hs')

/-- every state of a march knows the level of its cell -/
theorem march_levels (e : DdaEnv dim) (seg : RaySeg dim.n)
    (hblk : ∀ c m, (m < 0 ∨ m ≤ e.maxMip) → e.lvl (fun i => maskCoord (c i) (e.stepSize m)) = e.lvl c)
    (r : DdaRay dim) (s : Dda dim) (hs : ddaStart e seg = some (r, s)) (fuel : ℕ) (l : List (Dda dim))
    (hl : visitsEnd e r fuel s = some l) : ∀ v ∈ loopStates l, v.mip = e.sampleLevel v.coord := by
  intro v hv
  obtain ⟨c, b, -, -, hi⟩ := ddaStart_some e seg r s hs
  have h0 : LevelOk e s := by
    unfold ddaInit at hi
    split at hi
    · exact absurd hi (by simp)
    · cases hw : walkIn e r 32 (computeAxisDt r (initState e r)) with
      | none => rw [hw] at hi; exact absurd hi (by simp)
      | some x =>
        rw [hw] at hi
        obtain rfl := Option.some.inj hi
        exact updateMip_level e r true x hblk
  have hm := mem_loopStates hv
  rw [← (visitsEnd_some e r fuel s l hl).1] at hm
  exact (visits_level e r hblk fuel s h0 v hm).1

/-- A march depends on the medium only through the cells with data, at their levels. -/
theorem raymarch_congr (a : RaymarchArgs dim) (eta chi : ℤ → (Fin dim.n → ℤ) → ℝ)
    (hblk : ∀ c m, (m < 0 ∨ m ≤ a.env.maxMip) → a.env.lvl (fun i => maskCoord (c i) (a.env.stepSize m)) = a.env.lvl c)
    (h : ∀ c, 0 ≤ a.env.sampleLevel c → eta (a.env.sampleLevel c) c = a.eta (a.env.sampleLevel c) c ∧
      chi (a.env.sampleLevel c) c = a.chi (a.env.sampleLevel c) c) (fuel : ℕ) :
    raymarch { a with eta := eta, chi := chi } fuel = raymarch a fuel := by
  unfold raymarch
  show (match ddaStart a.env a.seg with
    | none => some (⟨startI a false, 0, 0⟩ : Interval)
    | some (r, s) => (visitsEnd a.env r fuel s).map fun l => marchInterval a.extraSafe a.scale a.invSin (startI a true)
        ((loopStates l).map ({ a with eta := eta, chi := chi } : RaymarchArgs dim).stepOf)) = _
  cases hs : ddaStart a.env a.seg with
  | none => rfl
  | some p =>
    obtain ⟨r, s⟩ := p
    simp only
    cases hv : visitsEnd a.env r fuel s with
    | none => rfl
    | some l =>
      simp only [Option.map_some]
      have hlev := march_levels a.env a.seg hblk r s hs fuel l hv
      have : march a.extraSafe a.scale a.invSin (startI a true) ((loopStates l).map ({ a with eta := eta, chi := chi } : RaymarchArgs dim).stepOf) =
          march a.extraSafe a.scale a.invSin (startI a true) ((loopStates l).map a.stepOf) := by
        unfold march
        refine fold_congr _ _ _ _ _ _ _ fun v hm => ⟨rfl, fun hsam => ?_⟩
        have h0 : 0 ≤ v.mip := by simpa [RaymarchArgs.stepOf] using hsam
        have hl := hlev v hm
        obtain ⟨e1, e2⟩ := h v.coord (hl ▸ h0)
        unfold RaymarchArgs.stepOf
        simp only [hl, e1, e2]
      unfold marchInterval
      rw [this]

end DexRT

namespace DexRT.Given
open DexRT DexRT.Fs DexRT.AtmosFile DexRT.Dir Classical

variable {s : Settings} {k nx nz nw : Nat} {eta chi : Coord2 → Int → ℝ} {scale : ℝ} {g : Given}

/-- the levels that the march reads -/
theorem readLevel_ok (hf : Fits s k nx nz) (hg : Good s k nx nz nw eta chi scale g) (lk : MLLookup Coord2) (L : Coord2 → Nat)
    (hl : LevelsFor (GridTile2 (2 ^ k) (nx * (2 ^ k : Nat)) (nz * (2 ^ k : Nat))) (fun _ => True) (mrOf s g lk) (fun t => (L t : Int)))
    (hL : ∀ t : Coord2, 0 ≤ t.x → t.x < nx → 0 ≤ t.z → t.z < nz → L t ≤ topLevel s) (junk : ℤ) :
    readLevel s (mrOf s g lk) junk = (fileWorld s k nx nz eta chi scale L).lvl := by
  funext c
  have hp : (0 : Int) < ((2 ^ k : Nat) : Int) := by exact_mod_cast Nat.two_pow_pos k
  have hax := axes hf
  unfold readLevel
  show _ = if 0 ≤ c 0 ∧ c 0 < ((nx * 2 ^ k : Nat) : Int) ∧ 0 ≤ c 1 ∧ c 1 < ((nz * 2 ^ k : Nat) : Int) then
      (L ⟨c 0 / (2 ^ k : Nat), c 1 / (2 ^ k : Nat)⟩ : Int) else -1
  by_cases hfit : fitsI32 (c 0) = true ∧ fitsI32 (c 1) = true
  · rw [if_pos hfit]
    have hI : IsI32Coord2 ⟨c 0, c 1⟩ := by
      unfold fitsI32 at hfit
      simpa [IsI32Coord2] using hfit
    obtain ⟨v, w, s', e1, e2, e3⟩ := C07_level2 k nx nz (fun _ => True) (mrOf s g lk) (fun t => (L t : Int)) hax.1 hax.2 hg.map hl
      (max (topLevel s) ((match (mgeo2 (2 ^ k)).sampleLevel (mrOf s g lk) (mgeo2 (2 ^ k)).fresh ⟨c 0, c 1⟩ with | .ok (v, _) => v | _ => 0) + 1))
      (le_max_of_le_left (by positivity)) [] (by simp) (by simp) (mgeo2 (2 ^ k)).fresh rfl ⟨c 0, c 1⟩ hI
    rw [hf.block]
    simp only [e1] at e3 ⊢
    have hw : w = if 0 ≤ c 0 ∧ c 0 < ((nx * 2 ^ k : Nat) : Int) ∧ 0 ≤ c 1 ∧ c 1 < ((nz * 2 ^ k : Nat) : Int) then
        (L ⟨c 0 / (2 ^ k : Nat), c 1 / (2 ^ k : Nat)⟩ : Int) else -1 := by
      rcases e2 with ⟨t, t1, t2, t3⟩ | ⟨t1, t2⟩
      · have hin : 0 ≤ c 0 ∧ c 0 < ((nx * 2 ^ k : Nat) : Int) ∧ 0 ≤ c 1 ∧ c 1 < ((nz * 2 ^ k : Nat) : Int) := by
          have t2' := t2
          unfold GridTile2 at t1
          unfold InTile2 at t2'
          simp only at t2'
          push_cast at t1 t2' ⊢
          obtain ⟨a1, a2, a3, a4⟩ := t1
          have h0 : (0:Int) < 2 ^ k := by exact_mod_cast hp
          have b1 : t.x < nx := lt_of_mul_lt_mul_right a2 h0.le
          have b2 : t.z < nz := lt_of_mul_lt_mul_right a4 h0.le
          have c1 : (t.x + 1) * 2 ^ k ≤ nx * 2 ^ k := mul_le_mul_of_nonneg_right (by omega) h0.le
          have c2 : (t.z + 1) * 2 ^ k ≤ nz * 2 ^ k := mul_le_mul_of_nonneg_right (by omega) h0.le
          have d1 : 0 ≤ t.x * 2 ^ k := mul_nonneg a1 h0.le
          have d2 : 0 ≤ t.z * 2 ^ k := mul_nonneg a3 h0.le
          rw [add_mul, one_mul] at c1 c2
          obtain ⟨x1, x2, x3, x4⟩ := t2'
          try rw [add_mul, one_mul] at x2
          try rw [add_mul, one_mul] at x4
          refine ⟨by linarith, by linarith, by linarith, by linarith⟩
        have ht : t = ⟨c 0 / (2 ^ k : Nat), c 1 / (2 ^ k : Nat)⟩ := by
          obtain ⟨-, q2⟩ := hasData hf ⟨c 0, c 1⟩ hin.1 hin.2.1 hin.2.2.1 hin.2.2.2
          exact ((tileOf2_iff k ⟨c 0, c 1⟩ t).2 t2).symm.trans ((tileOf2_iff k ⟨c 0, c 1⟩ _).2 q2)
        rw [if_pos hin, t3, ← ht]
      · rw [if_neg, t2]
        rintro ⟨a1, a2, a3, a4⟩
        obtain ⟨q1, q2⟩ := hasData hf ⟨c 0, c 1⟩ a1 a2 a3 a4
        exact t1 _ q1 q2
    rw [← hw]
    have hwt : w ≤ topLevel s := by
      rw [hw]
      split
      · rename_i hin
        obtain ⟨q1, -⟩ := hasData hf ⟨c 0, c 1⟩ hin.1 hin.2.1 hin.2.2.1 hin.2.2.2
        unfold GridTile2 at q1
        have := hL ⟨c 0 / (2 ^ k : Nat), c 1 / (2 ^ k : Nat)⟩ q1.1 (lt_of_mul_lt_mul_right q1.2.1 hp.le) q1.2.2.1
          (lt_of_mul_lt_mul_right q1.2.2.2 hp.le)
        exact_mod_cast this
      · omega
    rcases le_total v (max (topLevel s : Int) (v + 1)) with hv | hv
    · rw [min_eq_left hv, min_eq_left (le_max_of_le_left hwt)] at e3
      exact e3
    · have := le_max_right (topLevel s : Int) (v + 1)
      omega
  · rw [if_neg hfit, if_neg]
    rintro ⟨a1, a2, a3, a4⟩
    apply hfit
    have h1 := hax.1
    have h2 := hax.2
    unfold i32Max at h1 h2
    unfold fitsI32
    push_cast at a2 a4 h1 h2
    simp only [decide_eq_true_eq]
    constructor <;> constructor <;> linarith

/-- the arrays that the march reads -/
theorem readCell_ok {V : Type} (hf : Fits s k nx nz) (hg : Good s k nx nz nw eta chi scale g) (lk : MLLookup Coord2) (junk : V) (m : Int → V)
    (field : Coord2 → V) (l : ℤ) (hl0 : 0 ≤ l) (hl : l.toNat ≤ g.maxMip)
    (hm : StoredAt2 (2 ^ k) nx nz (fun _ => True) (mrOf s g g.lk) l.toNat m field) (c : Fin 2 → ℤ)
    (hc : 0 ≤ c 0 ∧ c 0 < ((nx * 2 ^ k : Nat) : Int) ∧ 0 ≤ c 1 ∧ c 1 < ((nz * 2 ^ k : Nat) : Int)) :
    readCell s g (mrOf s g lk) junk m l c = field ⟨c 0, c 1⟩ := by
  have hM := mipMap hf hg lk
  obtain ⟨q1, q2⟩ := hasData hf ⟨c 0, c 1⟩ hc.1 hc.2.1 hc.2.2.1 hc.2.2.2
  obtain ⟨a, s', e1, e2⟩ := (show StoredAt2 (2 ^ k) nx nz (fun _ => True) (mrOf s g lk) l.toNat m field from hm) ⟨c 0, c 1⟩ ⟨_, q1, trivial, q2⟩
  obtain ⟨s'', e3, -⟩ := hM.idx (mgeo2 (2 ^ k)).fresh ((mgeo2 (2 ^ k)).inv_fresh _) l.toNat hl _ ⟨c 0, c 1⟩ q1 trivial q2
  rw [e1] at e3
  injection e3 with e3
  injection e3 with e3 _
  unfold readCell
  rw [hf.block, e1]
  simp only
  rw [if_pos, e2]
  obtain ⟨l0, l1⟩ := hg.map.numbering.active _ q1 trivial
  unfold InTile2 at q2
  simp only at q2
  have hk : l.toNat ≤ k := le_trans hl hM.levels
  have hp : ((2 ^ k : Nat) : Int) = ((2 ^ (k - l.toNat) : Nat) : Int) * ((2 ^ l.toNat : Nat) : Int) := by
    rw [← Nat.cast_mul, ← pow_add]; congr 2; omega
  have hl2 : (0 : Int) < ((2 ^ l.toNat : Nat) : Int) := by exact_mod_cast Nat.two_pow_pos _
  have hr := hM.range l.toNat hl (g.bm.lookup ⟨c 0 / (2 ^ k : Nat), c 1 / (2 ^ k : Nat)⟩)
    ((c 1 - c 1 / (2 ^ k : Nat) * (2 ^ k : Nat)) / (2 ^ l.toNat : Nat)) ((c 0 - c 0 / (2 ^ k : Nat) * (2 ^ k : Nat)) / (2 ^ l.toNat : Nat))
    l0 l1 (Int.ediv_nonneg (by linarith [q2.2.2.1]) hl2.le)
    (by rw [Int.ediv_lt_iff_lt_mul hl2, ← hp]; have := q2.2.2.2; try rw [add_mul, one_mul] at this
        linarith)
    (Int.ediv_nonneg (by linarith [q2.1]) hl2.le)
    (by rw [Int.ediv_lt_iff_lt_mul hl2, ← hp]; have := q2.2.1; try rw [add_mul, one_mul] at this
        linarith)
  unfold bufLen
  rw [e3, hf.block]
  exact hr

end DexRT.Given
