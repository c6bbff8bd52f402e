import Verif.Spec.Config
import Verif.Lemmas.Crtaf
import Verif.Lemmas.Sparse
/-!
Lemmas on reading the configuration.
-/
namespace DexRT
namespace Config

theorem obind_ok {α β : Type} {x : Outcome α} {f : α → Outcome β} {b : β} (h : (x >>= f) = .ok b) :
    ∃ a, x = .ok a ∧ f a = .ok b := by
  cases x with
  | ok a => exact ⟨a, rfl, h⟩
  | throws => simp at h
  | ub => simp at h

theorem parseMode_word {k : Option String} {m : Mode} (h : parseMode k = .ok m) : Word modeName .NonLte k m := by
  cases k with
  | none => simp [parseMode] at h; exact Or.inr ⟨rfl, h.symm⟩
  | some s =>
    simp only [parseMode] at h
    split_ifs at h <;> simp_all [Word, modeName] <;> subst h <;> simp

theorem parseTreatment_word {k : Option String} {m : Treatment} (h : parseTreatment k = .ok m) :
    Word treatmentName .Active k m := by
  cases k with
  | none => simp [parseTreatment] at h; exact Or.inr ⟨rfl, h.symm⟩
  | some s =>
    simp only [parseTreatment] at h
    split_ifs at h <;> simp_all [Word, treatmentName] <;> subst h <;> simp

theorem parseInitPops_word {k : Option String} {m : InitPops} (h : parseInitPops k = .ok m) :
    Word initPopsName .Lte k m := by
  cases k with
  | none => simp [parseInitPops] at h; exact Or.inr ⟨rfl, h.symm⟩
  | some s =>
    simp only [parseInitPops] at h
    split_ifs at h <;> simp_all [Word, initPopsName] <;> subst h <;> simp

theorem parseBoundary_word {k : Option String} {m : Boundary} (h : parseBoundary k = .ok m) :
    Word boundaryName .Zero k m := by
  cases k with
  | none => simp [parseBoundary] at h; exact Or.inr ⟨rfl, h.symm⟩
  | some s =>
    simp only [parseBoundary] at h
    split_ifs at h <;> simp_all [Word, boundaryName] <;> subst h <;> simp

theorem parseMode_known {k : Option String} (h : Known modeName k) : ∃ m, parseMode k = .ok m := by
  cases k with
  | none => exact ⟨_, rfl⟩
  | some s => obtain ⟨v, rfl⟩ := h s rfl; cases v <;> exact ⟨_, rfl⟩

theorem parseTreatment_known {k : Option String} (h : Known treatmentName k) : ∃ m, parseTreatment k = .ok m := by
  cases k with
  | none => exact ⟨_, rfl⟩
  | some s => obtain ⟨v, rfl⟩ := h s rfl; cases v <;> exact ⟨_, rfl⟩

theorem parseInitPops_known {k : Option String} (h : Known initPopsName k) : ∃ m, parseInitPops k = .ok m := by
  cases k with
  | none => exact ⟨_, rfl⟩
  | some s => obtain ⟨v, rfl⟩ := h s rfl; cases v <;> exact ⟨_, rfl⟩

theorem parseBoundary_known {k : Option String} (h : Known boundaryName k) : ∃ m, parseBoundary k = .ok m := by
  cases k with
  | none => exact ⟨_, rfl⟩
  | some s => obtain ⟨v, rfl⟩ := h s rfl; cases v <;> exact ⟨_, rfl⟩

theorem parseAtom_read {a : AtomNode} {r : String × AtomCfg} (h : parseAtom a = .ok r) : AtomRead a r.1 r.2 := by
  unfold parseAtom at h
  cases hp : a.path with
  | none => rw [hp] at h; simp at h
  | some p =>
    rw [hp] at h
    obtain ⟨t, ht, h⟩ := obind_ok h
    obtain ⟨i, hi, h⟩ := obind_ok h
    cases h
    exact ⟨hp, parseTreatment_word ht, parseInitPops_word hi⟩

theorem parseAtom_known {a : AtomNode} (hp : a.path.isSome) (ht : Known treatmentName a.treatment)
    (hi : Known initPopsName a.initPops) : ∃ r, parseAtom a = .ok r := by
  obtain ⟨p, hp⟩ := Option.isSome_iff_exists.1 hp
  obtain ⟨t, ht⟩ := parseTreatment_known ht
  obtain ⟨i, hi⟩ := parseInitPops_known hi
  exact ⟨(p, { treatment := t, initPops := i }), by unfold parseAtom; rw [hp]; simp [ht, hi]⟩

/-- All fields of `lte`'s result. -/
theorem lte_ok {f : File} {c d : Cfg} (h : lte f c = .ok d) :
    ∃ as l b, f.atoms = some as ∧ as.mapM parseAtom = .ok l ∧ parseBoundary f.boundary = .ok b ∧
      d = { c with sparseCalc := f.sparseCalc.getD c.sparseCalc, threshold := f.threshold.getD c.threshold,
                   atomPaths := c.atomPaths ++ l.map Prod.fst, atomCfgs := c.atomCfgs ++ l.map Prod.snd, boundary := b } := by
  unfold lte at h
  cases ha : f.atoms with
  | none => rw [ha] at h; simp at h
  | some as =>
    rw [ha] at h
    obtain ⟨l, hl, h⟩ := obind_ok h
    obtain ⟨b, hb, h⟩ := obind_ok h
    cases h
    exact ⟨as, l, b, rfl, hl, hb, rfl⟩

theorem lte_atoms {as : List AtomNode} {l : List (String × AtomCfg)} (h : as.mapM parseAtom = .ok l) :
    as.length = (l.map Prod.fst).length ∧ as.length = (l.map Prod.snd).length ∧
    ∀ (i : ℕ) (a : AtomNode) (p : String) (k : AtomCfg), as[i]? = some a → (l.map Prod.fst)[i]? = some p → (l.map Prod.snd)[i]? = some k → AtomRead a p k := by
  induction as generalizing l with
  | nil =>
    simp at h
    subst h
    simp
  | cons a as ih =>
    rw [List.mapM_cons] at h
    obtain ⟨r, hr, h⟩ := obind_ok h
    obtain ⟨l', hl', h⟩ := obind_ok h
    cases h
    obtain ⟨h1, h2, h3⟩ := ih hl'
    refine ⟨by simpa using h1, by simpa using h2, ?_⟩
    intro i b p k hb hp hk
    cases i with
    | zero =>
      simp at hb hp hk
      subst hb hp hk
      exact parseAtom_read hr
    | succ i =>
      simp only [List.map_cons, List.getElem?_cons_succ] at hb hp hk
      exact h3 i b p k hb hp hk

theorem mipLevels_ok {m : ℤ} {n : Option LevelsNode} {l : List ℤ} (h : mipLevels m n = .ok l) :
    (l.length : ℤ) = m + 1 ∧ ∀ i < l.length, l[i]? = some (wantedLevel n i) := by
  unfold mipLevels at h
  split_ifs at h with h1 h2
  have hlen : (((m + 1).toNat : ℕ) : ℤ) = m + 1 := Int.toNat_of_nonneg (by omega)
  generalize (m + 1).toNat = len at h hlen
  unfold levelsFor at h
  match n with
  | none =>
    cases h
    refine ⟨by simpa using hlen, ?_⟩
    intro i hi
    rw [List.length_replicate] at hi
    rw [List.getElem?_replicate, if_pos hi]
    rfl
  | some (.one v) =>
    cases h
    refine ⟨by simpa using hlen, ?_⟩
    intro i hi
    rw [List.length_replicate] at hi
    rw [List.getElem?_replicate, if_pos hi]
    rfl
  | some (.seq s) =>
    simp only at h
    split_ifs at h with h3 h4
    · cases h
      have hl : (s.take (min len s.length) ++ List.replicate (len - min len s.length)
          (s[min len s.length - 1]'(by omega))).length = len := by
        simp
      refine ⟨by rw [hl]; exact hlen, ?_⟩
      intro i hi
      rw [hl] at hi
      rcases Nat.lt_or_ge i (min len s.length) with hm | hm
      · rw [List.getElem?_append_left (by simp; omega), List.getElem?_take_of_lt hm]
        have : i < s.length := by omega
        simp [wantedLevel, this]
      · rw [List.getElem?_append_right (by simp; omega)]
        have e : min len s.length = s.length := by omega
        rw [List.getElem?_replicate]
        rw [if_pos (by simp; omega)]
        have hs : s[i]? = none := List.getElem?_eq_none (by omega)
        have hne : s ≠ [] := by intro h; subst h; simp at h3
        simp only [wantedLevel, hs, Option.getD_none, e]
        rw [List.getLastD_eq_getLast?, List.getLast?_eq_getElem?]
        rw [List.getElem?_eq_getElem (by have := List.length_pos_of_ne_nil hne; omega)]
        rfl
    · cases h
      refine ⟨by rw [← hlen, h4]; rfl, by simp⟩

theorem mipLevels_valid {m : ℤ} {n : Option LevelsNode} (h0 : 0 ≤ m) (h1 : m < i32Max)
    (hl : ∀ l, n = some (.seq l) → l ≠ []) : ∃ l, mipLevels m n = .ok l := by
  unfold mipLevels
  rw [if_neg (by omega), if_neg (by omega)]
  unfold levelsFor
  match n, hl with
  | none, _ => exact ⟨_, rfl⟩
  | some (.one v), _ => exact ⟨_, rfl⟩
  | some (.seq s), hl =>
    have := List.length_pos_of_ne_nil (hl s rfl)
    refine ⟨_, dif_pos (by omega)⟩

/-- All fields of `mip`'s result. -/
theorem mip_ok {f : File} {c d : Cfg} (h : mip f c = .ok d) :
    ∃ l, mipLevels c.maxCascade (f.mip.bind MipNode.levels) = .ok l ∧
      d = { c with mip := { opacity := (f.mip.bind MipNode.opacity).getD c.mip.opacity,
                            logChi := (f.mip.bind MipNode.logChi).getD c.mip.logChi,
                            logEta := (f.mip.bind MipNode.logEta).getD c.mip.logEta, levels := l } } := by
  unfold mip at h
  obtain ⟨l, hl, h⟩ := obind_ok h
  refine ⟨l, hl, ?_⟩
  cases hm : f.mip with
  | none => rw [hm] at h; cases h; rfl
  | some m => rw [hm] at h; cases h; rfl

end Config
end DexRT
