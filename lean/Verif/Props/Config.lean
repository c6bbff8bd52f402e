import Verif.Lemmas.Config
/-!
C70: the configuration file is read as written or rejected. C71: the output file has what was asked for.
-/
namespace DexRT
namespace Config

/-- `parse` succeeded: the settings, step by step. -/
theorem parse_ok {pp : Bool} {f : File} {c : Cfg} (h : parse pp f = .ok c) :
    ∃ m c1 c2, parseMode f.mode = .ok m ∧
      extra f (base f m) = .ok c1 ∧
      outputIf pp f.output c1 = .ok c2 ∧ mip f c2 = .ok c := by
  unfold parse at h
  obtain ⟨m, hm, h⟩ := obind_ok h
  obtain ⟨c1, h1, h⟩ := obind_ok h
  obtain ⟨c2, h2, h⟩ := obind_ok h
  exact ⟨m, c1, c2, hm, h1, h2, h⟩

theorem outputIf_ok {pp : Bool} {o : Option OutNode} {c d : Cfg} (h : outputIf pp o c = .ok d) :
    d = { c with output := (o.map fun o => outMode c (outKeys o)).getD c.output } ∧
    ∀ n, o = some n → cascadesOk pp c (outMode c (outKeys n)) = true := by
  cases o with
  | none => cases h; exact ⟨rfl, by simp⟩
  | some o =>
    simp only [outputIf, output] at h
    split_ifs at h with hc
    cases h
    exact ⟨rfl, fun n hn => by cases hn; exact hc⟩

theorem extra_mode {f : File} {c d : Cfg} (h : extra f c = .ok d) : d.mode = c.mode ∧ d.maxCascade = c.maxCascade ∧
    d.pool = c.pool ∧ d.atmosPath = c.atmosPath ∧ d.outputPath = c.outputPath ∧ d.initialPops = c.initialPops ∧
    d.storeJ = c.storeJ ∧ d.output = c.output ∧ d.mip = c.mip := by
  unfold extra at h
  cases hm : c.mode with
  | Lte =>
    rw [hm] at h
    obtain ⟨as, l, b, -, -, -, rfl⟩ := lte_ok h
    simp [hm]
  | NonLte =>
    rw [hm] at h
    obtain ⟨e, he, h⟩ := obind_ok h
    obtain ⟨as, l, b, -, -, -, rfl⟩ := lte_ok he
    cases h
    simp [hm]
  | GivenFs =>
    rw [hm] at h
    cases h
    simp [givenFs, hm]

theorem poolOf_eq (s : Option SystemNode) :
    poolOf s 4 = ((s.bind SystemNode.pool).orElse fun _ => s.bind SystemNode.poolInitial).getD 4 := by
  cases s with
  | none => rfl
  | some s => cases h : s.pool <;> simp [poolOf, h]

theorem ngOf_eq (n : Option NgNode) (g : NgCfg) : (ngOf n g).enable = (n.bind NgNode.enable).getD g.enable ∧
    (ngOf n g).threshold = (n.bind NgNode.threshold).getD g.threshold ∧
    (ngOf n g).lower = (n.bind NgNode.lower).getD g.lower := by
  cases n <;> exact ⟨rfl, rfl, rfl⟩

/-- C70: every setting of an accepted file is the one written there, or the default. -/
theorem C70_reads (pp : Bool) (f : File) (c : Cfg) (h : parse pp f = .ok c) : ReadAsWritten f c := by
  obtain ⟨m, c1, c2, hm, h1, h2, h3⟩ := parse_ok h
  obtain ⟨e1, e2, e3, e4, e5, e6, e7, e8, e9⟩ := extra_mode h1
  obtain ⟨h2, -⟩ := outputIf_ok h2
  obtain ⟨l, hl, rfl⟩ := mip_ok h3
  have hlev := mipLevels_ok hl
  have hc2 : c2.maxCascade = f.maxCascade.getD 5 := by rw [h2]; exact e2
  have hmd : c2.mode = m := by rw [h2]; exact e1
  refine ⟨⟨?_, ?_, ?_, ?_, ?_, ?_, ?_, ?_, ?_, ?_, ?_, ?_⟩, ?_, ?_, ?_, ?_⟩
  · show Word modeName .NonLte f.mode c2.mode
    rw [hmd]
    exact parseMode_word hm
  · show c2.pool = _
    rw [h2, ← poolOf_eq]
    exact e3
  · show c2.atmosPath = _
    rw [h2]; exact e4
  · show c2.outputPath = _
    rw [h2]; exact e5
  · show c2.initialPops = _
    rw [h2]; exact e6
  · show c2.storeJ = _
    rw [h2]; exact e7
  · exact hc2
  · show (f.mip.bind MipNode.opacity).getD c2.mip.opacity = _
    rw [h2]; simp only; rw [e9]; rfl
  · show (f.mip.bind MipNode.logChi).getD c2.mip.logChi = _
    rw [h2]; simp only; rw [e9]; rfl
  · show (f.mip.bind MipNode.logEta).getD c2.mip.logEta = _
    rw [h2]; simp only; rw [e9]; rfl
  · exact hlev.1
  · exact hlev.2
  all_goals simp only [hmd]
  · intro hg
    unfold extra at h1
    have key : ∃ as l b, f.atoms = some as ∧ as.mapM parseAtom = .ok l ∧ parseBoundary f.boundary = .ok b ∧
        c1.atomPaths = l.map Prod.fst ∧ c1.atomCfgs = l.map Prod.snd ∧ c1.boundary = b ∧
        c1.sparseCalc = f.sparseCalc.getD false ∧ c1.threshold = f.threshold.getD 0 := by
      cases m with
      | Lte =>
        obtain ⟨as, l, b, a1, a2, a3, rfl⟩ := lte_ok h1
        exact ⟨as, l, b, a1, a2, a3, by simp [base], by simp [base], rfl, rfl, rfl⟩
      | NonLte =>
        obtain ⟨e, he, h1⟩ := obind_ok h1
        obtain ⟨as, l, b, a1, a2, a3, rfl⟩ := lte_ok he
        cases h1
        exact ⟨as, l, b, a1, a2, a3, by simp [base], by simp [base], rfl, rfl, rfl⟩
      | GivenFs => exact absurd rfl hg
    obtain ⟨as, l, b, a1, a2, a3, a4, a5, a6, a7, a8⟩ := key
    obtain ⟨b1, b2, b3⟩ := lte_atoms a2
    subst h2
    refine ⟨⟨as, a1, ?_, ?_, ?_⟩, ?_, ?_, ?_⟩
    · simp only [a4]; exact b1
    · simp only [a5]; exact b2
    · simp only [a4, a5]; exact b3
    · simp only [a6]; exact parseBoundary_word a3
    · exact a7
    · exact a8
  · intro hg
    subst hg
    cases h1
    subst h2
    exact ⟨rfl, rfl, rfl, rfl⟩
  · intro hg
    subst hg
    obtain ⟨e, he, h1⟩ := obind_ok h1
    obtain ⟨as, l, b, a1, a2, a3, rfl⟩ := lte_ok he
    cases h1
    subst h2
    obtain ⟨n1, n2, n3⟩ := ngOf_eq f.ng {}
    constructor <;> simp only [n1, n2, n3, base]
  · intro hg
    cases m with
    | Lte =>
      obtain ⟨as, l, b, a1, a2, a3, rfl⟩ := lte_ok h1
      subst h2
      exact ⟨rfl, rfl, rfl⟩
    | NonLte => exact absurd rfl hg
    | GivenFs => cases h1; subst h2; exact ⟨rfl, rfl, rfl⟩

theorem cascadesOk_iff (pp : Bool) (c : Cfg) (o : OutCfg) :
    cascadesOk pp c o = true ↔ ∀ n ∈ o.cascades, n ≤ c.maxCascade ∧ (pp = true → n ≤ 1) := by
  simp only [cascadesOk, List.all_eq_true, Bool.and_eq_true, Bool.not_eq_true', decide_eq_false_iff_not, not_lt]
  refine forall₂_congr fun n _ => and_congr_right fun _ => ?_
  cases pp <;> simp

theorem outMode_cascades (c : Cfg) (o : OutCfg) : (outMode c o).cascades = o.cascades := by
  unfold outMode
  cases c.mode <;> simp
  split <;> rfl

theorem outMode_sparse (c : Cfg) (o : OutCfg) :
    (outMode c o).sparse = o.sparse ∧ (outMode c o).J = o.J ∧ (outMode c o).wavelength = o.wavelength := by
  unfold outMode
  cases c.mode <;> simp
  split <;> exact ⟨rfl, rfl, rfl⟩

theorem mapM_known {as : List AtomNode} (h : ∀ a ∈ as, a.path.isSome ∧ Known treatmentName a.treatment ∧
    Known initPopsName a.initPops) : ∃ l, as.mapM parseAtom = .ok l := by
  induction as with
  | nil => exact ⟨[], rfl⟩
  | cons a as ih =>
    obtain ⟨l, hl⟩ := ih fun b hb => h b (List.mem_cons_of_mem _ hb)
    obtain ⟨r, hr⟩ := parseAtom_known (h a List.mem_cons_self).1 (h a List.mem_cons_self).2.1 (h a List.mem_cons_self).2.2
    exact ⟨r :: l, by simp [List.mapM_cons, hr, hl]⟩

theorem lte_valid {f : File} {c : Cfg} (ha : ∃ as, f.atoms = some as ∧ ∀ a ∈ as, a.path.isSome ∧
    Known treatmentName a.treatment ∧ Known initPopsName a.initPops) (hb : Known boundaryName f.boundary) :
    ∃ d, lte f c = .ok d := by
  obtain ⟨as, has, ha⟩ := ha
  obtain ⟨l, hl⟩ := mapM_known ha
  obtain ⟨b, hb⟩ := parseBoundary_known hb
  unfold lte
  rw [has]
  simp only [hl, hb, Outcome.ok_bind]
  exact ⟨_, rfl⟩

/-- C70: every valid file is accepted. -/
theorem C70_accepts (pp : Bool) (f : File) (h : ValidFile pp f) : ∃ c, parse pp f = .ok c := by
  obtain ⟨m, hm⟩ := parseMode_known h.mode
  have hw := parseMode_word hm
  have hex : ∀ c : Cfg, c.mode = m → ∃ d, extra f c = .ok d := by
    intro c hc
    unfold extra
    rw [hc]
    cases m with
    | Lte =>
      have hf : f.mode ≠ some "GivenFs" := by rcases hw with hw | hw <;> simp [hw, modeName]
      exact lte_valid (h.atoms hf) (h.boundary hf)
    | NonLte =>
      have hf : f.mode ≠ some "GivenFs" := by rcases hw with hw | hw <;> simp [hw, modeName]
      obtain ⟨d, hd⟩ := lte_valid (c := c) (h.atoms hf) (h.boundary hf)
      show ∃ d, nonLte f c = .ok d
      unfold nonLte
      rw [hd, Outcome.ok_bind]
      exact ⟨_, rfl⟩
    | GivenFs => exact ⟨_, rfl⟩
  unfold parse
  rw [hm, Outcome.ok_bind]
  obtain ⟨c1, hc1⟩ := hex (base f m) rfl
  obtain ⟨-, hmc, -⟩ := extra_mode hc1
  have hout : ∃ c2, outputIf pp f.output c1 = .ok c2 ∧ c2.maxCascade = c1.maxCascade := by
    cases ho : f.output with
    | none => exact ⟨c1, rfl, rfl⟩
    | some o =>
      simp only [outputIf, output]
      rw [if_pos]
      · exact ⟨_, rfl, rfl⟩
      · rw [cascadesOk_iff, outMode_cascades, hmc]
        exact h.cascades o ho
  obtain ⟨c2, hc2, hm2⟩ := hout
  simp only [hc1, hc2, Outcome.ok_bind]
  obtain ⟨l, hl⟩ := mipLevels_valid (m := c2.maxCascade) (n := f.mip.bind MipNode.levels)
    (by rw [hm2, hmc]; exact h.cascade.1) (by rw [hm2, hmc]; exact h.cascade.2) (by
      intro l hl
      cases hfm : f.mip with
      | none => rw [hfm] at hl; simp at hl
      | some mm => rw [hfm] at hl; exact h.levels mm hfm l hl)
  unfold mip
  rw [hl, Outcome.ok_bind]
  cases f.mip <;> exact ⟨_, rfl⟩

example : ValidFile true
    { atoms := some [{ path := some "H.yaml", treatment := some "Active" }], maxCascade := some 4,
      mip := some { levels := some (.seq [0, 0, 1]) }, output := some { cascades := some [0] } } where
  mode := by simp [Known]
  cascade := by simp [i32Max]
  levels := by simp
  atoms := by
    intro _
    refine ⟨_, rfl, ?_⟩
    simp only [List.mem_singleton, forall_eq]
    refine ⟨rfl, ?_, by simp [Known]⟩
    intro s hs
    cases hs
    exact ⟨.Active, rfl⟩
  boundary := by simp [Known]
  cascades := by simp

/-- C70: what is rejected: unknown words, missing atoms, atoms without a file, cascades that do not exist or are not kept.
(Partial: a negative number of cascades, a negative cascade number and an empty list of mip levels are not,
see `C70_refuted`, `C71_refuted_cascade`.) -/
theorem C70_rejects_partial (pp : Bool) (f : File) (c : Cfg) (h : parse pp f = .ok c) :
    Known modeName f.mode ∧
    (f.mode ≠ some "GivenFs" → (∃ as, f.atoms = some as ∧ ∀ a ∈ as, a.path.isSome ∧ Known treatmentName a.treatment ∧
      Known initPopsName a.initPops) ∧ Known boundaryName f.boundary) ∧
    (∀ o, f.output = some o → ∀ n ∈ o.cascades.getD [], n ≤ f.maxCascade.getD 5 ∧ (pp = true → n ≤ 1)) ∧
    -1 ≤ f.maxCascade.getD 5 := by
  have hr := C70_reads pp f c h
  have hk : ∀ {α : Type} {name : α → String} {d v : α} {k : Option String}, Word name d k v → Known name k := by
    intro α name d v k hw s hs
    rcases hw with hw | ⟨hw, -⟩
    · rw [hs] at hw
      exact ⟨v, by simpa using hw⟩
    · rw [hs] at hw; simp at hw
  refine ⟨hk hr.common.mode, ?_, ?_, ?_⟩
  · intro hg
    have hm : c.mode ≠ .GivenFs := by
      intro e
      rcases hr.common.mode with hw | ⟨-, hw⟩
      · rw [e] at hw; exact hg hw
      · rw [e] at hw; cases hw
    obtain ⟨as, h1, h2, h3, h4⟩ := (hr.atoms hm).atoms
    refine ⟨⟨as, h1, ?_⟩, hk (hr.atoms hm).boundary⟩
    intro a ha
    obtain ⟨i, hi, rfl⟩ := List.mem_iff_getElem.1 ha
    obtain ⟨r1, r2, r3⟩ := h4 i _ _ _ (List.getElem?_eq_getElem hi) (List.getElem?_eq_getElem (by omega))
      (List.getElem?_eq_getElem (by omega))
    exact ⟨by rw [r1]; rfl, hk r2, hk r3⟩
  · intro o ho
    obtain ⟨m, c1, c2, hm, h1, h2, h3⟩ := parse_ok h
    obtain ⟨-, e2, -⟩ := extra_mode h1
    have := (outputIf_ok h2).2 o ho
    rw [cascadesOk_iff, outMode_cascades, e2] at this
    exact this
  · rw [← hr.common.maxCascade]
    have := hr.common.levelsLength
    omega

/-- C70 is false as stated: a file with no cascades at all is accepted, and an empty list of mip levels reads outside the
array. -/
theorem C70_refuted : (∃ c, parse true { mode := some "GivenFs", maxCascade := some (-1) } = .ok c ∧ c.mip.levels = []) ∧
    parse true { mode := some "GivenFs", mip := some { levels := some (.seq []) } } = .ub := by
  refine ⟨⟨_, rfl, rfl⟩, rfl⟩

/-! ### The output file -/

theorem mapM_cascades {pp : Bool} {c : Cfg} {l : List ℤ}
    (h : ∀ n ∈ l, 0 ≤ n ∧ n ≤ c.maxCascade ∧ (pp = true → n ≤ 1)) :
    l.mapM (cascadeVar pp c) = .ok (l.map fun n => .cascade n.toNat) := by
  induction l with
  | nil => rfl
  | cons n l ih =>
    have hn := h n List.mem_cons_self
    have h1 : cascadeVar pp c n = .ok (.cascade n.toNat) := by
      unfold cascadeVar
      rw [if_pos]
      refine ⟨hn.1, ?_⟩
      cases pp with
      | true => simp; have := hn.2.2 rfl; omega
      | false => simp; omega
    simp [List.mapM_cons, h1, ih fun m hm => h m (List.mem_cons_of_mem _ hm)]

/-- C71: with an `output` section, the file has exactly the results asked for that apply to the run. (Partial: needs an
`output` section, no negative cascade numbers, and not the 3D program with a given source function; see the refutations.) -/
theorem C71_saves_partial (p : Program) (pp : Bool) (f : File) (o : OutNode) (c : Cfg) (h : parse pp f = .ok c)
    (ho : f.output = some o) (hneg : ∀ n ∈ o.cascades.getD [], 0 ≤ n)
    (h3 : p = .three → c.mode ≠ .GivenFs ∨ o.J = some false) : SavesWanted p pp o c := by
  have hcas := (C70_rejects_partial pp f c h).2.2.1 o ho
  have hmax := (C70_reads pp f c h).common.maxCascade
  obtain ⟨m, c1, c2, hm, h1, h2, hmip⟩ := parse_ok h
  obtain ⟨h2, -⟩ := outputIf_ok h2
  rw [ho] at h2
  have hc : c.output = outMode c (outKeys o) ∧ c.mode = c1.mode := by
    obtain ⟨l, -, rfl⟩ := mip_ok hmip
    subst h2
    exact ⟨rfl, rfl⟩
  have hmc : (c.output.cascades).mapM (cascadeVar pp c) = .ok ((o.cascades.getD []).map fun n => .cascade n.toNat) := by
    rw [hc.1, outMode_cascades]
    refine mapM_cascades fun n hn => ?_
    rw [hmax]
    exact ⟨hneg n hn, hcas n hn⟩
  have hcv : ∀ k : ℕ, Var.cascade k ∈ ((o.cascades.getD []).map fun n => Var.cascade n.toNat) ↔ (k : ℤ) ∈ o.cascades.getD [] := by
    intro k
    simp only [List.mem_map, Var.cascade.injEq]
    constructor
    · rintro ⟨n, hn, rfl⟩
      have := hneg n hn
      rwa [Int.toNat_of_nonneg this]
    · intro hk
      exact ⟨_, hk, by simp⟩
  have hcn : ∀ v, (∀ k, v ≠ Var.cascade k) → v ∉ ((o.cascades.getD []).map fun n => Var.cascade n.toNat) := by
    intro v hv hm
    obtain ⟨n, -, rfl⟩ := List.mem_map.1 hm
    exact hv _ rfl
  unfold SavesWanted saveVars
  simp only [hmc, Outcome.ok_bind]
  generalize ((o.cascades.getD []).map fun n => Var.cascade n.toNat) = cs at hcv hcn
  have n1 := hcn .J (by simp)
  have n2 := hcn .maxMip (by simp)
  have n3 := hcn .wavelength (by simp)
  have n4 := hcn .pops (by simp)
  have n5 := hcn .ltePops (by simp)
  have n6 := hcn .ne (by simp)
  have n7 := hcn .nh (by simp)
  have n8 := hcn .psiStar (by simp)
  have n9 := hcn .active (by simp)
  have n10 := hcn .tiles (by simp)
  obtain ⟨os1, os2, os3⟩ := outMode_sparse c (outKeys o)
  rw [← hc.1] at os1 os2 os3
  have hout := hc.1
  have os1' : c.output.sparse = o.sparse.getD false := os1
  have os2' : c.output.J = o.J.getD true := os2
  have os3' : c.output.wavelength = o.wavelength.getD true := os3
  clear hmc h1 h2 hmip hcas hmax h hm hcn ho hneg os1 os2 os3 hc
  cases hmode : c.mode with
  | GivenFs =>
    have e : c.output.ltePops = false ∧ c.output.pops = false ∧ c.output.ne = false ∧ c.output.nh = false ∧
        c.output.psiStar = false ∧ c.output.active = false := by
      rw [hout]; simp [outMode, hmode]
    obtain ⟨e1, e2, e3, e4, e5, e6⟩ := e
    simp only [e1, e2, e3, e4, e5, e6, os1', os2', os3', hasAtoms, hasPsi, hmode, jDefined]
    cases p with
    | two =>
      cases hJ : o.J.getD true <;> cases hs : o.sparse.getD false <;>
      · refine ⟨_, rfl, ?_⟩
        intro v
        cases v <;> simp_all [Wants, Applies]
    | three =>
      have hJ : o.J = some false := (h3 rfl).resolve_left (by simp [hmode])
      cases hs : o.sparse.getD false <;>
      · rw [hJ]
        refine ⟨_, rfl, ?_⟩
        intro v
        cases v <;> simp_all [Wants, Applies]
  | Lte =>
    have e : c.output.ltePops = false ∧ c.output.pops = o.pops.getD true ∧ c.output.ne = false ∧ c.output.nh = false ∧
        c.output.psiStar = false ∧ c.output.active = true := by
      rw [hout]; simp [outMode, hmode, outKeys]
    obtain ⟨e1, e2, e3, e4, e5, e6⟩ := e
    simp only [e1, e2, e3, e4, e5, e6, os1', os2', os3', hasAtoms, hasPsi, hmode, jDefined]
    cases p <;> cases hJ : o.J.getD true <;>
    · refine ⟨_, rfl, ?_⟩
      intro v
      cases hs : o.sparse.getD false <;> cases v <;> simp_all [Wants, Applies]
  | NonLte =>
    have e : c.output.ltePops = o.ltePops.getD true ∧ c.output.pops = o.pops.getD true ∧
        c.output.ne = ((c.charge || c.pressure) && o.ne.getD true) ∧
        c.output.nh = ((c.charge || c.pressure) && o.nh.getD true) ∧
        c.output.psiStar = o.psiStar.getD false ∧ c.output.active = true := by
      rw [hout]; simp only [outMode, hmode, outKeys]
      cases hcp : (c.charge || c.pressure) <;> simp
    obtain ⟨e1, e2, e3, e4, e5, e6⟩ := e
    simp only [e1, e2, e3, e4, e5, e6, os1', os2', os3', hasAtoms, hasPsi, hmode, jDefined]
    cases p <;> cases hJ : o.J.getD true <;> cases hl : o.ltePops.getD true <;>
    · refine ⟨_, rfl, ?_⟩
      intro v
      cases v <;> simp [Wants, Applies, hmode, hJ, hl, hcv, n1, n2, n3, n4, n5, n6, n7, n8, n9, n10, and_comm]

/-- The hypotheses of `C71_saves_partial` are met by an ordinary run, here with charge conservation and the first cascade. -/
example : ∃ c, parse true
    { atoms := some [{ path := some "H.yaml" }], charge := some true,
      output := some { sparse := some true, cascades := some [0] } } = .ok c ∧
    saveVars .two true c = .ok [.J, .maxMip, .wavelength, .pops, .ltePops, .ne, .nh, .active, .cascade 0, .tiles] :=
  ⟨_, rfl, rfl⟩

/-- C71: without an `output` section everything but the approximate operator and cascades is written, including densities that do
not change and LTE populations in LTE runs. (Partial: not for a given source function.) -/
theorem C71_no_section_partial (p : Program) (pp : Bool) (f : File) (c : Cfg) (h : parse pp f = .ok c)
    (ho : f.output = none) (hm : c.mode ≠ .GivenFs) :
    ∃ vs, saveVars p pp c = .ok vs ∧ ∀ v, v ∈ vs ↔
      v = .J ∨ v = .wavelength ∨ v = .pops ∨ v = .ltePops ∨ v = .ne ∨ v = .nh ∨ p = .two ∧ (v = .maxMip ∨ v = .active) := by
  obtain ⟨m, c1, c2, -, h1, h2, h3⟩ := parse_ok h
  obtain ⟨-, -, -, -, -, -, -, e8, -⟩ := extra_mode h1
  obtain ⟨h2, -⟩ := outputIf_ok h2
  obtain ⟨l, -, h3⟩ := mip_ok h3
  have hc : c.output = {} := by
    rw [h3, h2, ho]
    exact e8
  have ha : hasAtoms c = true := by simpa [hasAtoms] using hm
  unfold saveVars
  cases p
  · simp only [hc, ha, jDefined]
    refine ⟨_, rfl, ?_⟩
    intro v
    cases v <;> simp
  · simp only [hc, ha, jDefined]
    refine ⟨_, rfl, ?_⟩
    intro v
    cases v <;> simp

/-- C71 is false as stated for a given source function without an `output` section: the LTE populations of atoms that are not
there are computed, in both programs. -/
theorem C71_refuted_no_section (p : Program) (pp : Bool) (f : File) (c : Cfg) (h : parse pp f = .ok c)
    (ho : f.output = none) (hm : c.mode = .GivenFs) : saveVars p pp c = .ub := by
  obtain ⟨m, c1, c2, -, h1, h2, h3⟩ := parse_ok h
  obtain ⟨-, -, -, -, -, -, -, e8, -⟩ := extra_mode h1
  obtain ⟨h2, -⟩ := outputIf_ok h2
  obtain ⟨l, -, h3⟩ := mip_ok h3
  have hc : c.output = {} := by
    rw [h3, h2, ho]
    exact e8
  have ha : hasAtoms c = false := by simp [hasAtoms, hm]
  unfold saveVars
  cases p <;> simp [hc, ha, jDefined]

example : ∃ c, parse true { mode := some "GivenFs" } = .ok c ∧ c.mode = .GivenFs := ⟨_, rfl, rfl⟩

/-- C71 is false as stated for the 3D program with a given source function: the mean intensity, the only result of such a run,
cannot be written. -/
theorem C71_refuted_given3 (pp : Bool) (f : File) (c : Cfg) (h : parse pp f = .ok c) (hm : c.mode = .GivenFs)
    (hJ : f.output.bind OutNode.J ≠ some false) : saveVars .three pp c = .ub := by
  obtain ⟨m, c1, c2, -, h1, h2, h3⟩ := parse_ok h
  obtain ⟨-, -, -, -, -, -, -, e8, -⟩ := extra_mode h1
  obtain ⟨h2, -⟩ := outputIf_ok h2
  obtain ⟨l, -, h3⟩ := mip_ok h3
  have hc : c.output.J = true := by
    rw [h3, h2]
    cases hf : f.output with
    | none => simp [e8, base]
    | some o =>
      simp only [Option.map_some, Option.getD_some, (outMode_sparse c1 (outKeys o)).2.1]
      rw [hf] at hJ
      simp only [Option.bind_some] at hJ
      show o.J.getD true = true
      cases hj : o.J with
      | none => rfl
      | some b => cases b <;> simp_all
  unfold saveVars
  simp [hc, jDefined, hasAtoms, hm]

/-- C71 is false as stated for a negative cascade number: it is accepted and read outside the list of cascades. -/
theorem C71_refuted_cascade : ∃ c, parse true { mode := some "GivenFs", output := some { cascades := some [-1] } } = .ok c ∧
    saveVars .two true c = .ub := ⟨_, rfl, rfl⟩

/-- An empty `output` section is not the same as none: it drops the LTE populations of an LTE run. -/
theorem C71_empty_section : ∃ c d, parse true { mode := some "Lte", atoms := some [] } = .ok c ∧
    parse true { mode := some "Lte", atoms := some [], output := some {} } = .ok d ∧
    saveVars .two true c = .ok [.J, .maxMip, .wavelength, .pops, .ltePops, .ne, .nh, .active] ∧
    saveVars .two true d = .ok [.J, .maxMip, .wavelength, .pops, .active] := ⟨_, _, rfl, rfl, rfl, rfl⟩

end Config
end DexRT
