import Verif.Spec.AtmosFile
import Verif.Lemmas.Sparse
/-!
Lemmas of C81.
-/
namespace DexRT
namespace AtmosFile

variable {C W V K : Type}

/-- The invariant of the maximum. -/
def MaxOf (fl : FloatOps V) (v : K → V) (S : List K) (m : V) : Prop :=
  (m = fl.lowest ∨ (∃ k ∈ S, m = v k) ∧ fl.gt m fl.lowest = true) ∧ ∀ k ∈ S, fl.gt (v k) m = false

theorem chunk_max {fl : FloatOps V} {num : V → Prop} (hl : FloatLaws fl num) (v : K → V) (is S : List K) (m : V)
    (h : MaxOf fl v S m) : MaxOf fl v (S ++ is) (is.foldl (fun r i => maxBody fl (v i) r) m) := by
  induction is generalizing S m with
  | nil => simpa using h
  | cons i is ih =>
    have step : MaxOf fl v (S ++ [i]) (maxBody fl (v i) m) := by
      obtain ⟨h1, h2⟩ := h
      unfold maxBody
      by_cases hg : fl.gt (v i) m = true
      · rw [if_pos hg]
        refine ⟨Or.inr ⟨⟨i, by simp, rfl⟩, ?_⟩, ?_⟩
        · rcases h1 with h1 | h1
          · rw [← h1]; exact hg
          · exact hl.trans _ _ _ hg h1.2
        · intro k hk
          rcases List.mem_append.1 hk with hk | hk
          · by_contra hc
            rw [Bool.not_eq_false] at hc
            have := hl.trans _ _ _ hc hg
            rw [h2 k hk] at this
            exact Bool.noConfusion this
          · rw [List.mem_singleton] at hk; subst hk; exact hl.irrefl _
      · rw [if_neg hg]
        refine ⟨?_, ?_⟩
        · rcases h1 with h1 | ⟨⟨k, hk, e⟩, h1⟩
          · exact Or.inl h1
          · exact Or.inr ⟨⟨k, by simp [hk], e⟩, h1⟩
        · intro k hk
          rcases List.mem_append.1 hk with hk | hk
          · exact h2 k hk
          · rw [List.mem_singleton] at hk; subst hk; simpa using hg
    have := ih (S ++ [i]) _ step
    simpa using this

theorem runMax_max {fl : FloatOps V} {num : V → Prop} (hl : FloatLaws fl num) (v : K → V) (red : Red K) :
    MaxOf fl v red.iters (runMax fl v red) := by
  induction red with
  | chunk is =>
    have := chunk_max hl v is [] fl.lowest ⟨Or.inl rfl, by simp⟩
    simpa [Red.iters, runMax] using this
  | join l r hl' hr' =>
    simp only [Red.iters, runMax]
    obtain ⟨a1, a2⟩ := hl'
    obtain ⟨b1, b2⟩ := hr'
    by_cases hg : fl.gt (runMax fl v r) (runMax fl v l) = true
    · rw [if_pos hg]
      refine ⟨?_, ?_⟩
      · rcases b1 with b1 | ⟨⟨k, hk, e⟩, b1⟩
        · exact Or.inl b1
        · exact Or.inr ⟨⟨k, by simp [hk], e⟩, b1⟩
      · intro k hk
        rcases List.mem_append.1 hk with hk | hk
        · by_contra hc
          rw [Bool.not_eq_false] at hc
          have := hl.trans _ _ _ hc hg
          rw [a2 k hk] at this
          exact Bool.noConfusion this
        · exact b2 k hk
    · rw [if_neg hg]
      refine ⟨?_, ?_⟩
      · rcases a1 with a1 | ⟨⟨k, hk, e⟩, a1⟩
        · exact Or.inl a1
        · exact Or.inr ⟨⟨k, by simp [hk], e⟩, a1⟩
      · intro k hk
        rcases List.mem_append.1 hk with hk | hk
        · exact a2 k hk
        · by_contra hc
          rw [Bool.not_eq_false] at hc
          have hn : num (runMax fl v r) := by
            rcases b1 with b1 | ⟨_, b1⟩
            · rw [b1]; exact hl.num_lowest
            · exact (hl.gt_num _ _ b1).1
          rcases hl.split _ _ _ hn hc with h | h
          · rw [b2 k hk] at h; exact Bool.noConfusion h
          · exact hg h

/-- The flag is raised exactly when some velocity is fast, whatever the shape of the reduction. -/
theorem isMoving_iff {fl : FloatOps V} {num : V → Prop} (hl : FloatLaws fl num) (vx vy vz : K → V) (red : Red K) :
    isMoving fl vx vy vz red = true ↔ ∃ k ∈ red.iters, fl.gt (fl.sqrt (vel2 fl vx vy vz k)) fl.ten = true := by
  obtain ⟨h1, h2⟩ := runMax_max hl (vel2 fl vx vy vz) red
  unfold isMoving
  constructor
  · intro h
    rcases h1 with h1 | ⟨⟨k, hk, e⟩, _⟩
    · have := hl.sqrt_pos _ h
      rw [h1, hl.irrefl] at this
      exact Bool.noConfusion this
    · exact ⟨k, hk, by rw [← e]; exact h⟩
  · rintro ⟨k, hk, h⟩
    refine hl.sqrt_mono _ _ ?_ (h2 k hk) h
    rcases h1 with h1 | ⟨_, h1⟩
    · rw [h1]; exact hl.num_lowest
    · exact (hl.gt_num _ _ h1).1

/-- A complete set of variables is read, each under its name. -/
theorem readFields_ok (fl : FloatOps V) (cv : W → V) (scalar : String → Option W) (get : String → Option (K → W))
    (red : Red K) (hc : Complete scalar get) : ∃ a, readFields fl cv scalar get red = .ok a := by
  obtain ⟨h0, h⟩ := hc
  obtain ⟨w, hw⟩ := Option.isSome_iff_exists.1 h0
  have g : ∀ n ∈ required, ∃ v, get n = some v := fun n hn => Option.isSome_iff_exists.1 (h n hn)
  obtain ⟨t1, e1⟩ := g "temperature" (by simp [required])
  obtain ⟨t2, e2⟩ := g "pressure" (by simp [required])
  obtain ⟨t3, e3⟩ := g "ne" (by simp [required])
  obtain ⟨t4, e4⟩ := g "nh_tot" (by simp [required])
  obtain ⟨t5, e5⟩ := g "vturb" (by simp [required])
  obtain ⟨t6, e6⟩ := g "vx" (by simp [required])
  obtain ⟨t7, e7⟩ := g "vy" (by simp [required])
  obtain ⟨t8, e8⟩ := g "vz" (by simp [required])
  unfold readFields
  rw [hw, e1, e2, e3, e4, e5, e6, e7, e8]
  exact ⟨_, rfl⟩

/-- What `readFields` returns, cell by cell. -/
structure ReadIs (fl : FloatOps V) (cv : W → V) (scalar : String → Option W) (get : String → Option (K → W)) (red : Red K)
    (a : Atmos K V) : Prop where
  voxelScale : (scalar "voxel_scale").map cv = some a.voxelScale
  offsetX : a.offsetX = ((scalar "offset_x").map cv).getD fl.zero
  offsetY : a.offsetY = ((scalar "offset_y").map cv).getD fl.zero
  offsetZ : a.offsetZ = ((scalar "offset_z").map cv).getD fl.zero
  temperature : ∀ k, (get "temperature").map (fun v => cv (v k)) = some (a.temperature k)
  pressure : ∀ k, (get "pressure").map (fun v => cv (v k)) = some (a.pressure k)
  ne : ∀ k, (get "ne").map (fun v => cv (v k)) = some (a.ne k)
  nhTot : ∀ k, (get "nh_tot").map (fun v => cv (v k)) = some (a.nhTot k)
  vturb : ∀ k, (get "vturb").map (fun v => cv (v k)) = some (a.vturb k)
  vx : ∀ k, (get "vx").map (fun v => cv (v k)) = some (a.vx k)
  vy : ∀ k, (get "vy").map (fun v => cv (v k)) = some (a.vy k)
  vz : ∀ k, (get "vz").map (fun v => cv (v k)) = some (a.vz k)
  nh0 : ∀ k, a.nh0 k = fl.zero
  moving : a.moving = isMoving fl a.vx a.vy a.vz red

theorem need_ok {α : Type} {o : Option α} {a : α} (h : need o = .ok a) : o = some a := by
  cases o with
  | none => simp [need] at h
  | some b => simp only [need, Outcome.ok.injEq] at h; rw [h]

theorem obind {α β : Type} {x : Outcome α} {f : α → Outcome β} {b : β} (h : (x >>= f) = .ok b) :
    ∃ a, x = .ok a ∧ f a = .ok b := by
  cases x with
  | ok a => exact ⟨a, rfl, h⟩
  | throws => simp at h
  | ub => simp at h

theorem readFields_is (fl : FloatOps V) (cv : W → V) (scalar : String → Option W) (get : String → Option (K → W))
    (red : Red K) (a : Atmos K V) (h : readFields fl cv scalar get red = .ok a) : ReadIs fl cv scalar get red a := by
  unfold readFields at h
  obtain ⟨w, h0, h⟩ := obind h
  obtain ⟨t1, h1, h⟩ := obind h
  obtain ⟨t2, h2, h⟩ := obind h
  obtain ⟨t3, h3, h⟩ := obind h
  obtain ⟨t4, h4, h⟩ := obind h
  obtain ⟨t5, h5, h⟩ := obind h
  obtain ⟨t6, h6, h⟩ := obind h
  obtain ⟨t7, h7, h⟩ := obind h
  obtain ⟨t8, h8, h⟩ := obind h
  simp only [Outcome.ok.injEq] at h
  subst h
  constructor
  all_goals first
    | rfl
    | (intro k; first | rfl | simp [need_ok h1, need_ok h2, need_ok h3, need_ok h4, need_ok h5, need_ok h6, need_ok h7, need_ok h8])
    | simp [need_ok h0]

/-- A missing variable stops the load. -/
theorem readFields_missing (fl : FloatOps V) (cv : W → V) (scalar : String → Option W) (get : String → Option (K → W))
    (red : Red K) (h : ¬ Complete scalar get) : readFields fl cv scalar get red = .throws := by
  have key : ∀ {α β : Type} (o : Option α) (f : α → Outcome β), (∀ a, o = some a → f a = .throws) →
      (need o >>= f) = .throws := by
    intro α β o f hf
    cases o with
    | none => rfl
    | some a => exact hf a rfl
  unfold readFields
  refine key _ _ fun w h0 => key _ _ fun t1 h1 => key _ _ fun t2 h2 => key _ _ fun t3 h3 => key _ _ fun t4 h4 =>
    key _ _ fun t5 h5 => key _ _ fun t6 h6 => key _ _ fun t7 h7 => key _ _ fun t8 h8 => ?_
  exfalso
  refine h ⟨by simp [h0], ?_⟩
  intro n hn
  simp only [required, List.mem_cons, List.not_mem_nil, or_false] at hn
  rcases hn with rfl | rfl | rfl | rfl | rfl | rfl | rfl | rfl
  · simp [h1]
  · simp [h2]
  · simp [h3]
  · simp [h4]
  · simp [h5]
  · simp [h6]
  · simp [h7]
  · simp [h8]

/-- The scalars and the flag survive, and each field is carried over by the kernel. -/
theorem sparsify_spec (one : (C → V) → (Int → V) → Outcome (Int → V)) (Data : C → Int → Prop)
    (hone : ∀ src old, ∃ s, one src old = .ok s ∧ ∀ c adr, Data c adr → s adr = src c) (a : Atmos C V) (junk : Atmos Int V) :
    ∃ s, sparsify one a junk = .ok s ∧ s.voxelScale = a.voxelScale ∧ s.offsetX = a.offsetX ∧ s.offsetY = a.offsetY ∧
      s.offsetZ = a.offsetZ ∧ s.moving = a.moving ∧ ∀ c adr, Data c adr →
        s.temperature adr = a.temperature c ∧ s.pressure adr = a.pressure c ∧ s.ne adr = a.ne c ∧ s.nhTot adr = a.nhTot c ∧
        s.nh0 adr = a.nh0 c ∧ s.vturb adr = a.vturb c ∧ s.vx adr = a.vx c ∧ s.vy adr = a.vy c ∧ s.vz adr = a.vz c := by
  obtain ⟨s1, e1, h1⟩ := hone a.temperature junk.temperature
  obtain ⟨s2, e2, h2⟩ := hone a.pressure junk.pressure
  obtain ⟨s3, e3, h3⟩ := hone a.ne junk.ne
  obtain ⟨s4, e4, h4⟩ := hone a.nhTot junk.nhTot
  obtain ⟨s5, e5, h5⟩ := hone a.nh0 junk.nh0
  obtain ⟨s6, e6, h6⟩ := hone a.vturb junk.vturb
  obtain ⟨s7, e7, h7⟩ := hone a.vx junk.vx
  obtain ⟨s8, e8, h8⟩ := hone a.vy junk.vy
  obtain ⟨s9, e9, h9⟩ := hone a.vz junk.vz
  unfold sparsify
  rw [e1, e2, e3, e4, e5, e6, e7, e8, e9]
  exact ⟨_, rfl, rfl, rfl, rfl, rfl, rfl, fun c adr hd => ⟨h1 c adr hd, h2 c adr hd, h3 c adr hd, h4 c adr hd, h5 c adr hd,
    h6 c adr hd, h7 c adr hd, h8 c adr hd, h9 c adr hd⟩⟩

theorem scalars_of_read {fl : FloatOps V} {cv : W → V} {scalar : String → Option W} {get : String → Option (K → W)}
    {red : Red K} {a : Atmos K V} (h : ReadIs fl cv scalar get red a) (s : Atmos Int V) (h0 : s.voxelScale = a.voxelScale)
    (h1 : s.offsetX = a.offsetX) (h2 : s.offsetY = a.offsetY) (h3 : s.offsetZ = a.offsetZ) :
    ScalarsAre cv fl.zero scalar s := by
  refine ⟨by rw [h0]; exact h.voxelScale, ?_, ?_, ?_⟩
  · rw [h1, h.offsetX]; exact ⟨fun w hw => by simp [hw], fun hw => by simp [hw]⟩
  · rw [h2, h.offsetY]; exact ⟨fun w hw => by simp [hw], fun hw => by simp [hw]⟩
  · rw [h3, h.offsetZ]; exact ⟨fun w hw => by simp [hw], fun hw => by simp [hw]⟩

theorem moving_of_read {fl : FloatOps V} {num : V → Prop} (hl : FloatLaws fl num) {cv : W → V} {scalar : String → Option W}
    {get : String → Option (K → W)} {red : Red K} {a : Atmos K V} (h : ReadIs fl cv scalar get red a) :
    a.moving = true ↔ ∃ k ∈ red.iters, Fast fl cv get k := by
  rw [h.moving, isMoving_iff hl]
  refine exists_congr fun k => and_congr_right fun _ => ?_
  have hx := h.vx k
  have hy := h.vy k
  have hz := h.vz k
  unfold Fast vel2
  constructor
  · intro hg
    obtain ⟨x, ex, ex'⟩ := Option.map_eq_some_iff.1 hx
    obtain ⟨y, ey, ey'⟩ := Option.map_eq_some_iff.1 hy
    obtain ⟨z, ez, ez'⟩ := Option.map_eq_some_iff.1 hz
    exact ⟨x, y, z, ex, ey, ez, by rw [ex', ey', ez']; exact hg⟩
  · rintro ⟨x, y, z, ex, ey, ez, hg⟩
    rw [ex] at hx; rw [ey] at hy; rw [ez] at hz
    simp only [Option.map_some, Option.some.injEq] at hx hy hz
    rw [← hx, ← hy, ← hz]; exact hg

end AtmosFile
end DexRT
