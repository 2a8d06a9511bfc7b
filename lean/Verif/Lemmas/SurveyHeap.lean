import Verif.Lemmas.Survey

/-! The effect of a whole survey on samplers and selectors. -/

set_option autoImplicit false
set_option linter.unusedSectionVars false

namespace Popsynth
open Spec
variable {F G : Type}

/-- The part of a sampler that a survey never changes. -/
def Sampler.ident (s : Sampler F) : Sampler F := { s.static with luminosity := none }

theorem ident_of_static {s s' : Sampler F} (h : s'.static = s.static) : s'.ident = s.ident := by
  unfold Sampler.ident; rw [h]

section fields
variable {s s' : Sampler F}
theorem ident_secondaries (h : s'.ident = s.ident) : s'.secondaries = s.secondaries := by
  have := congrArg (Sampler.secondaries (F := F)) h; exact this
theorem ident_selector (h : s'.ident = s.ident) : s'.selector = s.selector := by
  have := congrArg (Sampler.selector (F := F)) h; exact this
theorem ident_name (h : s'.ident = s.ident) : s'.name = s.name := by
  have := congrArg (Sampler.name (F := F)) h; exact this
theorem ident_obsName (h : s'.ident = s.ident) : s'.obsName = s.obsName := by
  have := congrArg (Sampler.obsName (F := F)) h; exact this
theorem ident_hasSecondary (h : s'.ident = s.ident) : s'.hasSecondary = s.hasSecondary := by
  have := congrArg (Sampler.hasSecondary (F := F)) h; exact this
theorem ident_isSecondary (h : s'.ident = s.ident) : s'.isSecondary = s.isSecondary := by
  have := congrArg (Sampler.isSecondary (F := F)) h; exact this
theorem ident_isObserved (h : s'.ident = s.ident) : s'.isObserved = s.isObserved := by
  have := congrArg (Sampler.isObserved (F := F)) h; exact this
theorem ident_usesLuminosity (h : s'.ident = s.ident) : s'.usesLuminosity = s.usesLuminosity := by
  have := congrArg (Sampler.usesLuminosity (F := F)) h; exact this
theorem ident_usesDistance (h : s'.ident = s.ident) : s'.usesDistance = s.usesDistance := by
  have := congrArg (Sampler.usesDistance (F := F)) h; exact this
end fields

section
variable [LE F] [DecidableLE F] [OfNat F 0] [OfNat F 1]

/-- Effect of (part of) a survey with `n` objects at positions `v`: the samplers in `T`
were drawn, in this order. -/
structure SEff (w : World F G) (n : Nat) (v : Spatial F) (h h' : Heap F G)
    (T : List (Nat × SView F)) : Prop where
  ident : ∀ j, (h'.samplers j).ident = (h.samplers j).ident
  trace : h'.trace = h.trace ++ T
  nodup : (T.map Prod.fst).Nodup
  fresh : ∀ e ∈ T, (h.samplers e.1).isSampled = false
  marks : ∀ j, (h'.samplers j).isSampled = true ↔
    (h.samplers j).isSampled = true ∨ j ∈ T.map Prod.fst
  keep : ∀ j, j ∉ T.map Prod.fst →
    (h'.samplers j).trueVals = (h.samplers j).trueVals ∧
    (h'.samplers j).obsVals = (h.samplers j).obsVals ∧
    (h'.samplers j).params = (h.samplers j).params ∧
    (h'.samplers j).prob = (h.samplers j).prob
  vals : ∀ j ∈ T.map Prod.fst, ∃ t o, (h'.samplers j).trueVals = some t ∧
    (h'.samplers j).obsVals = some o ∧ t.length = n ∧ o.length = n ∧
    ((h.samplers j).isObserved = false → o = t)
  views : ∀ e ∈ T, e.2.spatial = some v ∧ e.2.params = (h.samplers e.1).params
  secs : ∀ e ∈ T, e.2.secs = (h.samplers e.1).secondaries.map
    fun p => (p.1, ((h'.samplers p.2).trueVals, (h'.samplers p.2).obsVals))
  deps : ∀ T1 e T2, T = T1 ++ e :: T2 → ∀ p ∈ (h.samplers e.1).secondaries,
    (h.samplers p.2).isSampled = true ∨ p.2 ∈ T1.map Prod.fst
  selStat : ∀ q, (h'.selectors q).flags = (h.selectors q).flags
  selKeep : ∀ q, (∀ e ∈ T, (h.samplers e.1).selector ≠ q) → h'.selectors q = h.selectors q
  selDrawn : ∀ T1 e T2, T = T1 ++ e :: T2 →
    (∀ e' ∈ T2, (h.samplers e'.1).selector ≠ (h.samplers e.1).selector) →
    DrawnFor w n h h' e.1 (h.samplers e.1).selector
      (∀ e' ∈ T1, (h.samplers e'.1).selector ≠ (h.samplers e.1).selector)

theorem SEff.of_eff {w : World F G} {n : Nat} {v : Spatial F} {h h' : Heap F G}
    {T : List (Nat × SView F)} (a : Eff w n (some v) [] h h' T) : SEff w n v h h' T where
  ident j := ident_of_static (a.static j)
  trace := a.trace
  nodup := a.nodup
  fresh := a.fresh
  marks := a.marks
  keep := a.keep
  vals := a.vals
  views e he := ⟨(a.views e he).2.1, (a.views e he).2.2⟩
  secs := a.secs
  deps := a.deps
  selStat := a.selStat
  selKeep q hq := a.selKeep q (by simp) hq
  selDrawn := a.selDrawn

/-- Nothing but luminosities, positions and the random state changed. -/
structure Prepared (h h' : Heap F G) : Prop where
  samplers : ∀ j, ∃ l sp, h'.samplers j = { h.samplers j with luminosity := l, spatial := sp }
  selectors : h'.selectors = h.selectors
  trace : h'.trace = h.trace

theorem Prepared.ident {h h' : Heap F G} (p : Prepared h h') (j : Nat) :
    (h'.samplers j).ident = (h.samplers j).ident := by
  obtain ⟨l, sp, hj⟩ := p.samplers j
  rw [hj]; rfl

theorem Prepared.refl (h : Heap F G) : Prepared h h :=
  ⟨fun j => ⟨(h.samplers j).luminosity, (h.samplers j).spatial, rfl⟩, rfl, rfl⟩

theorem Prepared.trans {a b c : Heap F G} (p : Prepared a b) (q : Prepared b c) : Prepared a c := by
  refine ⟨fun j => ?_, q.selectors.trans p.selectors, q.trace.trans p.trace⟩
  obtain ⟨l, sp, h1⟩ := p.samplers j
  obtain ⟨l', sp', h2⟩ := q.samplers j
  exact ⟨l', sp', by rw [h2, h1]⟩

theorem Prepared.rng (h : Heap F G) (g : G) : Prepared h { h with rng := g } :=
  ⟨fun j => ⟨(h.samplers j).luminosity, (h.samplers j).spatial, rfl⟩, rfl, rfl⟩

theorem SEff.of_prepared {w : World F G} {n : Nat} {v : Spatial F} {h h' : Heap F G}
    (p : Prepared h h') : SEff w n v h h' [] := by
  have hs : ∀ j, ∃ l sp, h'.samplers j = { h.samplers j with luminosity := l, spatial := sp } :=
    p.samplers
  refine ⟨p.ident, by simp [p.trace], List.nodup_nil, by simp, ?_, ?_, by simp, by simp, by simp,
    by simp, fun q => by rw [p.selectors], fun q _ => by rw [p.selectors], by simp⟩
  · intro j
    obtain ⟨l, sp, hj⟩ := hs j
    rw [hj]; simp
  · intro j _
    obtain ⟨l, sp, hj⟩ := hs j
    rw [hj]; exact ⟨rfl, rfl, rfl, rfl⟩

theorem SEff.comp {w : World F G} {n : Nat} {v : Spatial F} {h h1 h2 : Heap F G}
    {A B : List (Nat × SView F)} (a : SEff w n v h h1 A) (b : SEff w n v h1 h2 B) :
    SEff w n v h h2 (A ++ B) := by
  have hdisj : ∀ j, j ∈ A.map Prod.fst → j ∉ B.map Prod.fst := by
    intro j hA hB
    obtain ⟨e, he, rfl⟩ := List.mem_map.1 hB
    have h1' := b.fresh e he
    have h2' := (a.marks e.1).2 (.inr hA)
    rw [h1'] at h2'; cases h2'
  have hBA : ∀ e ∈ B, e.1 ∉ A.map Prod.fst := fun e he hA =>
    hdisj e.1 hA (List.mem_map.2 ⟨e, he, rfl⟩)
  have hsel : ∀ j, (h1.samplers j).selector = (h.samplers j).selector :=
    fun j => ident_selector (a.ident j)
  have hsec : ∀ j, (h1.samplers j).secondaries = (h.samplers j).secondaries :=
    fun j => ident_secondaries (a.ident j)
  constructor
  · intro j; exact (b.ident j).trans (a.ident j)
  · rw [b.trace, a.trace, List.append_assoc]
  · rw [List.map_append, List.nodup_append]
    exact ⟨a.nodup, b.nodup, fun x hx y hy hxy => hdisj x hx (hxy ▸ hy)⟩
  · intro e he
    rcases List.mem_append.1 he with he | he
    · exact a.fresh e he
    · have := b.fresh e he
      cases hs : (h.samplers e.1).isSampled with
      | false => rfl
      | true => rw [(a.marks e.1).2 (.inl hs)] at this; cases this
  · intro j
    rw [b.marks, a.marks, List.map_append, List.mem_append, or_assoc]
  · intro j hj
    rw [List.map_append, List.mem_append, not_or] at hj
    obtain ⟨k1, k2, k3, k4⟩ := a.keep j hj.1
    obtain ⟨l1, l2, l3, l4⟩ := b.keep j hj.2
    exact ⟨l1.trans k1, l2.trans k2, l3.trans k3, l4.trans k4⟩
  · intro j hj
    rw [List.map_append, List.mem_append] at hj
    rcases hj with hj | hj
    · obtain ⟨t, o, h1', h2', h3'⟩ := a.vals j hj
      obtain ⟨l1, l2, -⟩ := b.keep j (hdisj j hj)
      exact ⟨t, o, l1.trans h1', l2.trans h2', h3'⟩
    · obtain ⟨t, o, h1', h2', h3', h4', h5'⟩ := b.vals j hj
      exact ⟨t, o, h1', h2', h3', h4', by rw [← ident_isObserved (a.ident j)]; exact h5'⟩
  · intro e he
    rcases List.mem_append.1 he with he | he
    · exact a.views e he
    · obtain ⟨k1, k2⟩ := b.views e he
      exact ⟨k1, k2.trans (a.keep e.1 (hBA e he)).2.2.1⟩
  · intro e he
    rcases List.mem_append.1 he with he | he
    · rw [a.secs e he]
      apply List.map_congr_left
      intro p hp
      have hd : (h1.samplers p.2).isSampled = true := by
        obtain ⟨T1, T2, rfl⟩ := List.append_of_mem he
        rcases a.deps T1 e T2 rfl p hp with h3 | h3
        · exact (a.marks p.2).2 (.inl h3)
        · exact (a.marks p.2).2 (.inr (by rw [List.map_append]; exact List.mem_append_left _ h3))
      have hn : p.2 ∉ B.map Prod.fst := by
        intro hB
        obtain ⟨x, hx, hxe⟩ := List.mem_map.1 hB
        have := b.fresh x hx
        rw [hxe, hd] at this; cases this
      obtain ⟨l1, l2, -⟩ := b.keep p.2 hn
      rw [l1, l2]
    · rw [b.secs e he, hsec]
  · intro T1 e T2 hT p hp
    rcases split_append hT with ⟨A2, hA, -⟩ | ⟨B1, hB, rfl⟩
    · exact a.deps T1 e A2 hA p hp
    · rcases b.deps B1 e T2 hB p (by rw [hsec]; exact hp) with h3 | h3
      · rcases (a.marks p.2).1 h3 with h4 | h4
        · exact .inl h4
        · exact .inr (by rw [List.map_append]; exact List.mem_append_left _ h4)
      · exact .inr (by rw [List.map_append]; exact List.mem_append_right _ h3)
  · intro q; exact (b.selStat q).trans (a.selStat q)
  · intro q hq
    rw [b.selKeep q fun e he => by rw [hsel]; exact hq e (List.mem_append_right _ he),
      a.selKeep q fun e he => hq e (List.mem_append_left _ he)]
  · intro T1 e T2 hT hlast
    rcases split_append hT with ⟨A2, hA, rfl⟩ | ⟨B1, hB, rfl⟩
    · obtain ⟨st, g, d1, d2, d3, d4⟩ := a.selDrawn T1 e A2 hA
        fun e' he' => hlast e' (List.mem_append_left _ he')
      have hk := b.selKeep (h.samplers e.1).selector fun e' he' => by
        rw [hsel]; exact hlast e' (List.mem_append_right _ he')
      have heA : e.1 ∈ A.map Prod.fst := by rw [hA]; simp
      refine ⟨st, g, by rw [hk]; exact d1, ?_, d3, d4⟩
      rw [d2, (b.keep e.1 (hdisj _ heA)).2.1]
    · obtain ⟨st, g, d1, d2, d3, d4⟩ := b.selDrawn B1 e T2 hB
        fun e' he' => by rw [hsel, hsel]; exact hlast e' he'
      rw [hsel] at d1 d3 d4
      refine ⟨st, g, d1, d2, d3.trans (a.selStat _), fun hf => ?_⟩
      rw [d4 fun e' h' => by rw [hsel]; exact hf e' (List.mem_append_right _ h'),
        a.selKeep _ fun e' h' => hf e' (List.mem_append_left _ h')]

theorem SEff.children_eq {w : World F G} {n : Nat} {v : Spatial F} {h h' : Heap F G}
    {T : List (Nat × SView F)} (a : SEff w n v h h' T) : h'.children = h.children := by
  funext i
  simp only [Heap.children, ident_secondaries (a.ident i)]

theorem SEff.report_eq {w : World F G} {n : Nat} {v : Spatial F} {h h' : Heap F G}
    {T : List (Nat × SView F)} (a : SEff w n v h h' T) {j : Nat}
    (hj : (h.samplers j).isSampled = true) : Spec.report h' j = Spec.report h j := by
  have hn : j ∉ T.map Prod.fst := by
    intro hB
    obtain ⟨x, hx, rfl⟩ := List.mem_map.1 hB
    have := a.fresh x hx
    rw [hj] at this; cases this
  obtain ⟨k1, k2, k3, k4⟩ := a.keep j hn
  unfold Spec.report Sampler.probability
  rw [k1, k2, k4, ident_name (a.ident j), ident_selector (a.ident j)]

/-! ### Preparing -/

theorem setLuminosity_ok {i : Nat} {l : List F} {h h' : Heap F G}
    (hk : setLuminosity i l h = .ok () h') :
    h' = h.modSampler i fun s => { s with luminosity := some l } := by
  cases hk; rfl

theorem setSpatialValues_ok {i : Nat} {v : Spatial F} {h h' : Heap F G}
    (hk : setSpatialValues i v h = .ok () h') :
    h' = h.modSampler i fun s => { s with spatial := some v } := by
  cases hk; rfl

theorem Prepared.modLum (h : Heap F G) (i : Nat) (l : List F) :
    Prepared h (h.modSampler i fun s => { s with luminosity := some l }) := by
  refine ⟨fun j => ?_, rfl, rfl⟩
  by_cases hj : j = i
  · subst hj; exact ⟨some l, (h.samplers j).spatial, by simp [Heap.modSampler]⟩
  · exact ⟨(h.samplers j).luminosity, (h.samplers j).spatial, by simp [Heap.modSampler, hj]⟩

theorem Prepared.modSpatial (h : Heap F G) (i : Nat) (v : Spatial F) :
    Prepared h (h.modSampler i fun s => { s with spatial := some v }) := by
  refine ⟨fun j => ?_, rfl, rfl⟩
  by_cases hj : j = i
  · subst hj; exact ⟨(h.samplers j).luminosity, some v, by simp [Heap.modSampler]⟩
  · exact ⟨(h.samplers j).luminosity, (h.samplers j).spatial, by simp [Heap.modSampler, hj]⟩

/-- One iteration of the loop over secondaries in `prepareAux`. -/
def prepareSec (lums : List F) (v : Spatial F) (p : String × Nat) : Py (Heap F G) Unit := do
  let h ← get
  if (h.samplers p.2).usesLuminosity then setLuminosity p.2 lums
  if (h.samplers p.2).usesDistance then setSpatialValues p.2 v

/-- What a preparation may do to luminosities and positions. -/
structure PrepL (lums : List F) (v : Spatial F) (h h' : Heap F G) : Prop where
  prep : Prepared h h'
  lum : ∀ j, (h'.samplers j).luminosity = (h.samplers j).luminosity ∨
    (h'.samplers j).luminosity = some lums
  spat : ∀ j, (h'.samplers j).spatial = (h.samplers j).spatial ∨ (h'.samplers j).spatial = some v

theorem PrepL.refl (lums : List F) (v : Spatial F) (h : Heap F G) : PrepL lums v h h :=
  ⟨Prepared.refl h, fun _ => .inl rfl, fun _ => .inl rfl⟩

theorem PrepL.trans {lums : List F} {v : Spatial F} {a b c : Heap F G} (p : PrepL lums v a b)
    (q : PrepL lums v b c) : PrepL lums v a c := by
  refine ⟨p.prep.trans q.prep, fun j => ?_, fun j => ?_⟩
  · rcases q.lum j with h | h
    · rw [h]; exact p.lum j
    · exact .inr h
  · rcases q.spat j with h | h
    · rw [h]; exact p.spat j
    · exact .inr h

theorem PrepL.keepsLum {lums : List F} {v : Spatial F} {a b : Heap F G} (p : PrepL lums v a b)
    {j : Nat} (h : (a.samplers j).luminosity = some lums) : (b.samplers j).luminosity = some lums := by
  rcases p.lum j with h1 | h1
  · rw [h1, h]
  · exact h1

theorem PrepL.keepsSpat {lums : List F} {v : Spatial F} {a b : Heap F G} (p : PrepL lums v a b)
    {j : Nat} (h : (a.samplers j).spatial = some v) : (b.samplers j).spatial = some v := by
  rcases p.spat j with h1 | h1
  · rw [h1, h]
  · exact h1

theorem PrepL.setLum (lums : List F) (v : Spatial F) (h : Heap F G) (i : Nat) :
    PrepL lums v h (h.modSampler i fun s => { s with luminosity := some lums }) := by
  refine ⟨Prepared.modLum h i lums, fun j => ?_, fun j => ?_⟩ <;>
  by_cases hj : j = i <;> simp [Heap.modSampler, hj]

theorem PrepL.setSpat (lums : List F) (v : Spatial F) (h : Heap F G) (i : Nat) :
    PrepL lums v h (h.modSampler i fun s => { s with spatial := some v }) := by
  refine ⟨Prepared.modSpatial h i v, fun j => ?_, fun j => ?_⟩ <;>
  by_cases hj : j = i <;> simp [Heap.modSampler, hj]

theorem prepareSec_apply (lums : List F) (v : Spatial F) (p : String × Nat) (h : Heap F G) :
    ∃ h', prepareSec lums v p h = .ok () h' ∧ PrepL lums v h h' ∧
      ((h.samplers p.2).usesLuminosity = true → (h'.samplers p.2).luminosity = some lums) := by
  unfold prepareSec
  simp only [bind_apply, get_apply]
  cases hl : (h.samplers p.2).usesLuminosity <;> cases hd : (h.samplers p.2).usesDistance
  · exact ⟨h, rfl, PrepL.refl _ _ _, by simp⟩
  · exact ⟨_, rfl, PrepL.setSpat lums v h p.2, by simp⟩
  · exact ⟨_, rfl, PrepL.setLum lums v h p.2, fun _ => by simp [Heap.modSampler]⟩
  · exact ⟨_, rfl, (PrepL.setLum lums v h p.2).trans (PrepL.setSpat lums v _ p.2),
      fun _ => by simp [Heap.modSampler]⟩

theorem prepareSecs_ok (lums : List F) (v : Spatial F) (ps : Dict Nat) (h h' : Heap F G)
    (hk : forEach ps (prepareSec lums v) h = .ok () h') :
    PrepL lums v h h' ∧ ∀ p ∈ ps, (h.samplers p.2).usesLuminosity = true →
      (h'.samplers p.2).luminosity = some lums := by
  induction ps generalizing h with
  | nil => rw [forEach_nil] at hk; cases hk; exact ⟨PrepL.refl _ _ _, by simp⟩
  | cons p ps ih =>
    rw [forEach_cons, bind_ok_iff] at hk
    obtain ⟨_, h1, k1, k2⟩ := hk
    obtain ⟨h1', e1, e2, e3⟩ := prepareSec_apply lums v p h
    rw [e1] at k1; cases k1
    obtain ⟨i1, i2⟩ := ih _ k2
    refine ⟨e2.trans i1, fun q hq hu => ?_⟩
    rcases List.mem_cons.1 hq with rfl | hq
    · exact i1.keepsLum (e3 hu)
    · exact i2 q hq (by rw [ident_usesLuminosity (e2.prep.ident q.2)]; exact hu)

theorem prepareAux_ok {lums : List F} {v : Spatial F} {i : Nat} {h h' : Heap F G}
    (hk : prepareAux lums v i h = .ok () h') :
    PrepL lums v h h' ∧ (h'.samplers i).luminosity = some lums ∧
      (h'.samplers i).spatial = some v ∧
      ∀ p ∈ (h.samplers i).secondaries, (h.samplers p.2).usesLuminosity = true →
        (h'.samplers p.2).luminosity = some lums := by
  unfold prepareAux at hk
  simp only [bind_ok_iff, get_apply, EStateM.Result.ok.injEq] at hk
  obtain ⟨_, h1, k1, _, h2, k2, _, _, ⟨rfl, rfl⟩, k3⟩ := hk
  have e1 := setLuminosity_ok k1
  have e2 := setSpatialValues_ok k2
  subst e1; subst e2
  obtain ⟨j1, j2⟩ := prepareSecs_ok lums v _ _ _ k3
  have p12 := (PrepL.setLum lums v h i).trans (PrepL.setSpat lums v _ i)
  refine ⟨p12.trans j1, j1.keepsLum (by simp [Heap.modSampler]),
    j1.keepsSpat (by simp [Heap.modSampler]), ?_⟩
  intro p hp hu
  apply j2 p
  · rw [ident_secondaries (p12.prep.ident i)]; exact hp
  · rw [ident_usesLuminosity (p12.prep.ident p.2)]; exact hu

/-! ### One attached sampler -/

/-- The heap effect of one attached sampler: what is drawn, and which luminosities are
seen. -/
structure StepEff (w : World F G) (n : Nat) (lums : List F) (v : Spatial F) (i : Nat)
    (h h' : Heap F G) (T : List (Nat × SView F)) : Prop where
  eff : SEff w n v h h' T
  drawn : ∀ j, j ∈ T.map Prod.fst ↔ ReachU h.children h.sampled i j
  lumTop : ∀ e ∈ T, e.1 = i → e.2.luminosity = some lums
  lumSec : ∀ e ∈ T, e.1 ∈ h.children i → (h.samplers e.1).usesLuminosity = true →
    e.2.luminosity = some lums
  closed : DownClosed h.children h.sampled → DownClosed h'.children h'.sampled
  sampled : h'.sampled i = true

theorem Prepared.children {h h' : Heap F G} (p : Prepared h h') : h'.children = h.children := by
  funext i; simp only [Heap.children, ident_secondaries (p.ident i)]

theorem Prepared.sampled {h h' : Heap F G} (p : Prepared h h') : h'.sampled = h.sampled := by
  funext i
  obtain ⟨l, sp, hi⟩ := p.samplers i
  simp only [Heap.sampled, hi]

theorem AuxRun.eff {e : SurveyEnv F G} {n : Nat} {lums : List F} {v : Spatial F} {loc loc' : Loc F}
    {i : Nat} {s s' : SurvSt F G} (r : AuxRun e n lums v loc i s loc' s')
    (hac : Acyclic s.heap.children i) :
    ∃ T, StepEff e.world n lums v i s.heap s'.heap T := by
  obtain ⟨p1, p2, p3, p4⟩ := prepareAux_ok r.set
  obtain ⟨T, e1, e2⟩ := samplerDraw_eff e.world n e.frames i r.h1 s'.heap
    (by rw [p1.prep.children]; exact hac) r.drawn
  rw [p3] at e1
  have hT : SEff e.world n v s.heap s'.heap ([] ++ T) :=
    (SEff.of_prepared p1.prep).comp (SEff.of_eff e1)
  rw [List.nil_append] at hT
  refine ⟨T, hT, ?_, ?_, ?_, ?_, ?_⟩
  · intro j; rw [e2, p1.prep.children, p1.prep.sampled]
  · intro x hx hxi
    rw [(e1.views x hx).1, hxi]; exact p2
  · intro x hx hc hu
    rw [(e1.views x hx).1]
    obtain ⟨p, hp, hpe⟩ := List.mem_map.1 hc
    rw [← hpe] at hu ⊢
    exact p4 p hp hu
  · intro hd
    have := samplerDraw_downClosed e.world n e.frames i r.h1
      (by rw [p1.prep.children, p1.prep.sampled]; exact hd)
    rw [r.drawn] at this
    exact this
  · exact samplerDraw_marks e.world n e.frames i r.h1 s'.heap r.drawn

/-- Reports survive later draws. -/
theorem SEff.reports {w : World F G} {n : Nat} {v : Spatial F} {h h' : Heap F G}
    {T : List (Nat × SView F)} (a : SEff w n v h h' T) {S : Nat → Prop} {st : Storage F}
    (hs : ∀ j, S j → (h.samplers j).isSampled = true) (r : Reports h S st) : Reports h' S st := by
  refine ⟨r.nodup, fun nm c => ?_⟩
  rw [r.iff]
  constructor
  · rintro ⟨j, hj, rfl, rfl⟩
    exact ⟨j, hj, ident_name (a.ident j), (a.report_eq (hs j hj)).symm⟩
  · rintro ⟨j, hj, rfl, rfl⟩
    exact ⟨j, hj, (ident_name (a.ident j)).symm, a.report_eq (hs j hj)⟩

/-- The attached samplers, including the derived luminosity sampler. -/
def Synth.roots (y : Synth F) : List Nat := y.derived.toList ++ y.aux.map Prod.snd

/-- Configurations with the documented shape: acyclic graphs, distinct non-empty names,
`hasSecondary` set by attaching. -/
structure Spec.WellFormed (roots : List Nat) (h : Heap F G) : Prop where
  acyclic : ∀ i ∈ roots, Acyclic h.children i
  wired : ∀ j, (h.samplers j).hasSecondary = false → (h.samplers j).secondaries = []
  names : ∀ i ∈ roots, ∀ j, Reach h.children i j → (h.samplers j).name ≠ ""
  inj : ∀ a ∈ roots, ∀ b ∈ roots, ∀ i j, Reach h.children a i → Reach h.children b j →
    (h.samplers i).name = (h.samplers j).name → i = j

theorem Spec.WellFormed.of_ident {roots : List Nat} {h h' : Heap F G} (w : WellFormed roots h)
    (hi : ∀ j, (h'.samplers j).ident = (h.samplers j).ident) : WellFormed roots h' := by
  have hc : h'.children = h.children := by
    funext i; simp only [Heap.children, ident_secondaries (hi i)]
  refine ⟨fun i hm => by rw [hc]; exact w.acyclic i hm, ?_, ?_, ?_⟩
  · intro j; rw [ident_hasSecondary (hi j), ident_secondaries (hi j)]; exact w.wired j
  · intro i hm j; rw [hc, ident_name (hi j)]; exact w.names i hm j
  · intro a ha b hb i j; rw [hc, ident_name (hi i), ident_name (hi j)]; exact w.inj a ha b hb i j

theorem Spec.WellFormed.sub {roots roots' : List Nat} {h : Heap F G} (w : WellFormed roots h)
    (hs : ∀ i ∈ roots', i ∈ roots) : WellFormed roots' h :=
  ⟨fun i hm => w.acyclic i (hs i hm), w.wired, fun i hm => w.names i (hs i hm),
    fun a ha b hb => w.inj a (hs a ha) b (hs b hb)⟩

/-- `j` is one of `roots` or a dependency of one. -/
def ReachFrom (h : Heap F G) (roots : List Nat) (j : Nat) : Prop :=
  ∃ i ∈ roots, Reach h.children i j

theorem reach_sampled {ch : Nat → List Nat} {smp : Nat → Bool} (hd : DownClosed ch smp) {i j : Nat}
    (hr : Reach ch i j) (hi : smp i = true) : smp j = true := by
  induction hr with
  | here => exact hi
  | step hc _ ih => exact ih (hd _ hi _ hc)

/-! ### All attached samplers -/

/-- Effect of the loop over attached samplers. -/
theorem auxFold_eff {e : SurveyEnv F G} {n : Nat} {lums : List F} {v : Spatial F}
    (kvs : Dict Nat) (done : List Nat) (loc loc' : Loc F) (s s' : SurvSt F G)
    (hk : foldPy kvs loc (auxStep e n lums v) s = .ok loc' s')
    (hw : WellFormed (done ++ kvs.map Prod.snd) s.heap)
    (hd : DownClosed s.heap.children s.heap.sampled)
    (hsamp : ∀ i ∈ done, s.heap.sampled i = true)
    (hrep : Reports s.heap (ReachFrom s.heap done) loc.auxq) :
    s' = { s with heap := s'.heap } ∧ loc'.prob = loc.prob ∧
    DownClosed s'.heap.children s'.heap.sampled ∧
    (∃ T, SEff e.world n v s.heap s'.heap T ∧
      (∀ j, j ∈ T.map Prod.fst ↔ ReachFrom s.heap (kvs.map Prod.snd) j ∧ s.heap.sampled j = false) ∧
      (∀ x ∈ T, x.1 ∈ kvs.map Prod.snd → (∀ k ∈ kvs.map Prod.snd, k ≠ x.1 → ¬ Reach s.heap.children k x.1) →
        x.2.luminosity = some lums) ∧
      (∀ x ∈ T, (s.heap.samplers x.1).usesLuminosity = true →
        (∀ k ∈ kvs.map Prod.snd, Reach s.heap.children k x.1 → x.1 = k ∨ x.1 ∈ s.heap.children k) →
        x.2.luminosity = some lums)) ∧
    Reports s'.heap (ReachFrom s'.heap (done ++ kvs.map Prod.snd)) loc'.auxq ∧
    (∀ kv ∈ kvs, (s.heap.samplers kv.2).isSecondary = false) := by
  induction kvs generalizing done loc s with
  | nil =>
    rw [foldPy_nil] at hk; cases hk
    refine ⟨rfl, rfl, hd, ⟨[], SEff.of_prepared (Prepared.refl _), ?_, by simp, by simp⟩, ?_, by simp⟩
    · intro j; simp [ReachFrom]
    · simpa using hrep
  | cons kv kvs ih =>
    rw [foldPy_cons, bind_ok_iff] at hk
    obtain ⟨loc1, s1, k1, k2⟩ := hk
    obtain ⟨r⟩ := auxStep_ok k1
    obtain ⟨T, st⟩ := r.eff (hw.acyclic kv.2 (by simp))
    have hch := st.eff.children_eq
    have hw1 : WellFormed ((done ++ [kv.2]) ++ kvs.map Prod.snd) s1.heap := by
      have := hw.of_ident st.eff.ident
      simpa using this
    have hd1 := st.closed hd
    have hs1 : ∀ i ∈ done ++ [kv.2], s1.heap.sampled i = true := by
      intro i hi
      rcases List.mem_append.1 hi with hi | hi
      · exact (st.eff.marks i).2 (.inl (hsamp i hi))
      · rw [List.mem_singleton] at hi; subst hi; exact st.sampled
    have hrep1 : Reports s1.heap (ReachFrom s1.heap (done ++ [kv.2])) loc1.auxq := by
      have hold : Reports s1.heap (ReachFrom s.heap done) loc.auxq := by
        apply st.eff.reports _ hrep
        rintro j ⟨i, hi, hr⟩
        exact reach_sampled hd hr (hsamp i hi)
      have hnew : Reports s1.heap (Reach s1.heap.children kv.2) r.r := by
        apply secProps_reports s1.heap hw1.wired e.frames kv.2 r.r _ _ r.props
        · intro j hj; exact hw1.names kv.2 (by simp) j hj
        · intro a b ha hb; exact hw1.inj kv.2 (by simp) kv.2 (by simp) a b ha hb
      have hsub : ∀ j, ReachFrom s.heap done j ∨ Reach s1.heap.children kv.2 j →
          ∃ i ∈ (done ++ [kv.2]) ++ kvs.map Prod.snd, Reach s1.heap.children i j := by
        rintro j (⟨i, hi, hr⟩ | hr)
        · exact ⟨i, by simp [hi], by rw [hch]; exact hr⟩
        · exact ⟨kv.2, by simp, hr⟩
      have hadd := Storage.add_reports hold hnew
        (fun j hj => by
          obtain ⟨i, hi, hr⟩ := hsub j hj; exact hw1.names i hi j hr)
        (fun a b ha hb => by
          obtain ⟨i, hi, hr⟩ := hsub a ha
          obtain ⟨i', hi', hr'⟩ := hsub b hb
          exact hw1.inj i hi i' hi' a b hr hr')
      rw [r.loc_eq]
      refine hadd.congr fun j => ?_
      simp only [ReachFrom, hch, List.mem_append, List.mem_singleton]
      constructor
      · rintro (⟨i, hi, hr⟩ | hr)
        · exact ⟨i, .inl hi, hr⟩
        · exact ⟨kv.2, .inr rfl, hr⟩
      · rintro ⟨i, hi | rfl, hr⟩
        · exact .inl ⟨i, hi, hr⟩
        · exact .inr hr
    obtain ⟨i1, i2, i3, ⟨T', i4, i5, i6, i7⟩, i8, i9⟩ := ih (done ++ [kv.2]) loc1 s1 k2 hw1 hd1 hs1 hrep1
    refine ⟨by rw [i1, r.frame], by rw [i2, r.loc_eq], i3,
      ⟨T ++ T', st.eff.comp i4, ?_, ?_, ?_⟩, ?_, ?_⟩
    · intro j
      rw [List.map_append, List.mem_append, st.drawn, i5, reachU_iff_of_downClosed hd]
      simp only [ReachFrom, hch, List.map_cons, List.mem_cons]
      have hm := st.eff.marks j
      rw [st.drawn, reachU_iff_of_downClosed hd] at hm
      have hm' : s1.heap.sampled j = true ↔ s.heap.sampled j = true ∨
        Reach s.heap.children kv.2 j ∧ s.heap.sampled j = false := hm
      constructor
      · rintro (⟨h1, h2⟩ | ⟨⟨i, hi, hr⟩, hs⟩)
        · exact ⟨⟨_, .inl rfl, h1⟩, h2⟩
        · refine ⟨⟨i, .inr hi, hr⟩, ?_⟩
          cases hs' : s.heap.sampled j with
          | false => rfl
          | true => rw [hm'.2 (.inl hs')] at hs; cases hs
      · rintro ⟨⟨i, rfl | hi, hr⟩, hs⟩
        · exact .inl ⟨hr, hs⟩
        · by_cases hr' : Reach s.heap.children kv.2 j
          · exact .inl ⟨hr', hs⟩
          · refine .inr ⟨⟨i, hi, hr⟩, ?_⟩
            cases hs' : s1.heap.sampled j with
            | false => rfl
            | true =>
              rcases hm'.1 hs' with h | h
              · rw [hs] at h; cases h
              · exact absurd h.1 hr'
    · intro x hx hmem hno
      rcases List.mem_append.1 hx with hx | hx
      · by_cases hxi : x.1 = kv.2
        · exact st.lumTop x hx hxi
        · have hr := ((st.drawn x.1).1 (List.mem_map.2 ⟨x, hx, rfl⟩)).reach
          exact absurd hr (hno kv.2 (by simp) (fun h => hxi h.symm))
      · have hx1 : x.1 ∈ kvs.map Prod.snd := by
          rw [List.map_cons, List.mem_cons] at hmem
          rcases hmem with hmem | hmem
          · have hs := i4.fresh x hx
            have : s1.heap.sampled x.1 = true := by rw [hmem]; exact st.sampled
            rw [Heap.sampled] at this
            rw [hs] at this; cases this
          · exact hmem
        exact i6 x hx hx1 (fun k hk => by rw [hch]; exact hno k (by simp [hk]))
    · intro x hx hu hno
      rcases List.mem_append.1 hx with hx | hx
      · have hr := ((st.drawn x.1).1 (List.mem_map.2 ⟨x, hx, rfl⟩)).reach
        rcases hno kv.2 (by simp) hr with h | h
        · exact st.lumTop x hx h
        · exact st.lumSec x hx h hu
      · refine i7 x hx (by rw [ident_usesLuminosity (st.eff.ident _)]; exact hu) ?_
        intro k hk
        rw [hch]
        exact hno k (by simp [hk])
    · simpa using i8
    · intro q hq
      rcases List.mem_cons.1 hq with rfl | hq
      · exact r.primary
      · rw [← ident_isSecondary (st.eff.ident q.2)]; exact i9 q hq

/-! ### The derived luminosity sampler -/

/-- The loop collecting from a list of secondaries. -/
theorem secFold_reports (h : Heap F G) (k : Nat)
    (hwired : ∀ j, (h.samplers j).hasSecondary = false → (h.samplers j).secondaries = [])
    (R : Nat → Prop) (hne : ∀ j, R j → (h.samplers j).name ≠ "")
    (hinj : ∀ a b, R a → R b → (h.samplers a).name = (h.samplers b).name → a = b)
    (todo : Dict Nat) (S : Nat → Prop) (a b : Storage F)
    (hR : ∀ p ∈ todo, ∀ j, Reach h.children p.2 j → R j) (hS : ∀ j, S j → R j)
    (ra : Reports h S a)
    (hk : todo.foldlM (fun acc p => do
          let r ← secProps h k p.2
          pure (Storage.add acc r)) a = .ok b) :
    Reports h (fun j => S j ∨ ∃ p ∈ todo, Reach h.children p.2 j) b := by
  induction todo generalizing S a with
  | nil => cases hk; exact ra.congr fun j => by simp
  | cons p todo ih =>
    rw [foldlM_except_cons, except_bind_ok_iff] at hk
    obtain ⟨a1, k1, k2⟩ := hk
    rw [except_bind_ok_iff] at k1
    obtain ⟨r, k1, k3⟩ := k1
    cases k3
    have hp : ∀ j, Reach h.children p.2 j → R j := hR p (by simp)
    have rr := secProps_reports h hwired k p.2 r (fun j hj => hne j (hp j hj))
      (fun x y hx hy => hinj x y (hp x hx) (hp y hy)) k1
    have hin : ∀ j, S j ∨ Reach h.children p.2 j → R j := by
      rintro j (hj | hj)
      · exact hS j hj
      · exact hp j hj
    have := ih _ _ (fun q hq => hR q (by simp [hq])) hin
      (Storage.add_reports ra rr (fun j hj => hne j (hin j hj))
        (fun x y hx hy => hinj x y (hin x hx) (hin y hy))) k2
    refine this.congr fun j => ?_
    simp only [List.mem_cons, exists_eq_or_imp, or_assoc]

theorem DerivedRun.eff {e : SurveyEnv F G} {n : Nat} {v : Spatial F} {d : Nat} {loc loc' : Loc F}
    {s s' : SurvSt F G} {lums : List F} (r : DerivedRun e n v d loc s lums loc' s')
    (hw : WellFormed [d] s.heap) (hd : DownClosed s.heap.children s.heap.sampled)
    (hloc : loc.auxq = []) :
    s' = { s with heap := s'.heap } ∧ loc'.prob = loc.prob ∧
    DownClosed s'.heap.children s'.heap.sampled ∧ s'.heap.sampled d = true ∧
    (∃ T, SEff e.world n v s.heap s'.heap T ∧
      (∀ j, j ∈ T.map Prod.fst ↔ Reach s.heap.children d j ∧ s.heap.sampled j = false)) ∧
    Reports s'.heap (ReachFrom s'.heap [d]) loc'.auxq := by
  have e1 := setSpatialValues_ok r.set
  have p1 : Prepared s.heap r.h1 := by rw [e1]; exact Prepared.modSpatial _ _ _
  obtain ⟨T, t1, t2⟩ := samplerDraw_eff e.world n e.frames d r.h1 s'.heap
    (by rw [p1.children]; exact hw.acyclic d (by simp)) r.drawn
  have hsp : (r.h1.samplers d).spatial = some v := by rw [e1]; simp [Heap.modSampler]
  rw [hsp] at t1
  have hT : SEff e.world n v s.heap s'.heap ([] ++ T) :=
    (SEff.of_prepared p1).comp (SEff.of_eff t1)
  rw [List.nil_append] at hT
  have hw' := hw.of_ident hT.ident
  refine ⟨r.frame, by rw [r.loc_eq], ?_, samplerDraw_marks _ _ _ _ _ _ r.drawn, ⟨T, hT, ?_⟩, ?_⟩
  · have := samplerDraw_downClosed e.world n e.frames d r.h1
      (by rw [p1.children, p1.sampled]; exact hd)
    rw [r.drawn] at this
    exact this
  · intro j; rw [t2, p1.children, p1.sampled, reachU_iff_of_downClosed hd]
  · have h0 := Storage.set_reports (reports_nil s'.heap (F := F)) d (fun j hj => absurd hj id)
    have hs := r.secs
    rw [hloc] at hs
    have h1 := secFold_reports s'.heap e.frames hw'.wired (Reach s'.heap.children d)
      (fun j hj => hw'.names d (by simp) j hj)
      (fun a b ha hb => hw'.inj d (by simp) d (by simp) a b ha hb) _ _ _ _
      (fun p hp j hj => .step (List.mem_map.2 ⟨p, hp, rfl⟩) hj)
      (by rintro j (hj | rfl)
          · exact absurd hj id
          · exact .here _) h0 hs
    rw [r.loc_eq]
    refine h1.congr fun j => ?_
    simp only [ReachFrom, List.mem_singleton, exists_eq_left, false_or]
    constructor
    · rintro (rfl | ⟨p, hp, hj⟩)
      · exact .here _
      · exact .step (List.mem_map.2 ⟨p, hp, rfl⟩) hj
    · intro hj
      cases hj with
      | here => exact .inl rfl
      | step hc hj =>
        obtain ⟨p, hp, rfl⟩ := List.mem_map.1 hc
        exact .inr ⟨p, hp, hj⟩

/-! ### The whole survey -/

/-- Everything a completed survey did to the sampler heap. -/
structure SurveyEff (e : SurveyEnv F G) (y : Synth F) (a : SurveyArgs F) (s : SurvSt F G)
    (P : Population F) (s' : SurvSt F G) (r : SurveyRun e y a s P s') (T : List (Nat × SView F)) :
    Prop where
  eff : SEff e.world r.d.n r.d.pos s.heap r.all.s6.heap T
  drawn : ∀ j, j ∈ T.map Prod.fst ↔ ReachFrom s.heap y.roots j ∧ s.heap.sampled j = false
  reports : Reports r.all.s6.heap (ReachFrom s.heap y.roots) r.d.loc.auxq
  allSampled : ∀ j, ReachFrom s.heap y.roots j → r.all.s6.heap.sampled j = true
  lumTop : ∀ x ∈ T, x.1 ∈ y.aux.map Prod.snd →
    (∀ k ∈ y.roots, k ≠ x.1 → ¬ Reach s.heap.children k x.1) →
    (∀ d, y.derived = some d → d ≠ x.1) → x.2.luminosity = some r.d.lums
  lumSec : ∀ x ∈ T, (s.heap.samplers x.1).usesLuminosity = true →
    (∀ k ∈ y.aux.map Prod.snd, Reach s.heap.children k x.1 → x.1 = k ∨ x.1 ∈ s.heap.children k) →
    (∀ d, y.derived = some d → ¬ Reach s.heap.children d x.1) → x.2.luminosity = some r.d.lums
  primary : ∀ kv ∈ y.aux, (s.heap.samplers kv.2).isSecondary = false
  closed : DownClosed r.all.s6.heap.children r.all.s6.heap.sampled

theorem reseed_heap {e : SurveyEnv F G} {k : Int} {s s' : SurvSt F G} {u : Unit}
    (h : reseed e k s = .ok u s') : s' = { s with heap := { s.heap with rng := s'.heap.rng } } :=
  (onRng_ok h).2

/-- Only the random state of the heap differs. -/
def SameHeap (h h' : Heap F G) : Prop := h' = { h with rng := h'.rng }

theorem SameHeap.prepared {h h' : Heap F G} (k : SameHeap h h') : Prepared h h' := by
  rw [k]; exact Prepared.rng h h'.rng

theorem SameHeap.trans {a b c : Heap F G} (k : SameHeap a b) (l : SameHeap b c) : SameHeap a c := by
  unfold SameHeap at *; rw [l, k]

theorem onSpatial_heap {α : Type} {m : Py (SpSt F G) α} {s s' : SurvSt F G} {a : α}
    (h : onSpatial m s = .ok a s') : SameHeap s.heap s'.heap := by
  unfold SameHeap; rw [(onSpatial_ok h).2]

theorem onLum_heap {α : Type} {m : Py (LumSt F G) α} {s s' : SurvSt F G} {a : α}
    (h : onLum m s = .ok a s') : SameHeap s.heap s'.heap := by
  unfold SameHeap; rw [(onLum_ok h).2]

theorem onRng_heap {α : Type} {f : G → Except Err α × G} {s s' : SurvSt F G} {a : α}
    (h : onRng f s = .ok a s') : SameHeap s.heap s'.heap := by
  unfold SameHeap; rw [(onRng_ok h).2]

theorem countObjects_heap {e : SurveyEnv F G} {ns : Option Nat} {nz : Bool} {s s' : SurvSt F G}
    {n : Nat} (h : countObjects e ns nz s = .ok n s') : SameHeap s.heap s'.heap := by
  unfold countObjects at h
  cases ns with
  | some k => cases h; rfl
  | none =>
    simp only [bind_ok_iff] at h
    obtain ⟨N, s1, h1, h2⟩ := h
    exact (onSpatial_heap h1).trans (onRng_heap h2)

theorem AllRun.heap3 {e : SurveyEnv F G} {y : Synth F} {a : SurveyArgs F} {s : SurvSt F G}
    {d : Drawn F G} {s7 : SurvSt F G} (r : AllRun e y a s d s7) : SameHeap s.heap r.s3.heap := by
  obtain ⟨q⟩ := drawPositions_ok r.placed
  exact ((((onRng_heap r.seeded).trans (countObjects_heap r.counted)).trans
    (onSpatial_heap q.dist)).trans (onSpatial_heap q.sky))

theorem AllRun.heap6 {e : SurveyEnv F G} {y : Synth F} {a : SurveyArgs F} {s : SurvSt F G}
    {d : Drawn F G} {s7 : SurvSt F G} (r : AllRun e y a s d s7) :
    SameHeap r.s5.heap r.s6.heap := by
  unfold SameHeap; rw [observeFlux_rng r.observed]

theorem Spec.Reports.of_prepared {h h' : Heap F G} (p : Prepared h h') {S : Nat → Prop}
    {st : Storage F} (r : Reports h S st) : Reports h' S st := by
  have hr : ∀ j, Spec.report h' j = Spec.report h j := by
    intro j
    obtain ⟨l, sp, hj⟩ := p.samplers j
    unfold Spec.report Sampler.probability
    rw [hj]
  refine ⟨r.nodup, fun nm c => ?_⟩
  rw [r.iff]
  constructor
  · rintro ⟨j, hj, rfl, rfl⟩; exact ⟨j, hj, ident_name (p.ident j), (hr j).symm⟩
  · rintro ⟨j, hj, rfl, rfl⟩; exact ⟨j, hj, (ident_name (p.ident j)).symm, hr j⟩

theorem surveyEff {e : SurveyEnv F G} {y : Synth F} {a : SurveyArgs F} {s : SurvSt F G}
    {P : Population F} {s' : SurvSt F G} (r : SurveyRun e y a s P s')
    (hw : WellFormed y.roots s.heap) (hd : DownClosed s.heap.children s.heap.sampled) :
    ∃ T, SurveyEff e y a s P s' r T := by
  have p3 : Prepared s.heap r.all.s3.heap := r.all.heap3.prepared
  have p6 : Prepared r.all.s5.heap r.all.s6.heap := r.all.heap6.prepared
  have hw3 := hw.of_ident p3.ident
  have hd3 : DownClosed r.all.s3.heap.children r.all.s3.heap.sampled := by
    rw [p3.children, p3.sampled]; exact hd
  -- luminosities
  have key : ∃ T0, SEff e.world r.d.n r.d.pos r.all.s3.heap r.all.s4.heap T0 ∧
      (∀ j, j ∈ T0.map Prod.fst ↔ ReachFrom s.heap y.derived.toList j ∧ s.heap.sampled j = false) ∧
      DownClosed r.all.s4.heap.children r.all.s4.heap.sampled ∧
      (∀ i ∈ y.derived.toList, r.all.s4.heap.sampled i = true) ∧
      Reports r.all.s4.heap (ReachFrom r.all.s4.heap y.derived.toList) r.all.loc1.auxq := by
    rcases drawLuminosities_ok r.all.lumd with ⟨d, hd', ⟨q⟩⟩ | ⟨name, hd', hl', ⟨q⟩⟩
    · obtain ⟨-, -, q3, q4, ⟨T0, q5, q6⟩, q7⟩ := q.eff
        (hw3.sub (by intro i hi; simp [Synth.roots, hd'] at hi ⊢; exact .inl hi)) hd3 rfl
      refine ⟨T0, q5, ?_, q3, ?_, ?_⟩
      · intro j; rw [q6, p3.children, p3.sampled, hd']; simp [ReachFrom]
      · intro i hi; rw [hd'] at hi; simp at hi; subst hi; exact q4
      · rw [hd']; exact q7
    · have p4 : Prepared r.all.s3.heap r.all.s4.heap :=
        ((onLum_heap q.drawn).trans (onLum_heap q.probd)).prepared
      refine ⟨[], SEff.of_prepared p4, ?_, ?_, ?_, ?_⟩
      · intro j; rw [hd']; simp [ReachFrom]
      · rw [p4.children, p4.sampled]; exact hd3
      · rw [hd']; simp
      · rw [hd', q.loc_eq]
        exact (reports_nil _).congr fun j => by simp [ReachFrom]
  obtain ⟨T0, a1, a2, a3, a4, a5⟩ := key
  have e34 : SEff e.world r.d.n r.d.pos s.heap r.all.s4.heap T0 := by
    have := (SEff.of_prepared (w := e.world) (n := r.d.n) (v := r.d.pos) p3).comp a1
    rwa [List.nil_append] at this
  have hch4 := e34.children_eq
  obtain ⟨b1, b2, b3, ⟨T1, b4, b5, b6, b7⟩, b8, b9⟩ := auxFold_eff y.aux y.derived.toList
    r.all.loc1 r.d.loc r.all.s4 r.all.s5 r.all.auxd (hw.of_ident e34.ident) a3 a4 a5
  have e5 : SEff e.world r.d.n r.d.pos s.heap r.all.s5.heap (T0 ++ T1) := e34.comp b4
  have e6 : SEff e.world r.d.n r.d.pos s.heap r.all.s6.heap (T0 ++ T1) := by
    have := e5.comp (SEff.of_prepared (w := e.world) (n := r.d.n) (v := r.d.pos) p6)
    rwa [List.append_nil] at this
  have hdr : ∀ j, j ∈ (T0 ++ T1).map Prod.fst ↔
      ReachFrom s.heap y.roots j ∧ s.heap.sampled j = false := by
    intro j
    have hm : r.all.s4.heap.sampled j = true ↔ s.heap.sampled j = true ∨
        j ∈ T0.map Prod.fst := e34.marks j
    rw [List.map_append, List.mem_append, b5]
    have h2 : ReachFrom r.all.s4.heap (y.aux.map Prod.snd) j ↔
        ReachFrom s.heap (y.aux.map Prod.snd) j := by simp only [ReachFrom, hch4]
    have h3 : ReachFrom s.heap y.roots j ↔ ReachFrom s.heap y.derived.toList j ∨
        ReachFrom s.heap (y.aux.map Prod.snd) j := by
      simp only [ReachFrom, Synth.roots, List.mem_append]
      constructor
      · rintro ⟨i, hi | hi, hr⟩
        · exact .inl ⟨i, hi, hr⟩
        · exact .inr ⟨i, hi, hr⟩
      · rintro (⟨i, hi, hr⟩ | ⟨i, hi, hr⟩)
        · exact ⟨i, .inl hi, hr⟩
        · exact ⟨i, .inr hi, hr⟩
    rw [h2, h3]
    rw [a2] at hm
    rw [a2]
    constructor
    · rintro (⟨c1, c2⟩ | ⟨c1, c2⟩)
      · exact ⟨.inl c1, c2⟩
      · refine ⟨.inr c1, ?_⟩
        cases hs : s.heap.sampled j with
        | false => rfl
        | true => rw [hm.2 (.inl hs)] at c2; cases c2
    · rintro ⟨c1, c2⟩
      by_cases hc : ReachFrom s.heap y.derived.toList j
      · exact .inl ⟨hc, c2⟩
      · refine .inr ⟨c1.resolve_left hc, ?_⟩
        cases hs : r.all.s4.heap.sampled j with
        | false => rfl
        | true =>
          rcases hm.1 hs with h | h
          · rw [c2] at h; cases h
          · exact absurd h.1 hc
  have hall : ∀ j, ReachFrom s.heap y.roots j → r.all.s6.heap.sampled j = true := by
    intro j hj
    cases hs : s.heap.sampled j with
    | true => exact (e6.marks j).2 (.inl hs)
    | false => exact (e6.marks j).2 (.inr ((hdr j).2 ⟨hj, hs⟩))
  refine ⟨T0 ++ T1, e6, hdr, ?_, hall, ?_, ?_, ?_, ?_⟩
  · have := b8.of_prepared p6
    refine this.congr fun j => ?_
    simp only [ReachFrom, b4.children_eq, hch4, Synth.roots]
  · intro x hx hm hno hder
    rcases List.mem_append.1 hx with hx | hx
    · have h0 := ((a2 x.1).1 (List.mem_map.2 ⟨x, hx, rfl⟩)).1
      obtain ⟨i, hi, hr⟩ := h0
      have hi' : y.derived = some i := by simpa using hi
      exact absurd hr (hno i (by simp [Synth.roots, hi']) (hder i hi'))
    · exact b6 x hx hm fun k hk hne => by
        rw [hch4]; exact hno k (by simp only [Synth.roots, List.mem_append]; exact .inr hk) hne
  · intro x hx hu hno hder
    rcases List.mem_append.1 hx with hx | hx
    · obtain ⟨i, hi, hr⟩ := ((a2 x.1).1 (List.mem_map.2 ⟨x, hx, rfl⟩)).1
      exact absurd hr (hder i (by simpa using hi))
    · exact b7 x hx (by rw [ident_usesLuminosity (e34.ident _)]; exact hu)
        fun k hk => by rw [hch4]; exact hno k hk
  · intro kv hkv
    rw [← ident_isSecondary (e34.ident kv.2)]; exact b9 kv hkv
  · rw [p6.children, p6.sampled]; exact b3

/-! ### After all samplers were drawn -/

theorem Dict.get?_cons {α : Type} (k : String) (v : α) (d : Dict α) (k' : String) :
    Dict.get? ((k, v) :: d) k' = if k = k' then some v else Dict.get? d k' := by
  simp [Dict.get?]

/-- Selections change only their own selectors. -/
theorem AllRun.frame7 {e : SurveyEnv F G} {y : Synth F} {a : SurveyArgs F} {s : SurvSt F G}
    {d : Drawn F G} {s7 : SurvSt F G} (r : AllRun e y a s d s7) :
    s7.heap.samplers = r.s6.heap.samplers ∧ s7.heap.trace = r.s6.heap.trace ∧
    (∀ q, q ≠ y.fluxSel → some q ≠ y.spatSel → s7.heap.selectors q = r.s6.heap.selectors q) ∧
    s7.sp = r.s6.sp ∧ s7.lum = r.s6.lum ∧ s7.graph = r.s6.graph := by
  obtain ⟨q⟩ := applySelections_ok r.selected
  have f1 := selectOn_ok q.fluxd
  have a1 : q.s2.heap.samplers = r.s6.heap.samplers := f1.samplers
  have a2 : q.s2.heap.trace = r.s6.heap.trace := f1.trace
  have a3 : ∀ x, x ≠ y.fluxSel → q.s2.heap.selectors x = r.s6.heap.selectors x := by
    intro x hx
    rw [f1.others x hx]
    simp [Heap.modSelector, hx]
  have a4 := f1.rest
  rcases applySpatial_ok q.spat with ⟨hn, -, he⟩ | ⟨p, hp, hs, hsel, hadd⟩
  · have b := (show s7.heap = q.s2.heap ∧ s7.sp = q.s2.sp ∧ s7.lum = q.s2.lum ∧
        s7.graph = q.s2.graph from ⟨congrArg (·.heap) he, congrArg (·.sp) he, congrArg (·.lum) he,
          congrArg (·.graph) he⟩)
    refine ⟨(congrArg (·.samplers) b.1).trans a1, (congrArg (·.trace) b.1).trans a2,
      fun x hx _ => (congrArg (·.selectors x) b.1).trans (a3 x hx), b.2.1.trans a4.1,
      b.2.2.1.trans a4.2.1, b.2.2.2.trans a4.2.2⟩
  · have f2 := selectOn_ok hsel
    refine ⟨f2.samplers.trans a1, f2.trace.trans a2, ?_, ?_⟩
    · intro x hx hx'
      have hne : x ≠ p := fun h => hx' (by rw [hp, h])
      rw [f2.others x hne]
      refine Eq.trans ?_ (a3 x hx)
      simp [Heap.modSelector, hne]
    · exact ⟨f2.rest.1.trans a4.1, f2.rest.2.1.trans a4.2.1, f2.rest.2.2.trans a4.2.2⟩

theorem BuildRun.frame {e : SurveyEnv F G} {y : Synth F} {d : Drawn F G} {s s' : SurvSt F G}
    {P : Population F} (r : BuildRun e y d s P s') :
    s'.heap.samplers = s.heap.samplers ∧ s'.heap.trace = s.heap.trace ∧
    (∀ q, q ≠ y.distSel → s'.heap.selectors q = s.heap.selectors q) ∧
    s'.heap.selectors = r.s8.heap.selectors ∧ s'.lum = s.lum := by
  have f := selectOn_ok r.distd
  have h2 := (onSpatial_ok r.rmax).2
  have h3 := (onGraph_ok r.graphed).2
  have hh : s'.heap.samplers = r.s8.heap.samplers ∧ s'.heap.trace = r.s8.heap.trace ∧
      s'.heap.selectors = r.s8.heap.selectors ∧ s'.lum = r.s8.lum := by
    have e1 : s'.heap = r.s9.heap := congrArg (·.heap) h3
    have e2 : s'.lum = r.s9.lum := congrArg (·.lum) h3
    rw [e1, e2]
    refine ⟨(congrArg (fun t => t.heap.samplers) h2).trans rfl,
      (congrArg (fun t => t.heap.trace) h2).trans rfl,
      (congrArg (fun t => t.heap.selectors) h2).trans rfl, (congrArg (fun t => t.lum) h2).trans rfl⟩
  refine ⟨hh.1.trans f.samplers, hh.2.1.trans f.trace, ?_, hh.2.2.1, hh.2.2.2.trans f.rest.2.1⟩
  intro q hq
  rw [hh.2.2.1]; exact f.others q hq

/-- The population's selection, object by object: the flux mask, the spatial mask and
the masks of all reported non-unity selectors. -/
theorem SurveyRun.selection {e : SurveyEnv F G} {y : Synth F} {a : SurveyArgs F} {s : SurvSt F G}
    {P : Population F} {s' : SurvSt F G} (r : SurveyRun e y a s P s') (i : Nat) (z : Bool)
    (hz : bget r.build.gm i = some z) :
    ∃ q : SelRun e y r.d.n r.d.pos r.d.fluxObs r.d.loc r.all.s6 r.d.glob r.d.prob r.s7,
    (z = true ↔ MaskSelects (q.s2.heap.selectors y.fluxSel) i ∧
      (∀ p, y.spatSel = some p → MaskSelects (r.s7.heap.selectors p) i) ∧
      (∀ kv ∈ r.d.loc.auxq, (q.s2.heap.selectors kv.2.selection).kind.isUnity = false →
        MaskSelects (q.s2.heap.selectors kv.2.selection) i)) := by
  obtain ⟨q⟩ := applySelections_ok r.all.selected
  refine ⟨q, ?_⟩
  have hgm : r.d.glob.selection = some r.build.gm := by
    have := r.build.gmask
    unfold Selector.mask at this
    cases hs : r.d.glob.selection with
    | none => rw [hs] at this; cases this
    | some m => rw [hs] at this; cases this; rfl
  have ones : ∀ z0, bget (List.replicate r.d.n true) i = some z0 → z0 = true := by
    intro z0 h0
    unfold bget at h0
    split at h0
    · rw [List.getElem?_eq_some_iff] at h0
      obtain ⟨_, h0⟩ := h0; simpa using h0.symm
    · rw [List.getElem?_eq_some_iff] at h0
      obtain ⟨_, h0⟩ := h0; simpa using h0.symm
  -- from glob2 downwards
  have down : ∀ m2, q.glob2.selection = some m2 → ∀ z2, bget m2 i = some z2 →
      (z2 = true ↔ MaskSelects (q.s2.heap.selectors y.fluxSel) i ∧
        (∀ kv ∈ r.d.loc.auxq, (q.s2.heap.selectors kv.2.selection).kind.isUnity = false →
          MaskSelects (q.s2.heap.selectors kv.2.selection) i)) := by
    intro m2 hm2 z2 hz2
    obtain ⟨m1, z1, b1, b2, b3⟩ := Selector.add_selects q.g2 hm2 hz2
    obtain ⟨m0, z0, c1, c2, c3⟩ := Selector.add_selects q.g1 b1 b2
    have hz0 : z0 = true := by
      simp only [drawnUnity, Option.some.injEq] at c1
      rw [← c1] at c2; exact ones _ c2
    obtain ⟨ma, mb, m', k1, k2, k3, k4⟩ := Selector.add_ok q.g1
    rw [b1] at k4; cases k4
    obtain ⟨x, w, hx, hw, hxw⟩ := logicalAnd_get k3 b2
    obtain ⟨-, -, f1, -⟩ := applyAux_fold q.auxed
    obtain ⟨n0, y0, d1, d2, d3⟩ := f1 mb k2 i w hw
    have hy0 : y0 = true := by
      simp only [drawnUnity, Option.some.injEq] at d1
      rw [← d1] at d2; exact ones _ d2
    have hxt : x = true := by
      simp only [drawnUnity, Option.some.injEq] at k1
      rw [← k1] at hx; exact ones _ hx
    have hz1 : z1 = w := by rw [hxw, hxt, Bool.true_and]
    rw [b3, hz1, d3]
    constructor
    · rintro ⟨⟨-, h2⟩, h3⟩; exact ⟨h3, h2⟩
    · rintro ⟨h3, h2⟩; exact ⟨⟨hy0, h2⟩, h3⟩
  rcases applySpatial_ok q.spat with ⟨hn, hg, -⟩ | ⟨p, hp, hs, hsel, hadd⟩
  · rw [hg] at hgm
    rw [down _ hgm z hz]
    constructor
    · rintro ⟨h1, h2⟩; exact ⟨h1, fun p hp => (by rw [hn] at hp; cases hp), h2⟩
    · rintro ⟨h1, -, h2⟩; exact ⟨h1, h2⟩
  · obtain ⟨m2, z2, b1, b2, b3⟩ := Selector.add_selects hadd hgm hz
    rw [b3, down _ b1 z2 b2]
    constructor
    · rintro ⟨⟨h1, h2⟩, h3⟩
      exact ⟨h1, fun p' hp' => (by rw [hp] at hp'; cases hp'; exact h3), h2⟩
    · rintro ⟨h1, h3, h2⟩; exact ⟨⟨h1, h2⟩, h3 p hp⟩

/-! ### Lengths -/

theorem auxFold_prob {e : SurveyEnv F G} {n : Nat} {lums : List F} {v : Spatial F}
    (kvs : Dict Nat) (loc loc' : Loc F) (s s' : SurvSt F G)
    (hk : foldPy kvs loc (auxStep e n lums v) s = .ok loc' s') : loc'.prob = loc.prob := by
  refine foldPy_ok_induct (P := fun l _ => l.prob = loc.prob) rfl ?_ hk
  intro kv _ l1 s1 l2 s2 h1 h2
  obtain ⟨r⟩ := auxStep_ok h2
  rw [r.loc_eq]; exact h1

theorem AllRun.prob_length {e : SurveyEnv F G} {y : Synth F} {a : SurveyArgs F} {s : SurvSt F G}
    {d : Drawn F G} {s7 : SurvSt F G} (r : AllRun e y a s d s7) : d.prob.length = d.n := by
  obtain ⟨q⟩ := applySelections_ok r.selected
  have h1 := (applyAux_fold q.auxed).2.1
  simp only at h1
  rw [h1, auxFold_prob _ _ _ _ _ r.auxd]
  obtain ⟨p⟩ := drawPositions_ok r.placed
  have h0 : r.prob0.length = d.n := by
    rw [inPlace_length p.hprob, List.length_replicate]
  rcases drawLuminosities_ok r.lumd with ⟨_, _, ⟨q⟩⟩ | ⟨_, _, _, ⟨q⟩⟩
  · rw [q.loc_eq]; exact h0
  · rw [q.loc_eq]
    simp only
    rw [inPlace_length q.hprob]; exact h0

theorem SurveyRun.gm_length {e : SurveyEnv F G} {y : Synth F} {a : SurveyArgs F} {s : SurvSt F G}
    {P : Population F} {s' : SurvSt F G} (r : SurveyRun e y a s P s') :
    r.build.gm.length = r.d.n := by
  have h := (mkPopulation_ok r.build.built).lenProb r.d.prob rfl
  rw [r.all.prob_length] at h
  exact h.symm

theorem addAttrs_ok {m : List Bool} (st : Storage F) (hnd : (Dict.keys st).Nodup)
    (at0 : Dict (SimVar F)) (prot : List String) (at1 : Dict (SimVar F)) (prot1 : List String)
    (h : addAttrs m st at0 prot = .ok (at1, prot1)) :
    prot1 = prot ++ Dict.keys st ∧ (∀ k ∈ Dict.keys st, k ∉ readOnlyNames ∧ k ∉ prot) ∧
    (∀ k, Dict.get? at1 k = match Dict.get? st k with
      | none => Dict.get? at0 k
      | some c => some { obs := c.obsVals.getD [], latent := c.trueVals.getD [], selection := m }) ∧
    (∀ k c, Dict.get? st k = some c → ∃ o t, c.obsVals = some o ∧ c.trueVals = some t ∧
      o.length = m.length ∧ t.length = m.length) := by
  induction st generalizing at0 prot with
  | nil =>
    cases h
    exact ⟨by simp [Dict.keys], by simp [Dict.keys], fun k => by simp, fun k c hc => by simp at hc⟩
  | cons kv st ih =>
    obtain ⟨k, v⟩ := kv
    simp only [addAttrs, except_bind_ok_iff] at h
    obtain ⟨o, h1, t, h2, x, h3, at2, h4, h5⟩ := h
    simp only [Dict.keys, List.map_cons, List.nodup_cons] at hnd
    obtain ⟨hk, hnd⟩ := hnd
    obtain ⟨i1, i2, i3, i4⟩ := ih hnd _ _ h5
    have ho : v.obsVals = some o := by
      cases hv : v.obsVals with
      | none => rw [hv] at h1; cases h1
      | some o' => rw [hv] at h1; cases h1; rfl
    have ht : v.trueVals = some t := by
      cases hv : v.trueVals with
      | none => rw [hv] at h2; cases h2
      | some o' => rw [hv] at h2; cases h2; rfl
    obtain ⟨l1, l2, rfl⟩ := mkSimVar_ok h3
    unfold setAttr at h4
    split at h4
    · cases h4
    · split at h4
      · cases h4
      · rename_i n1 n2
        cases h4
        have hst : Dict.get? st k = none := by
          rw [Dict.get?_eq_none_iff]; exact hk
        refine ⟨?_, ?_, ?_, ?_⟩
        · rw [i1]; simp [Dict.keys]
        · intro k' hk'
          simp only [Dict.keys, List.map_cons, List.mem_cons] at hk'
          rcases hk' with rfl | hk'
          · exact ⟨n2, n1⟩
          · have := i2 k' hk'
            exact ⟨this.1, fun hp => this.2 (List.mem_append_left _ hp)⟩
        · intro k'
          rw [i3 k', Dict.get?_cons]
          by_cases hkk : k = k'
          · subst hkk
            rw [hst, if_pos rfl]
            simp [Dict.get?_set_self, ho, ht]
          · rw [if_neg hkk]
            rw [Dict.get?_set_ne _ _ hkk]
        · intro k' c hc
          rw [Dict.get?_cons] at hc
          split at hc
          · cases hc
            exact ⟨o, t, ho, ht, l1.symm, by rw [l2, ← l1]⟩
          · exact i4 k' c hc

end

end Popsynth
