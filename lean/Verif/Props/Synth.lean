import Verif.Props.SubPopulation

/-!
# C29 (attaching samplers) and C59 (populations and their synth)
-/

set_option autoImplicit false
set_option linter.unusedSectionVars false

namespace Popsynth

open Spec

variable {F G : Type}

/-! ### C29 -/

/-- What `add_observed_quantity` must refuse: a sampler that already is a secondary, a
sampler whose name is already attached, and anything that is no sampler. -/
def Spec.Refused (h : Heap F G) (y : Synth F) : Quantity → Prop
  | .derived _ => False
  | .sampler i => (h.samplers i).isSecondary = true ∨
      ∃ j, ((h.samplers i).name, j) ∈ y.aux
  | .other => True

theorem has_iff {α : Type} (d : Dict α) (k : String) : Dict.has d k = true ↔ ∃ v, (k, v) ∈ d := by
  unfold Dict.has
  rw [Dict.get?_isSome_iff, Dict.keys, List.mem_map]
  constructor
  · rintro ⟨⟨k', v⟩, hm, rfl⟩; exact ⟨v, hm⟩
  · rintro ⟨v, hm⟩; exact ⟨(k, v), hm, rfl⟩

/-- **C29**, one call: a refused object raises `RuntimeError` and changes nothing; every
other object is attached — samplers under their own name after the samplers attached
before, a derived luminosity sampler in place of the previous one — and nothing else
changes. -/
theorem C29_step (h : Heap F G) (q : Quantity) (y : Synth F) :
    (Refused h y q → addQuantity h q y = .error .runtime y) ∧
    (¬ Refused h y q → addQuantity h q y = .ok () (match q with
      | .derived i => { y with derived := some i }
      | .sampler i => { y with aux := y.aux ++ [((h.samplers i).name, i)] }
      | .other => y)) := by
  cases q with
  | derived i => exact ⟨fun h => h.elim, fun _ => rfl⟩
  | other => exact ⟨fun _ => rfl, fun h => (h trivial).elim⟩
  | sampler i =>
    by_cases h1 : (h.samplers i).isSecondary = true
    · exact ⟨fun _ => by simp [addQuantity, h1, bind_apply], fun hn => (hn (.inl h1)).elim⟩
    · by_cases h2 : Dict.has y.aux (h.samplers i).name = true
      · exact ⟨fun _ => by simp [addQuantity, h1, h2, bind_apply],
          fun hn => (hn (.inr ((has_iff _ _).1 h2))).elim⟩
      · refine ⟨fun hr => ?_, fun _ => ?_⟩
        · rcases hr with hr | hr
          · exact (h1 hr).elim
          · exact (h2 ((has_iff _ _).2 hr)).elim
        · have hk : (h.samplers i).name ∉ Dict.keys y.aux := fun hk =>
            h2 ((has_iff _ _).2 (by
              obtain ⟨⟨k, v⟩, hm, e⟩ := List.mem_map.1 hk
              cases e
              exact ⟨v, hm⟩))
          simp [addQuantity, h1, h2, bind_apply, Dict.set_append_of_not_mem _ _ _ hk]

/-- Any sequence of calls, each with the sampler objects as they are at that moment;
exceptions are caught by the caller. -/
def attachAll : List (Heap F G × Quantity) → Synth F → Synth F
  | [], y => y
  | (h, q) :: l, y => attachAll l (endState (addQuantity h q y))

/-- The last derived luminosity sampler handed over, if any. -/
def Spec.lastDerived : List (Heap F G × Quantity) → Option Nat → Option Nat
  | [], d => d
  | (_, .derived i) :: l, _ => lastDerived l (some i)
  | (_, .sampler _) :: l, d => lastDerived l d
  | (_, .other) :: l, d => lastDerived l d

/-- **C29**, every finite sequence of calls (samplers have fixed names `nm`; everything else
about them may change between the calls): attached names are pairwise distinct, every
sampler is keyed by its own name, samplers attached before stay (in front), every other
attached sampler was handed over while it was no secondary, the derived luminosity sampler
is the last one handed over, and nothing else of the synth changes. -/
theorem C29_sequence (nm : Nat → String) (calls : List (Heap F G × Quantity)) (y : Synth F)
    (hnm : ∀ c ∈ calls, ∀ i, (c.1.samplers i).name = nm i)
    (hd : (y.aux.map Prod.fst).Nodup) (hk : ∀ k i, (k, i) ∈ y.aux → k = nm i) :
    ((attachAll calls y).aux.map Prod.fst).Nodup ∧
    (∀ k i, (k, i) ∈ (attachAll calls y).aux → k = nm i) ∧
    y.aux <+: (attachAll calls y).aux ∧
    (∀ k i, (k, i) ∈ (attachAll calls y).aux → (k, i) ∈ y.aux ∨
      ∃ h, (h, Quantity.sampler i) ∈ calls ∧ (h.samplers i).isSecondary = false) ∧
    (attachAll calls y).derived = lastDerived calls y.derived ∧
    { attachAll calls y with aux := y.aux, derived := y.derived } = y := by
  induction calls generalizing y with
  | nil => exact ⟨hd, hk, List.prefix_rfl, fun k i hm => .inl hm, rfl, rfl⟩
  | cons c l ih =>
    obtain ⟨h, q⟩ := c
    have hl : ∀ c ∈ l, ∀ i, (c.1.samplers i).name = nm i := fun c hc => hnm c (by simp [hc])
    have lift : ∀ y' : Synth F, (∀ k i, (k, i) ∈ (attachAll l y').aux → (k, i) ∈ y'.aux ∨
        ∃ h, (h, Quantity.sampler i) ∈ l ∧ (h.samplers i).isSecondary = false) → y'.aux = y.aux →
        ∀ k i, (k, i) ∈ (attachAll l y').aux → (k, i) ∈ y.aux ∨
        ∃ h', (h', Quantity.sampler i) ∈ (h, q) :: l ∧ (h'.samplers i).isSecondary = false := by
      intro y' hy e k i hm
      rcases hy k i hm with hm | ⟨h', hm, hs⟩
      · exact .inl (e ▸ hm)
      · exact .inr ⟨h', by simp [hm], hs⟩
    by_cases hr : Refused h y q
    · have e : endState (addQuantity h q y) = y := by rw [(C29_step h q y).1 hr]; rfl
      obtain ⟨i1, i2, i3, i4, i5, i6⟩ := ih y hl hd hk
      simp only [attachAll, e]
      refine ⟨i1, i2, i3, lift y i4 rfl, ?_, i6⟩
      rw [i5]
      cases q with
      | derived i => exact hr.elim
      | sampler i => rfl
      | other => rfl
    · have e := (C29_step h q y).2 hr
      cases q with
      | other => exact (hr trivial).elim
      | derived i =>
        have e : endState (addQuantity h (.derived i) y) = { y with derived := some i } := by
          rw [e]; rfl
        obtain ⟨i1, i2, i3, i4, i5, i6⟩ := ih { y with derived := some i } hl hd hk
        simp only [attachAll, e]
        refine ⟨i1, i2, i3, lift _ i4 rfl, i5, ?_⟩
        have := congrArg (fun z : Synth F => { z with derived := y.derived }) i6
        exact this
      | sampler i =>
        have e : endState (addQuantity h (.sampler i) y)
            = { y with aux := y.aux ++ [((h.samplers i).name, i)] } := by
          rw [e]; rfl
        have hns : (h.samplers i).isSecondary = false := by
          cases hs : (h.samplers i).isSecondary with
          | false => rfl
          | true => exact (hr (.inl hs)).elim
        have hni : nm i ∉ y.aux.map Prod.fst := by
          intro hm
          obtain ⟨⟨k, j⟩, hm, e⟩ := List.mem_map.1 hm
          refine hr (.inr ⟨j, ?_⟩)
          rw [hnm (h, .sampler i) (by simp) i, ← e]
          exact hm
        have hname : (h.samplers i).name = nm i := hnm (h, .sampler i) (by simp) i
        obtain ⟨i1, i2, i3, i4, i5, i6⟩ := ih { y with aux := y.aux ++ [((h.samplers i).name, i)] } hl
          (by
            rw [List.map_append, List.nodup_append]
            refine ⟨hd, by simp, ?_⟩
            intro a ha b hb e
            simp only [List.map_cons, List.map_nil, List.mem_singleton] at hb
            rw [hname] at hb
            exact hni (hb ▸ e ▸ ha))
          (by
            intro k j hm
            simp only [List.mem_append, List.mem_singleton] at hm
            rcases hm with hm | hm
            · exact hk k j hm
            · cases hm; exact hname)
        simp only [attachAll, e]
        refine ⟨i1, i2, ?_, ?_, i5, ?_⟩
        · exact (List.prefix_append _ _).trans i3
        · intro k j hm
          rcases i4 k j hm with hm | ⟨h', hm, hs⟩
          · simp only [List.mem_append, List.mem_singleton] at hm
            rcases hm with hm | hm
            · exact .inl hm
            · cases hm
              exact .inr ⟨h, by simp, hns⟩
          · exact .inr ⟨h', by simp [hm], hs⟩
        · have := congrArg (fun z : Synth F => { z with aux := y.aux }) i6
          exact this

namespace SynthExample

/-- Samplers 0 and 2 are both called `a`, sampler 1 `b`. -/
def heap : Heap Nat Nat :=
  { samplers := fun i => { SurveyExample.heap.samplers 0 with
      name := if i = 1 then "b" else "a", isSecondary := false }
    selectors := SurveyExample.heap.selectors, rng := 0, trace := [] }

/-- Attaching `a`, another `a` (refused), `b`, a foreign object (refused), two derived
luminosity samplers. -/
example : let y := attachAll [(heap, .sampler 0), (heap, .sampler 2), (heap, .sampler 1),
      (heap, .other), (heap, .derived 4), (heap, .derived 5)] { SurveyExample.synth with aux := [] }
    (y.aux, y.derived) = ([("a", 0), ("b", 1)], some 5) := by decide +kernel

end SynthExample

variable [LE F] [DecidableLE F] [OfNat F 0] [OfNat F 1]

/-! ### C59 -/

/-- **C59 is violated** for every population drawn by a survey: its luminosity parameters
(when the synth has a luminosity distribution), spatial parameters, model spaces and graph
are whatever the synth has *now*, so that any later change of the synth changes them. -/
theorem C59_violated (e : SurveyEnv F G) (y : Synth F) (a : SurveyArgs F) (s s' : SurvSt F G)
    (P : Population F) (hk : drawSurvey e y a s = .ok P s') (now : Shared F) :
    P.spatialParamsNow now = some now.spatialParams ∧ P.spacesNow now = some now.modelSpaces ∧
    P.graphNow now = some now.graph ∧
    (∀ l, y.lumName = some l → P.lumParamsNow now = some now.lfParams) := by
  obtain ⟨r⟩ := drawSurvey_ok hk
  have pk := mkPopulation_ok r.build.built
  obtain ⟨r1, r2, r3, r4, r5, r6, r7, r8, r9, r10, r11, r12, r13, r14, _⟩ := pk.rest
  refine ⟨?_, ?_, ?_, ?_⟩
  · unfold Population.spatialParamsNow; rw [r11]; rfl
  · unfold Population.spacesNow; rw [r12]; rfl
  · unfold Population.graphNow; rw [r14]; rfl
  · intro l hl
    unfold Population.lumParamsNow; rw [r10]
    simp only [popArgs, hl]
    rfl

/-- **C59 is violated** by assigning a parameter: after a survey, any accepted assignment to
a luminosity parameter changes the luminosity parameters of the population returned
earlier. -/
theorem C59_violated_param (e : SurveyEnv F G) (y : Synth F) (a : SurveyArgs F) (s s' : SurvSt F G)
    (P : Population F) (hk : drawSurvey e y a s = .ok P s') (l : String) (hl : y.lumName = some l)
    (d : ParamDecl F) (n : String) (v : F) (o : Obj F)
    (hset : paramSet d true n (some v) s'.lum.params = .ok () o) :
    ∃ q, P.lumParamsNow (sharedOf y { s' with lum := { s'.lum with params := o } }) = some q ∧
      Dict.get? q n = some (some v) := by
  refine ⟨_, (C59_violated e y a s s' P hk _).2.2.2 l hl, ?_⟩
  simp only [paramSet, bind_ok_iff, modify_apply, liftE_ok_iff, EStateM.Result.ok.injEq,
    Bool.not_true, Bool.false_eq_true, if_false, pure_apply] at hset
  obtain ⟨_, s1, ⟨_, rfl⟩, _, s2, ⟨_, rfl⟩, _, s3, ⟨_, rfl⟩, _, s4, ⟨_, rfl⟩, _, rfl⟩ := hset
  simp only [sharedOf]
  exact Dict.get?_set_self _ _ _

/-- **C59 is violated** by assigning a parameter of the spatial distribution, in the same
way. -/
theorem C59_violated_spatial_param (e : SurveyEnv F G) (y : Synth F) (a : SurveyArgs F)
    (s s' : SurvSt F G) (P : Population F) (hk : drawSurvey e y a s = .ok P s')
    (d : ParamDecl F) (n : String) (v : F) (o : Obj F)
    (hset : paramSet d true n (some v) s'.sp.params = .ok () o) :
    ∃ q, P.spatialParamsNow (sharedOf y { s' with sp := { s'.sp with params := o } }) = some q ∧
      Dict.get? q n = some (some v) := by
  refine ⟨_, (C59_violated e y a s s' P hk _).1, ?_⟩
  simp only [paramSet, bind_ok_iff, modify_apply, liftE_ok_iff, EStateM.Result.ok.injEq,
    Bool.not_true, Bool.false_eq_true, if_false, pure_apply] at hset
  obtain ⟨_, s1, ⟨_, rfl⟩, _, s2, ⟨_, rfl⟩, _, s3, ⟨_, rfl⟩, _, s4, ⟨_, rfl⟩, _, rfl⟩ := hset
  simp only [sharedOf]
  exact Dict.get?_set_self _ _ _

/-- **C60 (parameters).** Right after a survey the spatial parameters of the population are
those of the spatial distribution, the luminosity parameters those of the luminosity
distribution, and its graph and model spaces those of the synth. -/
theorem C60_parameters (e : SurveyEnv F G) (y : Synth F) (a : SurveyArgs F)
    (s s' : SurvSt F G) (P : Population F) (hk : drawSurvey e y a s = .ok P s') :
    P.spatialParamsNow (sharedOf y s') = some s'.sp.params.storage ∧
    (∀ l, y.lumName = some l → P.lumParamsNow (sharedOf y s') = some s'.lum.params.storage) ∧
    P.graphNow (sharedOf y s') = some s'.graph ∧
    P.spacesNow (sharedOf y s') = some y.modelSpaces := by
  obtain ⟨h1, h2, h3, h4⟩ := C59_violated e y a s s' P hk (sharedOf y s')
  exact ⟨h1, h4, h3, h2⟩

/-- **C59 is violated** by `add_model_space`: a model space added after a survey is a model
space of the population returned earlier. -/
theorem C59_violated_space (e : SurveyEnv F G) (y y' : Synth F) (a : SurveyArgs F)
    (s s' : SurvSt F G) (P : Population F) (hk : drawSurvey e y a s = .ok P s')
    (grid : F → F → Bool → Nat → List F) (name : String) (start stop : F) (log : Bool)
    (hadd : addModelSpace grid name start stop log y = .ok () y') :
    ∃ q, P.spacesNow (sharedOf y' s') = some q ∧
      Dict.get? q name = some (grid start stop log y.nModel) := by
  refine ⟨_, (C59_violated e y a s s' P hk _).2.1, ?_⟩
  unfold addModelSpace at hadd
  rw [modify_apply] at hadd
  cases hadd
  exact Dict.get?_set_self _ _ _

/-- **C59** (partial): the Stan data and the sub-populations depend on the synth only
through its model spaces; as long as those are the same, later changes of the synth do not
matter.  (Arrays, counts, truth and settings are stored in the population itself and do not
refer to the synth at all.)  *Missing*: parameters, model spaces and the graph, for which it
is false (`C59_violated`). -/
theorem C59_exports_partial [DecidableEq F] (log10 : F → F) (ofNat : Nat → F) (P : Population F)
    (now now' : Shared F) (observed : Bool) (h : now.modelSpaces = now'.modelSpaces) :
    toStan log10 now P = toStan log10 now' P ∧
      toSub ofNat now P observed = toSub ofNat now' P observed := by
  unfold toStan toSub Population.spacesNow
  rw [h]
  exact ⟨rfl, rfl⟩

namespace SynthExample

open SurveyExample in
/-- In the example survey, setting a luminosity parameter afterwards changes the
population. -/
example : ∃ P s', drawSurvey env synth args st = .ok P s' ∧
    ∃ q, P.lumParamsNow (sharedOf synth { s' with lum := { s'.lum with
      params := endState (paramSet {} true "L" (some 9) s'.lum.params) } }) = some q ∧
      Dict.get? q "L" = some (some 9) := by
  obtain ⟨P, hP⟩ := survey_ok
  generalize final = s' at hP
  have hset : ∀ o : Obj Nat, paramSet {} true "L" (some 9) o
      = .ok () (endState (paramSet {} true "L" (some 9) o)) := fun _ => rfl
  exact ⟨P, s', hP, C59_violated_param env synth args st s' P hP "lum" rfl {} "L" 9 _ (hset _)⟩

end SynthExample

end Popsynth
