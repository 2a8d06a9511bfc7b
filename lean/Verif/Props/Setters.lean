import Verif.Props.SurveyState
import Verif.Props.Synth

/-!
# C61: setting up a synth

Any sequence of setup calls leaves in each role the last thing accepted for it; `clean()`
without reset discards what was attached and touches nothing else.
-/

set_option autoImplicit false
set_option linter.unusedSectionVars false

namespace Popsynth
open Spec
variable {F G : Type}

/-! ### Sequences of setup calls -/

/-- The calls with which a user configures a synth, each with the sampler objects as they
are at that moment. -/
inductive SetupCall (F G : Type) where
  | quantity (h : Heap F G) (q : Quantity)
  | flux (arg : SelArg)
  | distance (arg : SelArg)
  | spatial (arg : SelArg)
  | space (name : String) (start stop : F) (log : Bool)

def SetupCall.run (grid : F → F → Bool → Nat → List F) : SetupCall F G → Py (Synth F) Unit
  | .quantity h q => addQuantity h q
  | .flux arg => setFluxSelection arg
  | .distance arg => setDistanceSelection arg
  | .spatial arg => addSpatialSelector arg
  | .space name start stop log => addModelSpace grid name start stop log

/-- A sequence of calls; exceptions are caught by the caller. -/
def setupAll (grid : F → F → Bool → Nat → List F) : List (SetupCall F G) → Synth F → Synth F
  | [], y => y
  | c :: l, y => setupAll grid l (endState (c.run grid y))

/-! ### Specification -/

/-- The selections accepted for a role, in order. -/
def Spec.fluxCalls (l : List (SetupCall F G)) : List Nat := l.filterMap fun c => match c with
  | .flux (.selection q) => some q
  | _ => none

def Spec.distanceCalls (l : List (SetupCall F G)) : List Nat := l.filterMap fun c => match c with
  | .distance (.selection q) => some q
  | _ => none

def Spec.spatialCalls (l : List (SetupCall F G)) : List Nat := l.filterMap fun c => match c with
  | .spatial (.selection q) => some q
  | _ => none

/-- The calls that attach samplers. -/
def Spec.quantityCalls (l : List (SetupCall F G)) : List (Heap F G × Quantity) :=
  l.filterMap fun c => match c with
    | .quantity h q => some (h, q)
    | _ => none

/-- The grids asked for under the name `name`. -/
def Spec.spaceCalls (name : String) (l : List (SetupCall F G)) : List (F × F × Bool) :=
  l.filterMap fun c => match c with
    | .space n a b log => if n = name then some (a, b, log) else none
    | _ => none

/-- The last element of a list, or a default. -/
def Spec.lastD {α : Type} (l : List α) (d : α) : α := (l.getLast?).getD d

theorem lastD_cons {α : Type} (a : α) (l : List α) (d : α) : lastD (a :: l) d = lastD l a := by
  unfold lastD
  cases l with
  | nil => rfl
  | cons b l => simp [List.getLast?_cons_cons, List.getLast?_cons]

/-! ### C61 -/

/-- **C61 (refusals).** Something that is not a selection is refused with `RuntimeError` in
every role and changes nothing. -/
theorem C61_refused (y : Synth F) :
    setFluxSelection .other y = .error .runtime y ∧
    setDistanceSelection .other y = .error .runtime y ∧
    addSpatialSelector .other y = .error .runtime y := ⟨rfl, rfl, rfl⟩

/-- The calls that attach samplers see only what attaches samplers. -/
theorem addQuantity_frame (h : Heap F G) (q : Quantity) (y : Synth F) :
    ∃ aux derived, endState (addQuantity h q y) = { y with aux, derived } := by
  by_cases hr : Refused h y q
  · exact ⟨y.aux, y.derived, by rw [(C29_step h q y).1 hr]; rfl⟩
  · have e := (C29_step h q y).2 hr
    rw [e]
    cases q with
    | derived i => exact ⟨y.aux, some i, rfl⟩
    | sampler i => exact ⟨y.aux ++ [((h.samplers i).name, i)], y.derived, rfl⟩
    | other => exact ⟨y.aux, y.derived, rfl⟩

theorem addQuantity_aux (h : Heap F G) (q : Quantity) (y z : Synth F) (ha : z.aux = y.aux)
    (hd : z.derived = y.derived) :
    (endState (addQuantity h q z)).aux = (endState (addQuantity h q y)).aux ∧
    (endState (addQuantity h q z)).derived = (endState (addQuantity h q y)).derived := by
  have hiff : Refused h z q ↔ Refused h y q := by
    cases q <;> simp [Refused, ha]
  by_cases hr : Refused h y q
  · rw [(C29_step h q y).1 hr, (C29_step h q z).1 (hiff.2 hr)]; exact ⟨ha, hd⟩
  · rw [(C29_step h q y).2 hr, (C29_step h q z).2 (fun k => hr (hiff.1 k))]
    cases q with
    | derived i => exact ⟨ha, rfl⟩
    | sampler i =>
      refine ⟨?_, hd⟩
      show z.aux ++ _ = y.aux ++ _
      rw [ha]
    | other => exact ⟨ha, hd⟩

theorem attachAll_aux (l : List (Heap F G × Quantity)) (y z : Synth F) (ha : z.aux = y.aux)
    (hd : z.derived = y.derived) :
    (attachAll l z).aux = (attachAll l y).aux ∧ (attachAll l z).derived = (attachAll l y).derived := by
  induction l generalizing y z with
  | nil => exact ⟨ha, hd⟩
  | cons c l ih =>
    obtain ⟨h, q⟩ := c
    obtain ⟨h1, h2⟩ := addQuantity_aux h q y z ha hd
    exact ih _ _ h1 h2

/-- **C61 (setup).** After any sequence of setup calls each role holds the last selection
accepted for it (or what it held before), the two flags tell whether one was set, each model
space is the grid last asked for under its name, the attached samplers are those of the
attaching calls alone, and nothing else of the synth has changed. -/
theorem C61_setup (grid : F → F → Bool → Nat → List F) (l : List (SetupCall F G)) (y : Synth F) :
    (setupAll grid l y).fluxSel = lastD (fluxCalls l) y.fluxSel ∧
    ((setupAll grid l y).fluxSelSet = true ↔ y.fluxSelSet = true ∨ fluxCalls l ≠ []) ∧
    (setupAll grid l y).distSel = lastD (distanceCalls l) y.distSel ∧
    ((setupAll grid l y).distSelSet = true ↔ y.distSelSet = true ∨ distanceCalls l ≠ []) ∧
    (setupAll grid l y).spatSel = lastD ((spatialCalls l).map some) y.spatSel ∧
    (∀ name, Dict.get? (setupAll grid l y).modelSpaces name =
      lastD ((spaceCalls name l).map fun c => some (grid c.1 c.2.1 c.2.2 y.nModel))
        (Dict.get? y.modelSpaces name)) ∧
    (setupAll grid l y).aux = (attachAll (quantityCalls l) y).aux ∧
    (setupAll grid l y).derived = (attachAll (quantityCalls l) y).derived ∧
    ((setupAll grid l y).name = y.name ∧ (setupAll grid l y).seed = y.seed ∧
      (setupAll grid l y).spatialName = y.spatialName ∧ (setupAll grid l y).lumName = y.lumName ∧
      (setupAll grid l y).nModel = y.nModel ∧ (setupAll grid l y).spatialForm = y.spatialForm ∧
      (setupAll grid l y).lumForm = y.lumForm) := by
  induction l generalizing y with
  | nil => simp [setupAll, fluxCalls, distanceCalls, spatialCalls, spaceCalls, quantityCalls, lastD,
      attachAll]
  | cons c l ih =>
    simp only [setupAll]
    obtain ⟨i1, i2, i3, i4, i5, i6, i7, i8, i9⟩ := ih (endState (c.run grid y))
    cases c with
    | quantity h q =>
      obtain ⟨aux, der, he⟩ := addQuantity_frame h q y
      simp only [SetupCall.run] at *
      have hq : quantityCalls (.quantity h q :: l) = (h, q) :: quantityCalls l := rfl
      rw [hq]
      simp only [attachAll]
      refine ⟨?_, ?_, ?_, ?_, ?_, ?_, i7, i8, ?_⟩
      · rw [i1, he]; rfl
      · rw [i2, he]; rfl
      · rw [i3, he]; rfl
      · rw [i4, he]; rfl
      · rw [i5, he]; rfl
      · intro n; rw [i6, he]; rfl
      · rw [he] at i9; rw [he]; exact i9
    | flux arg =>
      cases arg with
      | other => exact ⟨i1, i2, i3, i4, i5, i6, i7, i8, i9⟩
      | selection q =>
        have hf : fluxCalls (.flux (.selection q) :: l : List (SetupCall F G)) = q :: fluxCalls l := rfl
        refine ⟨?_, ?_, i3, i4, i5, i6, ?_, ?_, i9⟩
        · rw [hf, lastD_cons]; exact i1
        · rw [hf, i2]
          exact ⟨fun _ => .inr (by simp), fun _ => .inl rfl⟩
        · exact i7.trans (attachAll_aux (quantityCalls l) y
            (endState ((SetupCall.flux (.selection q) : SetupCall F G).run grid y)) rfl rfl).1
        · exact i8.trans (attachAll_aux (quantityCalls l) y
            (endState ((SetupCall.flux (.selection q) : SetupCall F G).run grid y)) rfl rfl).2
    | distance arg =>
      cases arg with
      | other => exact ⟨i1, i2, i3, i4, i5, i6, i7, i8, i9⟩
      | selection q =>
        have hf : distanceCalls (.distance (.selection q) :: l : List (SetupCall F G)) =
          q :: distanceCalls l := rfl
        refine ⟨i1, i2, ?_, ?_, i5, i6, ?_, ?_, i9⟩
        · rw [hf, lastD_cons]; exact i3
        · rw [hf, i4]
          exact ⟨fun _ => .inr (by simp), fun _ => .inl rfl⟩
        · exact i7.trans (attachAll_aux (quantityCalls l) y
            (endState ((SetupCall.distance (.selection q) : SetupCall F G).run grid y)) rfl rfl).1
        · exact i8.trans (attachAll_aux (quantityCalls l) y
            (endState ((SetupCall.distance (.selection q) : SetupCall F G).run grid y)) rfl rfl).2
    | spatial arg =>
      cases arg with
      | other => exact ⟨i1, i2, i3, i4, i5, i6, i7, i8, i9⟩
      | selection q =>
        have hf : spatialCalls (.spatial (.selection q) :: l : List (SetupCall F G)) =
          q :: spatialCalls l := rfl
        refine ⟨i1, i2, i3, i4, ?_, i6, ?_, ?_, i9⟩
        · rw [hf, List.map_cons, lastD_cons]; exact i5
        · exact i7.trans (attachAll_aux (quantityCalls l) y
            (endState ((SetupCall.spatial (.selection q) : SetupCall F G).run grid y)) rfl rfl).1
        · exact i8.trans (attachAll_aux (quantityCalls l) y
            (endState ((SetupCall.spatial (.selection q) : SetupCall F G).run grid y)) rfl rfl).2
    | space n a b log =>
      refine ⟨i1, i2, i3, i4, i5, ?_, ?_, ?_, i9⟩
      · intro name
        rw [i6]
        by_cases hn : n = name
        · subst hn
          have hf : spaceCalls n (.space n a b log :: l : List (SetupCall F G)) =
            (a, b, log) :: spaceCalls n l := by simp [spaceCalls]
          rw [hf, List.map_cons, lastD_cons]
          have : Dict.get? (endState ((SetupCall.space n a b log : SetupCall F G).run grid y)).modelSpaces n =
              some (grid a b log y.nModel) := Dict.get?_set_self _ _ _
          rw [this]; rfl
        · have hf : spaceCalls name (.space n a b log :: l : List (SetupCall F G)) =
            spaceCalls name l := by simp [spaceCalls, hn]
          rw [hf]
          have : Dict.get? (endState ((SetupCall.space n a b log : SetupCall F G).run grid y)).modelSpaces name =
              Dict.get? y.modelSpaces name := Dict.get?_set_ne _ _ hn
          rw [this]; rfl
      · exact i7.trans (attachAll_aux (quantityCalls l) y
            (endState ((SetupCall.space n a b log : SetupCall F G).run grid y)) rfl rfl).1
      · exact i8.trans (attachAll_aux (quantityCalls l) y
            (endState ((SetupCall.space n a b log : SetupCall F G).run grid y)) rfl rfl).2

/-- Three flux selections, one refused, and a grid asked for twice. -/
example : (fun y : Synth Nat => (y.fluxSel, y.fluxSelSet, y.distSel, y.distSelSet) = (21, true, 11, false) ∧
      y.spatSel = some 22 ∧ y.modelSpaces = [("z", [2, 3, 500])] ∧ y.aux = [("a", 0), ("e", 4)])
    (setupAll (G := Nat) (fun a b _ n => [a, b, n])
      [.flux (.selection 20), .space "z" 0 1 true, .flux .other,
        .quantity SurveyExample.heap (.sampler 4), .spatial (.selection 22), .flux (.selection 21),
        .space "z" 2 3 false, .distance .other] SurveyExample.synth) := by
  refine ⟨?_, ?_, ?_, ?_⟩ <;> decide +kernel

/-- **C61 (clean without reset).** `clean()` always returns; the synth is that of a newly
constructed one except that the model spaces stay, with two undrawn unity selections, and
every sampler and every other selector, the random state and what was drawn are untouched. -/
theorem C61_clean_keeps (frames : Nat) (y : Synth F) (q1 q2 : Nat) (h : Heap F G) (hq : q1 ≠ q2) :
    ∃ h', clean frames y false q1 q2 h =
        .ok { newSynth y q1 q2 with modelSpaces := y.modelSpaces } h' ∧
      h'.samplers = h.samplers ∧ h'.rng = h.rng ∧ h'.trace = h.trace ∧
      (∀ q, q ≠ q1 → q ≠ q2 → h'.selectors q = h.selectors q) ∧
      (∀ q, q = q1 ∨ q = q2 → (h'.selectors q).kind.isUnity = true ∧
        (h'.selectors q).isSampled = false ∧ (h'.selectors q).selection = none) := by
  refine ⟨_, rfl, rfl, rfl, rfl, ?_, ?_⟩
  · intro q h1 h2
    simp [Heap.modSelector, h1, h2]
  · rintro q (rfl | rfl)
    · simp [Heap.modSelector, hq, SelKind.isUnity]
    · simp [Heap.modSelector, SelKind.isUnity]

namespace SurveyExample

/-- After a survey: clean, attach the same sampler and draw again with the next seed;
the true values of `"d"` in the second population. -/
def cleanAgain (reset : Bool) : Option (List Nat) :=
  match clean 10 synth reset 30 31 final.heap with
  | .ok y' h => (okVal (drawSurvey env { y' with aux := synth.aux, seed := synth.seed + 1 } args
      { final with heap := h })).bind fun P => (Dict.get? P.attrs "d").map (·.latent)
  | .error _ _ => none

end SurveyExample

/-- **C61 (clean is not reset).** A sampler attached again after `clean()` without reset
keeps the values of the last survey, so the next survey returns them again although it has
another seed; with `clean(reset=True)` it is drawn anew. -/
theorem C61_clean_is_not_reset :
    ∃ P, drawSurvey SurveyExample.env SurveyExample.synth SurveyExample.args SurveyExample.st =
        .ok P SurveyExample.final ∧
      SurveyExample.cleanAgain false = (Dict.get? P.attrs "d").map (·.latent) ∧
      (SurveyExample.cleanAgain false).isSome = true ∧
      (SurveyExample.cleanAgain true).isSome = true ∧
      SurveyExample.cleanAgain true ≠ SurveyExample.cleanAgain false := by
  obtain ⟨P, hP⟩ := SurveyExample.survey_ok
  have h : (okVal (drawSurvey SurveyExample.env SurveyExample.synth SurveyExample.args
      SurveyExample.st)).bind (fun P => (Dict.get? P.attrs "d").map (·.latent)) =
      SurveyExample.cleanAgain false := by decide +kernel
  rw [(okVal_ok hP).1] at h
  exact ⟨P, hP, h.symm, by decide +kernel, by decide +kernel, by decide +kernel⟩

/-! ### Selections of samplers -/

/-- A sequence of `set_selection_probability` calls: sampler, selection. -/
def setSelections : List (Nat × Nat) → Heap F G → Heap F G
  | [], h => h
  | (i, q) :: l, h => setSelections l (endState (setSelectionProbability i q h))

/-- The selections given to sampler `i`, in order. -/
def Spec.selectionsOf (i : Nat) (l : List (Nat × Nat)) : List Nat :=
  (l.filter fun c => c.1 = i).map Prod.snd

/-- **C61 (selections of samplers).** After any sequence of `set_selection_probability` calls
each sampler has the last selection set on it, or the one it had; nothing else about any
sampler or selection has changed. -/
theorem C61_sampler_selection (l : List (Nat × Nat)) (h : Heap F G) :
    (∀ i, (setSelections l h).samplers i =
      { h.samplers i with selector := lastD (selectionsOf i l) (h.samplers i).selector }) ∧
    (setSelections l h).selectors = h.selectors ∧ (setSelections l h).rng = h.rng ∧
    (setSelections l h).trace = h.trace := by
  induction l generalizing h with
  | nil => exact ⟨fun i => rfl, rfl, rfl, rfl⟩
  | cons c l ih =>
    obtain ⟨i, q⟩ := c
    obtain ⟨h1, h2, h3, h4⟩ := ih (endState (setSelectionProbability i q h))
    refine ⟨fun j => ?_, h2, h3, h4⟩
    rw [setSelections, h1]
    simp only [setSelectionProbability, modify_apply, endState, modSampler_samplers]
    by_cases hj : j = i
    · subst hj
      rw [show selectionsOf j ((j, q) :: l) = q :: selectionsOf j l by simp [selectionsOf],
        lastD_cons]
      simp
    · have hj' : ¬ i = j := fun e => hj e.symm
      rw [show selectionsOf j ((i, q) :: l) = selectionsOf j l by simp [selectionsOf, hj']]
      simp [hj]

section
variable [LE F] [DecidableLE F] [OfNat F 0] [OfNat F 1]

/-- **C61 (the last selection of a sampler decides).** After any sequence of
`set_selection_probability` calls, a survey that returns selects only objects that the last
selection set on each reachable sampler selects. -/
theorem C61_sampler_survey (e : SurveyEnv F G) (y : Synth F) (a : SurveyArgs F)
    (s s' : SurvSt F G) (P : Population F) (l : List (Nat × Nat))
    (hk : drawSurvey e y a { s with heap := setSelections l s.heap } = .ok P s')
    (hw : WellFormed y.roots s.heap) (hd : DownClosed s.heap.children s.heap.sampled)
    (ho : OwnSelectors y (setSelections l s.heap)) (hf : Fresh y (setSelections l s.heap))
    (i j q : Nat) (hj : ReachFrom s.heap y.roots j) (hq : (selectionsOf j l).getLast? = some q)
    (hi : P.selection[i]? = some true) : MaskSelects (s'.heap.selectors q) i := by
  obtain ⟨c1, -, -, -⟩ := C61_sampler_selection l s.heap
  have hch : (setSelections l s.heap).children = s.heap.children := by
    funext j; simp only [Heap.children, c1]
  have hwf : WellFormed y.roots (setSelections l s.heap) := by
    obtain ⟨w1, w2, w3, w4⟩ := hw
    refine ⟨?_, ?_, ?_, ?_⟩
    · rw [hch]; exact w1
    · intro j; rw [c1]; exact w2 j
    · rw [hch]; intro i hi j hj; rw [c1]; exact w3 i hi j hj
    · rw [hch]; intro a ha b hb i j hi hj
      rw [c1, c1]; exact w4 a ha b hb i j hi hj
  have hds : DownClosed (setSelections l s.heap).children (setSelections l s.heap).sampled := by
    rw [hch, show (setSelections l s.heap).sampled = s.heap.sampled from
      funext fun j => by simp only [Heap.sampled, c1]]
    exact hd
  have hsel := ((C19_selected_iff e y a _ s' P hk hwf hds ho hf).1 i true hi).1 rfl
  have := hsel.2.2 j (by unfold ReachFrom; simp only [hch]; exact hj)
  simp only [c1, lastD, hq, Option.getD_some] at this
  exact this

end

/-- Two selections for sampler 1, one for sampler 2. -/
example : ((setSelections [(1, 20), (2, 21), (1, 22)] SurveyExample.heap).samplers 1).selector = 22 ∧
    ((setSelections [(1, 20), (2, 21), (1, 22)] SurveyExample.heap).samplers 2).selector = 21 ∧
    ((setSelections [(1, 20), (2, 21), (1, 22)] SurveyExample.heap).samplers 0).selector = 0 := by
  refine ⟨?_, ?_, ?_⟩ <;> rw [(C61_sampler_selection _ _).1] <;> rfl

end Popsynth
