import Verif.Lemmas.Leftovers

/-!
# Surveys drawn again after a reset (C21)

`PopulationSynth.draw_survey`, popsynth/population_synth.py:938-1405;
`DerivedLumAuxSampler`/`AuxiliarySampler.reset`, popsynth/auxiliary_sampler.py:417-438;
`SelectionProbability.reset`, popsynth/selection_probability/selection_probability.py:110-119.
-/

set_option autoImplicit false
set_option linter.unusedSectionVars false

namespace Popsynth
open Spec
variable {F G : Type} [LE F] [DecidableLE F] [OfNat F 0] [OfNat F 1]

/-- Nothing has been drawn: no sampler holds values, no selector is marked. -/
structure Spec.Untouched (h : Heap F G) : Prop where
  samplers : ∀ j, (h.samplers j).isSampled = false ∧ (h.samplers j).trueVals = none ∧
    (h.samplers j).obsVals = none
  selectors : ∀ q, (h.selectors q).isSampled = false

/-- No selector of the survey is a `DummySelection`, which draws nothing. -/
structure Spec.NoDummies (y : Synth F) (h : Heap F G) : Prop where
  samplers : ∀ j, ReachFrom h y.roots j → (h.selectors (h.samplers j).selector).kind.isDummy = false
  flux : (h.selectors y.fluxSel).kind.isDummy = false
  dist : (h.selectors y.distSel).kind.isDummy = false
  spat : ∀ q, y.spatSel = some q → (h.selectors q).kind.isDummy = false

/-- All parameters of the survey are the same. -/
structure Spec.SameParams (s s' : SurvSt F G) : Prop where
  samplers : ∀ j, (s'.heap.samplers j).params = (s.heap.samplers j).params
  selectors : ∀ q, (s'.heap.selectors q).params = (s.heap.selectors q).params
  sp : s'.sp.params = s.sp.params
  lum : s'.lum.params = s.lum.params

/-- **C21 (partial, leftovers).** Two states that differ only in values left over from earlier
surveys, where the survey's samplers and selectors cannot see them, give the same population or
the same exception.  *Missing*: leftovers that the survey can see (`C21_violated_leftover`) and
numba's random state (`C21_violated_numba`). -/
theorem C21_leftovers_partial {y : Synth F} (e : SurveyEnv F G) (he : EnvForgets e y) (a : SurveyArgs F)
    {s s' : SurvSt F G} (hc : SameSetup s s') (ha : Alike y s.heap s'.heap) (hr : Rooted y s.heap)
    (hd : DownClosed s.heap.children s.heap.sampled)
    (hseed : e.seed y.seed s'.heap.rng = e.seed y.seed s.heap.rng) :
    outcome (drawSurvey e y a s') = outcome (drawSurvey e y a s) :=
  (drawSurvey_pair e he a hc ha hr hd hseed).outcome_eq.symm

/-- What remains of a survey after a reset. -/
theorem reset_alike {e : SurveyEnv F G} {y : Synth F} {a : SurveyArgs F} {s s1 : SurvSt F G}
    {P : Population F} {h2 : Heap F G} {frames : Nat} (h1 : drawSurvey e y a s = .ok P s1)
    (hk : resetAll frames y s1.heap = .ok () h2) (hw : WellFormed y.roots s.heap) (hf : Untouched s.heap)
    (hr : Rooted y s.heap) (ho : OwnSelectors y s.heap)
    (hn : NoDummies y s.heap) (hl : LumAttachedOnly y s.heap)
    (hp : SameParams s s1) :
    SameSetup s { s1 with heap := h2 } ∧ Alike y s.heap h2 := by
  obtain ⟨r⟩ := drawSurvey_ok h1
  have hd : DownClosed s.heap.children s.heap.sampled := fun j hj => by
    rw [show s.heap.sampled j = false from (hf.samplers j).1] at hj; cases hj
  obtain ⟨T, ef⟩ := surveyEff r hw hd
  have df := r.all.dframe hr hl
  have es : s1.heap.samplers = r.all.s6.heap.samplers := r.samplers.1
  obtain ⟨c1, c2, c3, c4⟩ := resetAll_ok hk
  have ech : s1.heap.children = s.heap.children := by
    rw [← df.children]; funext j; simp [Heap.children, es]
  have ereach : ∀ j, ReachFrom s1.heap y.roots j ↔ ReachFrom s.heap y.roots j := by
    intro j; simp only [ReachFrom, ech]
  -- samplers
  have sid : ∀ j, (h2.samplers j).ident = (s.heap.samplers j).ident := by
    intro j
    rw [← df.ident j, ← es]
    rcases c2 j with k | k <;> rw [k] <;> rfl
  have slum : ∀ j, (h2.samplers j).luminosity = (r.all.s6.heap.samplers j).luminosity := by
    intro j
    rw [← es]
    rcases c2 j with k | k <;> rw [k]
  have sfresh : ∀ j, (h2.samplers j).isSampled = false ∧ (h2.samplers j).trueVals = none ∧
      (h2.samplers j).obsVals = none := by
    intro j
    rcases c2 j with k | k
    · by_cases hj : ReachFrom s.heap y.roots j
      · have q1 := c1 j ((ereach j).2 hj)
        have q2 := ef.allSampled j hj
        simp only [Heap.sampled] at q1 q2
        rw [k, es, q2] at q1; cases q1
      · have hnt : j ∉ T.map Prod.fst := fun hm => hj (((ef.drawn j).1 hm).1)
        have q := ef.eff.keep j hnt
        have m := ef.eff.marks j
        rw [k, es, q.1, q.2.1]
        refine ⟨?_, (hf.samplers j).2⟩
        cases hb : (r.all.s6.heap.samplers j).isSampled with
        | false => rfl
        | true =>
          rcases m.1 hb with m | m
          · rw [(hf.samplers j).1] at m; cases m
          · exact (hnt m).elim
    · rw [k]; exact ⟨rfl, rfl, rfl⟩
  have sparam : ∀ j, (h2.samplers j).params = (s.heap.samplers j).params := by
    intro j
    rw [← hp.samplers j]
    rcases c2 j with k | k <;> rw [k]
  -- selectors
  have rd : ∀ c : Selector F G, c.reset.data = c.data ∧ c.reset.kind = c.kind ∧ c.reset.cls = c.cls ∧
      c.reset.name = c.name ∧ c.reset.params = c.params ∧ (c.isSampled = false → c.reset.isSampled = false) := by
    intro c; unfold Selector.reset; split <;> simp
  have qdata : ∀ q, (h2.selectors q).data = (s1.heap.selectors q).data ∧
      (h2.selectors q).kind = (s1.heap.selectors q).kind ∧ (h2.selectors q).cls = (s1.heap.selectors q).cls ∧
      (h2.selectors q).name = (s1.heap.selectors q).name ∧
      (h2.selectors q).params = (s1.heap.selectors q).params ∧
      ((s1.heap.selectors q).isSampled = false → (h2.selectors q).isSampled = false) := by
    intro q
    rcases c3 q with k | k <;> rw [k]
    · exact ⟨rfl, rfl, rfl, rfl, rfl, id⟩
    · exact rd _
  have qflag : ∀ q, (h2.selectors q).isSampled = false := by
    intro q
    by_cases hq : q = y.fluxSel ∨ q = y.distSel ∨ some q = y.spatSel
    · exact resetAll_selectors hk q hq
    · simp only [not_or] at hq
      refine (qdata q).2.2.2.2.2 ?_
      rw [(r.selData q).2.2.2.2.2.2 hq.1 hq.2.1 hq.2.2]
      have := ef.eff.selStat q
      simp only [Selector.flags, Prod.mk.injEq] at this
      rw [this.2.2.2.1]; exact hf.selectors q
  have qsame : ∀ q, SelectorUpToLeft (s.heap.selectors q) (h2.selectors q) := by
    intro q
    obtain ⟨p1, p2, p3, p4, p5, -⟩ := qdata q
    obtain ⟨u1, -, -, u4, u5, u6, -⟩ := r.selData q
    have f := ef.eff.selStat q
    simp only [Selector.flags, Prod.mk.injEq] at f
    obtain ⟨f1, f2, f3, f4, f5, f6, f7, f8⟩ := f
    rw [sameSelector_iff]
    refine ⟨by rw [p2, u4, f1], by rw [p3, u5, f2], by rw [p4, u6, f3], by rw [p5, hp.selectors],
      by rw [qflag, hf.selectors], by rw [p1, u1]; exact f5, by rw [p1, u1]; exact f6, by rw [p1, u1]; exact f7,
      by rw [p1, u1]; exact f8⟩
  -- selectors not used by samplers
  have qkeep : ∀ q, (∀ j, ReachFrom s.heap y.roots j → (s.heap.samplers j).selector ≠ q) →
      r.all.s6.heap.selectors q = s.heap.selectors q := by
    intro q hq
    refine ef.eff.selKeep q fun x hx => ?_
    exact hq x.1 ((ef.drawn x.1).1 (List.mem_map_of_mem hx)).1
  have qeq : ∀ q, (h2.selectors q).data.distance = (r.all.s6.heap.selectors q).data.distance ∧
      (h2.selectors q).data.luminosity = (r.all.s6.heap.selectors q).data.luminosity ∧
      (h2.selectors q).data.obsValue = (r.all.s6.heap.selectors q).data.obsValue ∧
      (q ≠ y.fluxSel → (h2.selectors q).data.flux = (r.all.s6.heap.selectors q).data.flux) ∧
      (some q ≠ y.spatSel → (h2.selectors q).data.spatial = (r.all.s6.heap.selectors q).data.spatial) := by
    intro q
    obtain ⟨u1, u2, u3, -⟩ := r.selData q
    rw [(qdata q).1]
    exact ⟨by rw [u1], by rw [u1], by rw [u1], u2, u3⟩
  have mready : ∀ q, (s.heap.selectors q).kind.isDummy = false → MaskReady s.heap h2 q := by
    rintro q hq (k | k)
    · rw [hq] at k; cases k
    · rw [hf.selectors] at k; cases k
  refine ⟨⟨⟨fun j => ?_, qsame⟩, hp.sp.symm, hp.lum.symm⟩, ⟨fun j hj => ⟨fun _ => ?_, fun _ hng => ?_, fun hs => ?_⟩,
    fun d hdd => ?_, ?_⟩⟩
  · have k := sid j
    have f := sfresh j
    have f0 := hf.samplers j
    have p := sparam j
    rw [sameSampler_iff]
    simp only [Sampler.ident, Sampler.static, Sampler.mk.injEq] at k
    simp only [f, f0, p, k, and_self]
  · obtain ⟨k1, k2, k3, k4, k5⟩ := qeq (s.heap.samplers j).selector
    refine ⟨?_, ?_, fun hu => ?_, fun hq => ?_⟩
    · simp only [Eqat]; rw [k4 (ho.flux j hj), df.flux]
    · simp only [Eqat]; rw [k5 (ho.spat j hj), df.spat]
    · simp only [Eqat]; rw [k1, df.dist]
      intro i hi hs
      rw [ho.inj i j hi hj hs]; exact hu
    · rw [hn.samplers j hj] at hq; cases hq
  · refine ⟨?_, fun hn0 => ?_⟩
    · simp only [Eqat]; rw [slum, df.lum j hng]
    · simp only [Eqat]; rw [(qeq _).2.1, df.slum]
      intro i hi hs
      rw [ho.inj i j hi hj hs]; exact ⟨hng, hn0⟩
  · rw [show s.heap.sampled j = false from (hf.samplers j).1] at hs; cases hs
  · simp only [Eqat]; rw [slum, df.lum]
    exact fun hg => hg.1 hdd
  · refine ⟨?_, ?_, fun q hq => ?_⟩
    · obtain ⟨k1, k2, k3, k4, k5⟩ := qeq y.fluxSel
      rw [qkeep _ ho.flux] at k1 k2 k3 k5
      exact ⟨k1.symm, k2.symm, k3.symm, (k5 ho.fluxSpat).symm, mready _ hn.flux⟩
    · obtain ⟨k1, k2, k3, k4, k5⟩ := qeq y.distSel
      rw [qkeep _ ho.dist] at k1 k2 k3 k4 k5
      exact ⟨⟨k1.symm, k2.symm, k3.symm, (k4 (Ne.symm ho.fluxDist)).symm, (k5 ho.distSpat).symm⟩, mready _ hn.dist⟩
    · have n3 : ∀ j, ReachFrom s.heap y.roots j → (s.heap.samplers j).selector ≠ q := by
        intro j hj hs
        exact ho.spat j hj (by rw [hs, hq])
      obtain ⟨k1, k2, k3, k4, k5⟩ := qeq q
      rw [qkeep _ n3] at k1 k2 k3 k4
      refine ⟨k1.symm, k2.symm, k3.symm, (k4 ?_).symm, mready _ (hn.spat q hq)⟩
      rintro rfl; exact ho.fluxSpat hq.symm

/-- **C21 (partial, redraw).** A survey drawn from fresh samplers and selectors, reset and
drawn again returns the same population, whatever else consumed random numbers in between
(`g`).  *Missing*: this needs seeding to determine the random state, selectors that are not
shared, secondaries using luminosities to belong to attached samplers only
(`C21_violated_leftover`), and parameters that the survey does not set. -/
theorem C21_redraw_partial {y : Synth F} (e : SurveyEnv F G) (he : EnvForgets e y) (a : SurveyArgs F)
    {s s1 : SurvSt F G} {P : Population F} {h2 : Heap F G} {frames : Nat} (g : G)
    (h1 : drawSurvey e y a s = .ok P s1) (hk : resetAll frames y s1.heap = .ok () h2)
    (hw : WellFormed y.roots s.heap) (hf : Untouched s.heap) (hr : Rooted y s.heap) (ho : OwnSelectors y s.heap)
    (hn : NoDummies y s.heap)
    (hl : LumAttachedOnly y s.heap) (hp : SameParams s s1)
    (hseed : e.seed y.seed g = e.seed y.seed s.heap.rng) :
    ∃ s2, drawSurvey e y a { s1 with heap := { h2 with rng := g } } = .ok P s2 := by
  obtain ⟨q1, q2⟩ := reset_alike h1 hk hw hf hr ho hn hl hp
  have hd : DownClosed s.heap.children s.heap.sampled := fun j hj => by
    rw [show s.heap.sampled j = false from (hf.samplers j).1] at hj; cases hj
  have k := C21_leftovers_partial (s := s) (s' := { s1 with heap := { h2 with rng := g } }) e he a
    ⟨⟨q1.heap.samplers, q1.heap.selectors⟩, q1.sp, q1.lum⟩
    ⟨fun j hj => ⟨(q2.samplers j hj).rest, (q2.samplers j hj).lum, (q2.samplers j hj).done⟩, q2.derived,
      ⟨q2.selectors.flux, q2.selectors.dist, q2.selectors.spat⟩⟩ hr hd hseed
  rw [h1] at k
  cases h : drawSurvey e y a { s1 with heap := { h2 with rng := g } } with
  | ok P' s2 => rw [h] at k; cases k; exact ⟨s2, rfl⟩
  | error err s2 => rw [h] at k; cases k

/-! ### Code that ignores leftovers -/

/-- Parameters and random state agree, and distances and probabilities where `b`, `c`. -/
def SpEq (b c : Bool) (t t' : SpSt F G) : Prop :=
  t.sp.params = t'.sp.params ∧ t.rng = t'.rng ∧ (b = true → t.sp.distances = t'.sp.distances) ∧
    (c = true → t.sp.probability = t'.sp.probability)

theorem onParams_spEq {α : Type} (m : Py (Obj F) α) {b c : Bool} {t t' : SpSt F G} (h : SpEq b c t t') :
    TwoRuns (fun _ u u' => SpEq b c u u') (onParams m t) (onParams m t') := by
  unfold onParams
  rw [h.1]
  cases m t'.sp.params with
  | ok a o => exact ⟨rfl, rfl, h.2⟩
  | error e o => exact rfl

theorem drawUniform_pair (env : DistEnv F G) (hi : F) {b c : Bool} {t t' : SpSt F G} (h : SpEq b c t t') :
    TwoRuns (fun _ u u' => SpEq b c u u') (drawUniform env hi t) (drawUniform env hi t') := by
  unfold drawUniform
  rw [h.2.1]
  rcases env.uniform hi t'.rng with ⟨v | v, g⟩
  · exact rfl
  · exact ⟨rfl, h.1, rfl, h.2.2⟩

theorem rejectOne_pair (env : DistEnv F G) (ymax : F) (xmax : Py (Obj F) F) (f : F → Py (Obj F) F) (k : Nat)
    {b c : Bool} {t t' : SpSt F G} (h : SpEq b c t t') :
    TwoRuns (fun _ u u' => SpEq b c u u') (rejectOne env ymax xmax f k t) (rejectOne env ymax xmax f k t') := by
  induction k generalizing t t' with
  | zero => exact rfl
  | succ k ih =>
    unfold rejectOne
    refine (drawUniform_pair env ymax h).bind fun y t t' h => ?_
    refine (onParams_spEq xmax h).bind fun hi t t' h => ?_
    refine (drawUniform_pair env hi h).bind fun r t t' h => ?_
    refine (onParams_spEq (f r) h).bind fun d t t' h => ?_
    split
    · exact TwoRuns.pure' h
    · exact ih h

theorem rejectMany_pair (env : DistEnv F G) (ymax : F) (xmax : Py (Obj F) F) (f : F → Py (Obj F) F) (n : Nat)
    {b c : Bool} {t t' : SpSt F G} (h : SpEq b c t t') :
    TwoRuns (fun _ u u' => SpEq b c u u') (rejectMany env ymax xmax f n t) (rejectMany env ymax xmax f n t') := by
  induction n generalizing t t' with
  | zero => exact TwoRuns.pure' h
  | succ k ih =>
    unfold rejectMany
    refine (rejectOne_pair env ymax xmax f env.budget h).bind fun r t t' h => ?_
    refine (ih h).bind fun rs t t' h => ?_
    exact TwoRuns.pure' h

theorem uniformMany_pair (env : DistEnv F G) (hi : F) (n : Nat) {b c : Bool} {t t' : SpSt F G}
    (h : SpEq b c t t') :
    TwoRuns (fun _ u u' => SpEq b c u u') (uniformMany env hi n t) (uniformMany env hi n t') := by
  induction n generalizing t t' with
  | zero => exact TwoRuns.pure' h
  | succ k ih =>
    unfold uniformMany
    refine (drawUniform_pair env hi h).bind fun r t t' h => ?_
    refine (ih h).bind fun rs t t' h => ?_
    exact TwoRuns.pure' h

/-- **C21 (partial, spatial).** `draw_distance` and `draw_sky_positions` of
`SpatialDistribution` (distribution.py:293-385) do not use positions left over from earlier
draws, whatever the density.  *Missing*: subclasses that override them. -/
theorem C21_spatial_forgets_partial (env : DistEnv F G) (code : DensityCode F) (showProgress : Bool)
    (tr : List F → List F → Except Err (List F)) (galB : List F → List F → List F) :
    SpatialForgets (SpatialCode.base env code showProgress tr galB) := by
  constructor
  · intro n nz t t' h1 h2
    show TwoRuns _ (drawDistance env code showProgress n nz t) (drawDistance env code showProgress n nz t')
    unfold drawDistance
    have h : SpEq false false t t' := ⟨h1, h2, by simp, by simp⟩
    refine (onParams_spEq _ h).bind ?_
    rintro ⟨i, old⟩ t t' h
    refine (onParams_spEq _ h).bind fun rm t t' h => ?_
    refine (onParams_spEq _ h).bind fun ys t t' h => ?_
    refine TwoRuns.bind (Q := fun _ u u' => SpEq false false u u') ?_ fun rs t t' h => ?_
    · unfold drawRadii
      split
      · exact rejectMany_pair _ _ _ _ _ h
      · exact (onParams_spEq _ h).bind fun rm t t' h => rejectMany_pair _ _ _ _ _ h
    refine TwoRuns.bind (Q := fun _ u u' => SpEq true false u u')
      (TwoRuns.modify' ⟨h.1, h.2.1, fun _ => rfl, by simp⟩) fun _ t t' h => ?_
    refine (onParams_spEq _ h).bind fun old t t' h => ?_
    refine (onParams_spEq _ h).bind fun p t t' h => ?_
    refine TwoRuns.bind (Q := fun _ u u' => SpEq true true u u')
      (TwoRuns.modify' ⟨h.1, h.2.1, h.2.2.1, fun _ => rfl⟩) fun _ t t' h => ?_
    exact (onParams_spEq _ h).imp fun _ u u' k => ⟨k.1, k.2.1, k.2.2.1 rfl, k.2.2.2 rfl⟩
  · intro n t t' h1 h2 h3 h4
    show TwoRuns _ (drawSky env n t) (drawSky env n t')
    unfold drawSky
    have h : SpEq true true t t' := ⟨h1, h2, fun _ => h3, fun _ => h4⟩
    refine (uniformMany_pair _ _ _ h).bind fun us t t' h => ?_
    refine (uniformMany_pair _ _ _ h).bind fun us t t' h => ?_
    refine TwoRuns.modify' ?_
    obtain ⟨⟨_, _, _, _, _⟩, _⟩ := t
    obtain ⟨⟨_, _, _, _, _⟩, _⟩ := t'
    obtain ⟨k1, k2, k3, k4⟩ := h
    replace k3 := k3 rfl
    replace k4 := k4 rfl
    simp only at k1 k2 k3 k4
    subst k1; subst k2; subst k3; subst k4
    rfl

/-! ### Violation and examples -/

namespace SurveyExample

/-- Sampler 5 (`"x"`) is a secondary of the derived luminosity sampler 4 and of the attached
sampler 0; its true values say whether it was given luminosities. -/
def leftoverEnv : SurveyEnv Nat Nat :=
  { env with world := { SamplerExample.w with code := fun i =>
      { trueSampler := fun v n g =>
          { trueVals := some (List.replicate n (if i = 5 then (v.luminosity.getD []).length else 2)),
            obsVals := v.obsVals, params := v.params, rng := g + 1 }
        obsSampler := SamplerExample.code.obsSampler
        luminosity := fun v => match v.trueVals with
          | some l => .ok l
          | none => .error .type } } }

def leftoverHeap : Heap Nat Nat :=
  { samplers := fun j => match j with
      | 0 => { name := "a", obsName := "a_obs", secondaries := [("x", 5)], hasSecondary := true, selector := 0 }
      | 4 => { name := "e", obsName := "e_obs", secondaries := [("x", 5)], hasSecondary := true, selector := 4 }
      | 5 => { name := "x", obsName := "x_obs", isSecondary := true, usesLuminosity := true, selector := 5,
               isObserved := false }
      | j => { name := "z", obsName := "z_obs", selector := j }
    selectors := fun _ => { kind := .unity }
    rng := 7 }

def leftoverSt : SurvSt Nat Nat := { heap := leftoverHeap, sp := {}, lum := {}, graph := {} }

def leftoverSynth : Synth Nat := { synth with derived := some 4 }

/-- State after the first survey. -/
def leftoverOnce : SurvSt Nat Nat := endState (drawSurvey leftoverEnv leftoverSynth args leftoverSt)

/-- Samplers and selectors after the reset. -/
def leftoverReset : Heap Nat Nat := endState (resetAll 10 leftoverSynth leftoverOnce.heap)

/-- **C21 (violated).** Survey, reset, survey again with the same seed: `reset` clears the
values of the samplers but not the luminosities given to them, and sampler `"x"`, drawn first
for the derived luminosity sampler, sees those of the first survey. -/
theorem C21_violated_leftover : ∃ P1 P2 s1 s2 h,
    drawSurvey leftoverEnv leftoverSynth args leftoverSt = .ok P1 s1 ∧
    resetAll 10 leftoverSynth s1.heap = .ok () h ∧
    drawSurvey leftoverEnv leftoverSynth args { s1 with heap := h } = .ok P2 s2 ∧
    (Dict.get? P1.attrs "x").map (·.latent) = some [0, 0, 0] ∧
    (Dict.get? P2.attrs "x").map (·.latent) = some [3, 3, 3] := by
  obtain ⟨P1, h1⟩ : ∃ P, drawSurvey leftoverEnv leftoverSynth args leftoverSt = .ok P leftoverOnce :=
    exists_ok_of_isOk (by decide +kernel)
  have hk : resetAll 10 leftoverSynth leftoverOnce.heap = .ok () leftoverReset := ok_of_isOk (by decide +kernel)
  obtain ⟨P2, h2⟩ : ∃ P, drawSurvey leftoverEnv leftoverSynth args { leftoverOnce with heap := leftoverReset } =
      .ok P (endState (drawSurvey leftoverEnv leftoverSynth args { leftoverOnce with heap := leftoverReset })) :=
    exists_ok_of_isOk (by decide +kernel)
  refine ⟨P1, P2, _, _, _, h1, hk, h2, ?_, ?_⟩
  · have h : (okVal (drawSurvey leftoverEnv leftoverSynth args leftoverSt)).map (fun P =>
        (Dict.get? P.attrs "x").map (·.latent)) = some (some [0, 0, 0]) := by decide +kernel
    rw [(okVal_ok h1).1] at h
    simpa using h
  · have h : (okVal (drawSurvey leftoverEnv leftoverSynth args { leftoverOnce with heap := leftoverReset })).map
        (fun P => (Dict.get? P.attrs "x").map (·.latent)) = some (some [3, 3, 3]) := by decide +kernel
    rw [(okVal_ok h2).1] at h
    simpa using h

theorem env_forgets (y : Synth Nat) : EnvForgets env y := by
  refine ⟨⟨?_, ?_⟩, ?_, fun _ _ _ => rfl⟩
  · intro n nz t t' h1 h2
    refine TwoRuns.modify' ⟨h1, ?_, rfl, rfl⟩
    show t.rng + 1 = t'.rng + 1
    rw [h2]
  · intro n t t' h1 h2 h3 h4
    refine TwoRuns.modify' ?_
    simp only [h1, h2, h3, h4]
  · intro n t t' h1 h2
    exact TwoRuns.pure' ⟨h1, h2⟩

theorem untouched : Untouched st.heap := by
  refine ⟨fun j => ?_, fun q => ?_⟩
  · match j with
    | 0 => exact ⟨rfl, rfl, rfl⟩
    | 1 => exact ⟨rfl, rfl, rfl⟩
    | 2 => exact ⟨rfl, rfl, rfl⟩
    | 3 => exact ⟨rfl, rfl, rfl⟩
    | j + 4 => exact ⟨rfl, rfl, rfl⟩
  · show (SurveyExample.heap.selectors q).isSampled = false
    unfold SurveyExample.heap
    dsimp only
    split <;> rfl

theorem rooted : Rooted synth st.heap := by
  refine ⟨fun i hi k hk => ?_, fun d hd => by cases hd⟩
  have hm := reachFrom_le k hk
  have h : ∀ k ∈ [0, 1, 2, 3], 0 ∉ st.heap.children k := by decide
  simp [synth] at hi; subst hi
  exact h k (by simp; omega)

theorem noDummies : NoDummies synth st.heap := by
  refine ⟨fun j hj => ?_, rfl, rfl, fun q hq => by cases hq⟩
  have hm := reachFrom_le j hj
  have h : ∀ k ∈ [0, 1, 2, 3], (st.heap.selectors (st.heap.samplers k).selector).kind.isDummy = false := by decide
  exact h j (by simp; omega)

theorem lumAttachedOnly : LumAttachedOnly synth st.heap := by
  intro i hi c hc hu
  have h : ∀ k ∈ [0, 1, 2, 3], (st.heap.samplers k).usesLuminosity = false := by decide
  have hm := reachFrom_le c ⟨i, by simp only [Synth.roots, List.mem_append]; exact .inr hi, .step hc (.here _)⟩
  rw [h c (by simp; omega)] at hu; cases hu

theorem sameParams : SameParams st final := by
  obtain ⟨P, hP⟩ := survey_ok
  obtain ⟨r⟩ := drawSurvey_ok hP
  obtain ⟨T, ef⟩ := surveyEff r wellFormed downClosed
  have toObj : ∀ a b : Obj Nat, a.storage = b.storage → a.norm = b.norm → a = b := by
    rintro ⟨_, _⟩ ⟨_, _⟩ h1 h2; cases h1; cases h2; rfl
  refine ⟨fun j => ?_, fun q => ?_, ?_, ?_⟩
  · by_cases hj : j ≤ 3
    · have h1 : ∀ k ∈ [0, 1, 2, 3], (final.heap.samplers k).params.storage = (st.heap.samplers k).params.storage ∧
          (final.heap.samplers k).params.norm = (st.heap.samplers k).params.norm := by decide +kernel
      have := h1 j (by simp; omega)
      exact toObj _ _ this.1 this.2
    · rw [r.samplers.1]
      exact (ef.eff.keep j fun hm => hj (reachFrom_le j ((ef.drawn j).1 hm).1)).2.2.1
  · by_cases hq : q ∈ [0, 1, 2, 3, 10, 11]
    · have h1 : ∀ k ∈ [0, 1, 2, 3, 10, 11],
          (final.heap.selectors k).params.storage = (st.heap.selectors k).params.storage ∧
          (final.heap.selectors k).params.norm = (st.heap.selectors k).params.norm := by decide +kernel
      have := h1 q hq
      exact toObj _ _ this.1 this.2
    · simp only [List.mem_cons, List.not_mem_nil, or_false, not_or] at hq
      rw [r.build.frame.2.2.1 q (by simp [synth]; omega), r.all.frame7.2.2.1 q (by simp [synth]; omega)
        (by simp [synth])]
      refine congrArg (·.params) (ef.eff.selKeep q fun x hx hs => ?_)
      have hm := reachFrom_le x.1 ((ef.drawn x.1).1 (List.mem_map_of_mem hx)).1
      have h : ∀ k ∈ [0, 1, 2, 3], (st.heap.samplers k).selector = k := by decide
      rw [h x.1 (by simp; omega)] at hs
      omega
  · exact toObj _ _ (by decide +kernel) (by decide +kernel)
  · exact toObj _ _ (by decide +kernel) (by decide +kernel)

/-- The example survey, reset and drawn again after other random numbers: the same population. -/
example : ∃ P h2 s2, drawSurvey env synth args st = .ok P final ∧ resetAll 10 synth final.heap = .ok () h2 ∧
    drawSurvey env synth args { final with heap := { h2 with rng := 1000 } } = .ok P s2 ∧
    P.fluxes.latent ≠ [] ∧ final.heap.rng ≠ 1000 := by
  obtain ⟨P, hP⟩ := survey_ok
  have hk : resetAll 10 synth final.heap = .ok () (endState (resetAll 10 synth final.heap)) :=
    ok_of_isOk (by decide +kernel)
  obtain ⟨s2, h2⟩ := C21_redraw_partial env (env_forgets synth) args 1000 hP hk wellFormed untouched rooted
    ownSelectors noDummies lumAttachedOnly sameParams rfl
  refine ⟨P, _, s2, hP, hk, h2, ?_, by decide +kernel⟩
  have h : (okVal (drawSurvey env synth args st)).map (fun P => P.fluxes.latent == []) = some false := by
    decide +kernel
  rw [(okVal_ok hP).1] at h
  simpa using h

theorem seed_eq (k : Int) (g g' : Nat) : env.seed k g = env.seed k g' := rfl

/-- Leftovers in the example: luminosities, positions, fluxes and masks of the first survey. -/
example : ∃ h2, resetAll 10 synth final.heap = .ok () h2 ∧
    (h2.samplers 0).luminosity ≠ (st.heap.samplers 0).luminosity ∧
    outcome (drawSurvey env synth args { final with heap := h2 }) = outcome (drawSurvey env synth args st) := by
  obtain ⟨P, hP⟩ := survey_ok
  have hk : resetAll 10 synth final.heap = .ok () (endState (resetAll 10 synth final.heap)) :=
    ok_of_isOk (by decide +kernel)
  have hl : ((endState (resetAll 10 synth final.heap)).samplers 0).luminosity ≠ (st.heap.samplers 0).luminosity := by
    decide +kernel
  have hs := sameParams
  generalize endState (resetAll 10 synth final.heap) = h2 at hk hl
  generalize final = s1 at hP hk hs ⊢
  obtain ⟨q1, q2⟩ := reset_alike hP hk wellFormed untouched rooted ownSelectors noDummies lumAttachedOnly hs
  exact ⟨h2, hk, hl, C21_leftovers_partial env (env_forgets synth) args q1 q2 rooted downClosed (seed_eq _ _ _)⟩

end SurveyExample
end Popsynth
