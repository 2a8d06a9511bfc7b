import Verif.Props.Survey

/-!
# C21 (reproducibility), C24 (luminosity source), C25 (drawing again, `clean`)
-/

set_option autoImplicit false
set_option linter.unusedSectionVars false

namespace Popsynth
open Spec
variable {F G : Type} [LE F] [DecidableLE F] [OfNat F 0] [OfNat F 1]

/-- The state with another random state. -/
def Spec.withRng (s : SurvSt F G) (g : G) : SurvSt F G := { s with heap := { s.heap with rng := g } }

/-! ### C21 -/

/-- **C21 (partial).** If seeding determines the whole random state, the random numbers
consumed before `draw_survey` have no influence: same population or same exception, and
the same final state when it returns.  *Missing*: seeding does not determine the whole
random state when numba's generator is used (`C21_violated_numba`), and redrawing after
`reset` may differ through recorded truths (`C58_violated_spatial_default`). -/
theorem C21_reproducible_partial (e : SurveyEnv F G) (y : Synth F) (a : SurveyArgs F)
    (s : SurvSt F G) (g : G) (hseed : e.seed y.seed g = e.seed y.seed s.heap.rng) :
    outcome (drawSurvey e y a (withRng s g)) = outcome (drawSurvey e y a s) ∧
    ∀ P s', drawSurvey e y a s = .ok P s' → drawSurvey e y a (withRng s g) = .ok P s' := by
  cases hs : e.seed y.seed s.heap.rng with
  | error err =>
    have h1 : drawSurvey e y a s = .error err s := by
      simp [drawSurvey, drawAll, bind_apply, get_apply, onRng, hs]
    have h2 : drawSurvey e y a (withRng s g) = .error err (withRng s g) := by
      simp [drawSurvey, drawAll, bind_apply, get_apply, onRng, withRng, hseed, hs]
    rw [h1, h2]
    exact ⟨rfl, fun P s' h => by cases h⟩
  | ok g' =>
    have : drawSurvey e y a (withRng s g) = drawSurvey e y a s := by
      simp [drawSurvey, drawAll, bind_apply, get_apply, onRng, withRng, hseed, hs]
    rw [this]
    exact ⟨rfl, fun P s' h => h⟩

/-! ### C24 -/

/-- **C24 (no source).** Without luminosity distribution and derived luminosity sampler
`draw_survey` never returns; once the positions are drawn it raises `RuntimeError`. -/
theorem C24_no_source (e : SurveyEnv F G) (y : Synth F) (a : SurveyArgs F) (s : SurvSt F G)
    (h1 : y.derived = none) (h2 : y.lumName = none) :
    (∀ P s', drawSurvey e y a s ≠ .ok P s') ∧
    (∀ s1 s2 s3 n v, reseed e y.seed s = .ok () s1 → countObjects e a.nSamples a.normalize s1 = .ok n s2 →
      drawPositions e n a.normalize s2 = .ok v s3 →
      drawSurvey e y a s = .error .runtime s3) := by
  constructor
  · intro P s' hk
    obtain ⟨r⟩ := drawSurvey_ok hk
    rcases drawLuminosities_ok r.all.lumd with ⟨d, hd, -⟩ | ⟨n, -, hl, -⟩
    · rw [h1] at hd; cases hd
    · rw [h2] at hl; cases hl
  · intro s1 s2 s3 n v k1 k2 k3
    unfold reseed at k1
    have hall : drawAll e y a s = .error .runtime s3 := by
      unfold drawAll
      rw [bind_of_ok (get_apply s)]
      refine (bind_of_ok k1).trans ?_
      rw [bind_of_ok k2, bind_of_ok k3]
      apply bind_of_error
      simp [drawLuminosities, h1, h2, raise]
    unfold drawSurvey
    exact bind_of_error hall

theorem countObjects_lum {e : SurveyEnv F G} {ns : Option Nat} {nz : Bool} {s s' : SurvSt F G}
    {n : Nat} (h : countObjects e ns nz s = .ok n s') : s'.lum = s.lum := by
  unfold countObjects at h
  cases ns with
  | some k => cases h; rfl
  | none =>
    simp only [bind_ok_iff] at h
    obtain ⟨N, t, k1, k2⟩ := h
    exact (congrArg (·.lum) (onRng_ok k2).2).trans (congrArg (·.lum) (onSpatial_ok k1).2)

/-- **C24 (derived).** With a derived luminosity sampler the luminosity distribution is
not involved at all: neither its code nor its state matters, and its state is not
touched. -/
theorem C24_derived_only (e : SurveyEnv F G) (y : Synth F) (a : SurveyArgs F) (s : SurvSt F G)
    (d : Nat) (h1 : y.derived = some d) (c : LumCode F G) :
    drawSurvey { e with lum := c } y a s = drawSurvey e y a s ∧
    ∀ P s', drawSurvey e y a s = .ok P s' → s'.lum = s.lum := by
  constructor
  · have k1 : ∀ n v loc, drawLuminosities { e with lum := c } y n v loc =
        drawLuminosities e y n v loc := by
      intro n v loc
      simp only [drawLuminosities, h1]
      rfl
    have k2 : ∀ n z, drawPositions { e with lum := c } n z = drawPositions e n z := fun _ _ => rfl
    have k3 : ∀ n z, countObjects { e with lum := c } n z = countObjects e n z := fun _ _ => rfl
    have k4 : ∀ n l v, auxStep { e with lum := c } n l v = auxStep e n l v := fun _ _ _ => rfl
    have k0 : ∀ sg n g, normalMany { e with lum := c } sg n g = normalMany e sg n g := by
      intro sg n
      induction n with
      | zero => intro g; rfl
      | succ n ih => intro g; simp only [normalMany, ih]
    have k5 : ∀ n f l x, observeFlux { e with lum := c } y n f l x = observeFlux e y n f l x := by
      intro n f l x
      simp only [observeFlux, noisyFlux, k0]
    have k6 : ∀ n v f l, applySelections { e with lum := c } y n v f l = applySelections e y n v f l :=
      fun _ _ _ _ => rfl
    have k7 : ∀ d, buildPopulation { e with lum := c } y d = buildPopulation e y d := fun _ => rfl
    unfold drawSurvey drawAll
    simp only [k1, k2, k3, k4, k5, k6, k7]
  · intro P s' hk
    obtain ⟨r⟩ := drawSurvey_ok hk
    have l1 : r.all.s1.lum = s.lum := congrArg (·.lum) (onRng_ok r.all.seeded).2
    have l2 : r.all.s2.lum = r.all.s1.lum := countObjects_lum r.all.counted
    obtain ⟨q⟩ := drawPositions_ok r.all.placed
    have l3 : r.all.s3.lum = r.all.s2.lum :=
      (congrArg (·.lum) (onSpatial_ok q.sky).2).trans (congrArg (·.lum) (onSpatial_ok q.dist).2)
    have l4 : r.all.s4.lum = r.all.s3.lum := by
      rcases drawLuminosities_ok r.all.lumd with ⟨d', -, ⟨q⟩⟩ | ⟨name, hd', -⟩
      · exact congrArg (·.lum) q.frame
      · rw [h1] at hd'; cases hd'
    have l5 : r.all.s5.lum = r.all.s4.lum := by
      refine foldPy_ok_induct (P := fun _ t => t.lum = r.all.s4.lum) rfl ?_ r.all.auxd
      intro kv _ l1 t1 l2 t2 h1 h2
      obtain ⟨ar⟩ := auxStep_ok h2
      exact (congrArg (·.lum) ar.frame).trans h1
    have l6 : r.all.s6.lum = r.all.s5.lum := congrArg (·.lum) (observeFlux_rng r.all.observed)
    rw [r.build.frame.2.2.2.2, r.all.frame7.2.2.2.2.1, l6, l5, l4, l3, l2, l1]

/-! ### C25 -/

/-- Selectors that have been drawn keep their mask. -/
def SelKept (h h' : Heap F G) : Prop := ∀ q, (h.selectors q).isSampled = true →
  (h'.selectors q).isSampled = true ∧ (h'.selectors q).selection = (h.selectors q).selection

omit [LE F] [DecidableLE F] [OfNat F 0] [OfNat F 1] in
theorem SelKept.trans {a b c : Heap F G} (p : SelKept a b) (q : SelKept b c) : SelKept a c := by
  intro x hx
  obtain ⟨h1, h2⟩ := p x hx
  obtain ⟨h3, h4⟩ := q x h1
  exact ⟨h3, h4.trans h2⟩

omit [LE F] [DecidableLE F] [OfNat F 0] [OfNat F 1] in
theorem SelKept.of_eq {h h' : Heap F G} (e : h'.selectors = h.selectors) : SelKept h h' := by
  intro q hq; rw [e]; exact ⟨hq, rfl⟩

theorem SelKept.select {e : SurveyEnv F G} {q n : Nat} {s s' : SurvSt F G}
    (h : selectOn e q n s = .ok () s') : SelKept s.heap s'.heap := by
  have f := selectOn_ok h
  intro x hx
  by_cases hxq : x = q
  · subst hxq; rw [f.kept hx]; exact ⟨hx, rfl⟩
  · rw [f.others x hxq]; exact ⟨hx, rfl⟩

/-- From the end of the draws to the end of the survey. -/
theorem SurveyRun.selKept {e : SurveyEnv F G} {y : Synth F} {a : SurveyArgs F} {s : SurvSt F G}
    {P : Population F} {s' : SurvSt F G} (r : SurveyRun e y a s P s') :
    SelKept r.all.s6.heap s'.heap ∧ (s'.heap.selectors y.fluxSel).isSampled = true := by
  obtain ⟨q⟩ := applySelections_ok r.all.selected
  have k1 : SelKept r.all.s6.heap q.s2.heap := by
    refine SelKept.trans ?_ (SelKept.select q.fluxd)
    intro x hx
    by_cases hxq : x = y.fluxSel
    · subst hxq; simp [Heap.modSelector, hx]
    · simp [Heap.modSelector, hxq, hx]
  have k2 : SelKept q.s2.heap r.s7.heap := by
    rcases applySpatial_ok q.spat with ⟨-, -, he⟩ | ⟨p, -, -, hsel, -⟩
    · exact SelKept.of_eq (congrArg (·.heap.selectors) he)
    · refine SelKept.trans ?_ (SelKept.select hsel)
      intro x hx
      by_cases hxq : x = p
      · subst hxq; simp [Heap.modSelector, hx]
      · simp [Heap.modSelector, hxq, hx]
  have k3 : SelKept r.s7.heap s'.heap := by
    refine (SelKept.select r.build.distd).trans (SelKept.of_eq ?_)
    exact r.build.frame.2.2.2.1
  exact ⟨(k1.trans k2).trans k3, ((k2.trans k3) y.fluxSel (selectOn_ok q.fluxd).sampled).1⟩

/-- **C25 (violated: second draw).** Whatever the configuration: a survey drawn again
without reset runs no sampler, reports the auxiliary quantities of the first survey again
and selects on the flux mask of the first survey, although the fluxes are new. -/
theorem C25_violated_second_draw (e : SurveyEnv F G) (y : Synth F) (a b : SurveyArgs F)
    (s s1 s2 : SurvSt F G) (P1 P2 : Population F) (hk1 : drawSurvey e y a s = .ok P1 s1)
    (hk2 : drawSurvey e y b s1 = .ok P2 s2) (hw : WellFormed y.roots s.heap)
    (hd : DownClosed s.heap.children s.heap.sampled) :
    s2.heap.trace = s1.heap.trace ∧
    (∀ nm, (Dict.get? P2.attrs nm).map (fun v => (v.obs, v.latent)) =
      (Dict.get? P1.attrs nm).map (fun v => (v.obs, v.latent))) ∧
    (s2.heap.selectors y.fluxSel).selection = (s1.heap.selectors y.fluxSel).selection := by
  obtain ⟨r1⟩ := drawSurvey_ok hk1
  obtain ⟨T1, ef1⟩ := surveyEff r1 hw hd
  have hid : ∀ j, (s1.heap.samplers j).ident = (s.heap.samplers j).ident := fun j => by
    rw [r1.samplers.1]; exact ef1.eff.ident j
  have hw1 := hw.of_ident hid
  have hch : s1.heap.children = s.heap.children := by
    funext i; simp only [Heap.children, ident_secondaries (hid i)]
  have hd1 : DownClosed s1.heap.children s1.heap.sampled := by
    have := ef1.closed
    have h1 : s1.heap.children = r1.all.s6.heap.children := by
      funext i; simp only [Heap.children, r1.samplers.1]
    have h2 : s1.heap.sampled = r1.all.s6.heap.sampled := by
      funext i; simp only [Heap.sampled, r1.samplers.1]
    rw [h1, h2]; exact this
  have hrf : ∀ j, ReachFrom s1.heap y.roots j ↔ ReachFrom s.heap y.roots j := by
    intro j; unfold ReachFrom; rw [hch]
  obtain ⟨r2⟩ := drawSurvey_ok hk2
  obtain ⟨T2, ef2⟩ := surveyEff r2 hw1 hd1
  have hT : T2 = [] := by
    cases hT : T2 with
    | nil => rfl
    | cons x xs =>
      have := (ef2.drawn x.1).1 (by rw [hT]; simp)
      have hs : s1.heap.sampled x.1 = true := by
        have := ef1.allSampled x.1 ((hrf _).1 this.1)
        simp only [Heap.sampled, r1.samplers.1]; exact this
      rw [hs] at this; cases this.2
  subst hT
  have hvals : ∀ j, (s2.heap.samplers j).trueVals = (s1.heap.samplers j).trueVals ∧
      (s2.heap.samplers j).obsVals = (s1.heap.samplers j).obsVals := by
    intro j
    rw [r2.samplers.1]
    have := ef2.eff.keep j (by simp)
    exact ⟨this.1, this.2.1⟩
  refine ⟨?_, ?_, ?_⟩
  · rw [r2.samplers.2, ef2.eff.trace, List.append_nil]
  · obtain ⟨c1, -⟩ := C16_survey e y a s s1 P1 hk1 hw hd
    obtain ⟨c2, -⟩ := C16_survey e y b s1 s2 P2 hk2 hw1 hd1
    intro nm
    have fwd : ∀ v, Dict.get? P2.attrs nm = some v →
        ∃ u, Dict.get? P1.attrs nm = some u ∧ u.obs = v.obs ∧ u.latent = v.latent := by
      intro v hv
      obtain ⟨j, hj, hn, t, o, ht, ho, rfl⟩ := (c2 nm v).1 hv
      rw [(hvals j).1] at ht; rw [(hvals j).2] at ho
      exact ⟨_, (c1 nm _).2 ⟨j, (hrf j).1 hj, by rw [← ident_name (hid j)]; exact hn, t, o, ht, ho, rfl⟩,
        rfl, rfl⟩
    have bwd : ∀ v, Dict.get? P1.attrs nm = some v →
        ∃ u, Dict.get? P2.attrs nm = some u ∧ u.obs = v.obs ∧ u.latent = v.latent := by
      intro v hv
      obtain ⟨j, hj, hn, t, o, ht, ho, rfl⟩ := (c1 nm v).1 hv
      rw [← (hvals j).1] at ht; rw [← (hvals j).2] at ho
      exact ⟨_, (c2 nm _).2 ⟨j, (hrf j).2 hj, by rw [ident_name (hid j)]; exact hn, t, o, ht, ho, rfl⟩,
        rfl, rfl⟩
    cases h2 : Dict.get? P2.attrs nm with
    | some v =>
      obtain ⟨u, hu, h3, h4⟩ := fwd v h2
      rw [hu]; simp [h3, h4]
    | none =>
      cases h1 : Dict.get? P1.attrs nm with
      | none => rfl
      | some v =>
        obtain ⟨u, hu, -⟩ := bwd v h1
        rw [h2] at hu; cases hu
  · have k := r1.selKept.2
    have k6 : r2.all.s6.heap.selectors y.fluxSel = s1.heap.selectors y.fluxSel :=
      ef2.eff.selKeep _ (by simp)
    have := r2.selKept.1 y.fluxSel (by rw [k6]; exact k)
    rw [this.2, k6]

theorem resetAll_ok {frames : Nat} {y : Synth F} {h h' : Heap F G}
    (hk : resetAll frames y h = .ok () h') :
    (∀ j, ReachFrom h y.roots j → h'.sampled j = false) ∧
    (∀ j, h'.samplers j = h.samplers j ∨ h'.samplers j =
      { h.samplers j with isSampled := false, obsVals := none, trueVals := none }) ∧
    (∀ q, h'.selectors q = h.selectors q ∨ h'.selectors q = (h.selectors q).reset) ∧
    h'.rng = h.rng := by
  have rr : ∀ c : Selector F G, c.reset.reset = c.reset := by
    intro c; unfold Selector.reset; split <;> simp_all
  -- the relation kept by every step
  let R : Heap F G → Prop := fun t =>
    (∀ j, t.samplers j = h.samplers j ∨ t.samplers j =
      { h.samplers j with isSampled := false, obsVals := none, trueVals := none }) ∧
    (∀ q, t.selectors q = h.selectors q ∨ t.selectors q = (h.selectors q).reset) ∧
    t.rng = h.rng
  have hR0 : R h := ⟨fun _ => .inl rfl, fun _ => .inl rfl, rfl⟩
  have hchR : ∀ t, R t → t.children = h.children := by
    intro t ht
    funext i
    rcases ht.1 i with h1 | h1 <;> simp [Heap.children, h1]
  have hstep : ∀ i t t', R t → samplerReset frames i t = .ok () t' → R t' ∧
      (∀ j, Reach h.children i j → t'.sampled j = false) ∧
      (∀ j, t.sampled j = false → t'.sampled j = false) := by
    intro i t t' ht hs
    have ef := samplerReset_eff frames i t
    rw [hs] at ef
    have hcl := samplerReset_clears frames i t t' hs
    rw [hchR t ht] at hcl
    refine ⟨⟨?_, ?_, ef.rng.trans ht.2.2⟩, hcl, ?_⟩
    · intro j
      have e1 := ef.shape j
      simp only [endState] at e1
      rcases e1 with e1 | e1 <;> rcases ht.1 j with e2 | e2 <;> rw [e1, e2] <;> simp
    · intro q
      have e1 := ef.selflags q
      simp only [endState] at e1
      rcases e1 with e1 | e1 <;> rcases ht.2.1 q with e2 | e2 <;> rw [e1, e2] <;> simp [rr]
    · intro j hj
      have := ef.unsampled j hj
      simp only [endState] at this
      simp only [Heap.sampled, this]; exact hj
  have hloop : ∀ (l : Dict Nat) t t', R t → forEach l (fun p => samplerReset frames p.2) t = .ok () t' →
      R t' ∧ (∀ i ∈ l.map Prod.snd, ∀ j, Reach h.children i j → t'.sampled j = false) ∧
      (∀ j, t.sampled j = false → t'.sampled j = false) := by
    intro l
    induction l with
    | nil =>
      intro t t' ht hs
      cases hs
      exact ⟨ht, by simp, fun j hj => hj⟩
    | cons p l ih =>
      intro t t' ht hs
      rw [forEach, bind_ok_iff] at hs
      obtain ⟨u, t1, k1, k2⟩ := hs
      obtain ⟨a1, a2, a3⟩ := hstep p.2 t t1 ht k1
      obtain ⟨b1, b2, b3⟩ := ih t1 t' a1 k2
      refine ⟨b1, ?_, fun j hj => b3 j (a3 j hj)⟩
      intro i hi j hj
      simp only [List.map_cons, List.mem_cons] at hi
      rcases hi with rfl | hi
      · exact b3 j (a2 j hj)
      · exact b2 i hi j hj
  unfold resetAll at hk
  rw [bind_ok_iff] at hk
  obtain ⟨u, t1, k1, k2⟩ := hk
  obtain ⟨a1, a2, -⟩ := hloop y.aux h t1 hR0 k1
  rw [bind_ok_iff] at k2
  obtain ⟨u, t2, k2, k3⟩ := k2
  have hd : R t2 ∧ (∀ i ∈ y.roots, ∀ j, Reach h.children i j → t2.sampled j = false) := by
    cases hy : y.derived with
    | none =>
      rw [hy] at k2
      cases k2
      refine ⟨a1, ?_⟩
      intro i hi
      simp only [Synth.roots, hy, Option.toList_none, List.nil_append] at hi
      exact a2 i hi
    | some d =>
      rw [hy] at k2
      obtain ⟨b1, b2, b3⟩ := hstep d t1 t2 a1 k2
      refine ⟨b1, ?_⟩
      intro i hi j hj
      simp only [Synth.roots, hy, Option.toList_some, List.cons_append, List.nil_append,
        List.mem_cons] at hi
      rcases hi with rfl | hi
      · exact b2 j hj
      · exact b3 j (a2 i hi j hj)
  obtain ⟨d1, d2⟩ := hd
  have hsel : ∀ t q, R t → R (t.modSelector q Selector.reset) := by
    intro t q ht
    refine ⟨ht.1, ?_, ht.2.2⟩
    intro x
    by_cases hx : x = q
    · subst hx
      simp only [Heap.modSelector, if_true]
      rcases ht.2.1 x with e | e <;> rw [e] <;> simp [rr]
    · simp only [Heap.modSelector, if_neg hx]; exact ht.2.1 x
  rw [bind_ok_iff] at k3
  obtain ⟨u, t3, k3, k4⟩ := k3
  rw [modify_apply] at k3
  simp only [EStateM.Result.ok.injEq, true_and] at k3
  have h3 : R t3 ∧ t3.samplers = t2.samplers := by
    rw [← k3]; exact ⟨hsel _ _ (hsel _ _ d1), rfl⟩
  have h4 : R h' ∧ h'.samplers = t3.samplers := by
    cases hy : y.spatSel with
    | none => rw [hy] at k4; cases k4; exact ⟨h3.1, rfl⟩
    | some q =>
      rw [hy] at k4
      simp only [resetSpatSel] at k4
      rw [modify_apply] at k4
      simp only [EStateM.Result.ok.injEq, true_and] at k4
      rw [← k4]; exact ⟨hsel _ _ h3.1, rfl⟩
  refine ⟨?_, h4.1.1, h4.1.2.1, h4.1.2.2⟩
  rintro j ⟨i, hi, hr⟩
  have := d2 i hi j hr
  simp only [Heap.sampled] at this ⊢
  rw [h4.2, h3.2]; exact this

/-- A newly constructed synth with the same distributions, seed and name
(population_synth.py:57-125) whose unity selections have the ids `q1`, `q2`. -/
def Spec.newSynth (y : Synth F) (q1 q2 : Nat) : Synth F :=
  { name := y.name, seed := y.seed, spatialName := y.spatialName, lumName := y.lumName,
    nModel := y.nModel, fluxSel := q1, distSel := q2, spatialForm := y.spatialForm
    lumForm := y.lumForm }

/-- **C25 (clean, partial).** After `clean(reset=True)` the configuration is that of a newly
constructed synth, with undrawn unity selections, all samplers that were attached are
reset, and their settings are kept.  *Missing*: the model spaces stay
(`C25_violated_clean_spaces`) and so does the graph (`C44`). -/
theorem C25_clean_partial (frames : Nat) (y y' : Synth F) (q1 q2 : Nat) (h h' : Heap F G)
    (hq : q1 ≠ q2) (hk : clean frames y true q1 q2 h = .ok y' h') :
    y' = { newSynth y q1 q2 with modelSpaces := y.modelSpaces } ∧
    (∀ q, q = q1 ∨ q = q2 → (h'.selectors q).kind.isUnity = true ∧
      (h'.selectors q).isSampled = false ∧ (h'.selectors q).selection = none) ∧
    (∀ j, ReachFrom h y.roots j → h'.sampled j = false) ∧
    (∀ j, (h'.samplers j).params = (h.samplers j).params ∧
      (h'.samplers j).secondaries = (h.samplers j).secondaries ∧
      (h'.samplers j).selector = (h.samplers j).selector) := by
  unfold clean at hk
  simp only [if_true, bind_ok_iff] at hk
  obtain ⟨u, h1, k1, u2, h2, k2, k3⟩ := hk
  obtain ⟨r1, r2, r3, r4⟩ := resetAll_ok k1
  rw [modify_apply] at k2
  simp only [EStateM.Result.ok.injEq, true_and] at k2
  cases k3
  subst k2
  refine ⟨rfl, ?_, r1, ?_⟩
  · rintro q (rfl | rfl)
    · simp [Heap.modSelector, hq, SelKind.isUnity]
    · simp [Heap.modSelector, SelKind.isUnity]
  · intro j
    rcases r2 j with e | e <;> simp [Heap.modSelector, e]

/-! ### Violations and examples -/

namespace SurveyExample

/-- Two random generators: numpy's (first component), which `np.random.seed` sets, and
numba's (second component), which it does not.  The sampler draws from the second one, as
`_sample_power_law` (plaw_aux_sampler.py:159-182, `nb.njit`) does. -/
def numbaEnv : SurveyEnv Nat (Nat × Nat) :=
  { world :=
      { sel := { bern := fun _ g => (g.1 % 2 == 0, (g.1 + 1, g.2)), validProb := fun p => decide (p ≤ 1),
                 softLog := fun _ _ _ => 1, softLin := fun _ _ _ => 1, neg := fun _ => 0 }
        half := 0, ninety := 90, showProgress := false
        code := fun _ =>
          { trueSampler := fun v n g =>
              { trueVals := some (List.replicate n g.2), obsVals := v.obsVals, params := v.params,
                rng := (g.1, g.2 + n) }
            obsSampler := fun v _ g =>
              { trueVals := v.trueVals, obsVals := v.trueVals, params := v.params, rng := g } } }
    spatial :=
      { count := fun _ => pure 2
        drawDistance := fun n _ => modify fun s =>
          { sp := { s.sp with distances := some ((List.range n).map (· + 1)),
                              probability := some (List.replicate n 1) }, rng := (s.rng.1 + 1, s.rng.2) }
        drawSky := fun n => modify fun s =>
          { sp := { s.sp with theta := some (List.replicate n 0), phi := some (List.replicate n 1) },
            rng := (s.rng.1 + 1, s.rng.2) }
        transform := fun l d => .ok (List.zipWith (· * ·) l d)
        galB := fun t _ => t
        readRMax := pure 10 }
    lum := { draw := fun n => pure ((List.range n).map (· + 2)), phi := fun l => pure (l.map fun _ => 2) }
    seed := fun k g => .ok (k.toNat, g.2)
    poisson := fun N g => (.ok N, (g.1 + 1, g.2))
    normal := fun _ g => (g.1 % 3, (g.1 + 1, g.2))
    validScale := fun _ => true
    mul := (· * ·), add := (· + ·), log10 := id, pow10 := id, ln := id, exp := id
    isFinite := fun _ => true, minusOne := 999, frames := 10
    toDict := fun _ _ => .ok .none }

def numbaSt : SurvSt Nat (Nat × Nat) :=
  { heap := { samplers := fun _ => { name := "a", obsName := "a_obs" }
              selectors := fun _ => { kind := .unity }, rng := (0, 0) }
    sp := {}, lum := {}, graph := {} }

/-- **C21 (violated).** Same seed, same configuration, same untouched samplers; but some
random numbers were drawn from numba's generator before: the values differ. -/
theorem C21_violated_numba : ∃ P1 P2 s1 s2,
    drawSurvey numbaEnv synth args numbaSt = .ok P1 s1 ∧
    drawSurvey numbaEnv synth args (withRng numbaSt (0, 7)) = .ok P2 s2 ∧
    (Dict.get? P1.attrs "a").map (·.latent) = some [0, 0] ∧
    (Dict.get? P2.attrs "a").map (·.latent) = some [7, 7] := by
  obtain ⟨P1, h1⟩ : ∃ P, drawSurvey numbaEnv synth args numbaSt =
      .ok P (endState (drawSurvey numbaEnv synth args numbaSt)) := exists_ok_of_isOk (by decide +kernel)
  obtain ⟨P2, h2⟩ : ∃ P, drawSurvey numbaEnv synth args (withRng numbaSt (0, 7)) =
      .ok P (endState (drawSurvey numbaEnv synth args (withRng numbaSt (0, 7)))) :=
    exists_ok_of_isOk (by decide +kernel)
  refine ⟨P1, P2, _, _, h1, h2, ?_, ?_⟩
  · have h : (okVal (drawSurvey numbaEnv synth args numbaSt)).map (fun P =>
        (Dict.get? P.attrs "a").map (·.latent)) = some (some [0, 0]) := by decide +kernel
    rw [(okVal_ok h1).1] at h
    simpa using h
  · have h : (okVal (drawSurvey numbaEnv synth args (withRng numbaSt (0, 7)))).map (fun P =>
        (Dict.get? P.attrs "a").map (·.latent)) = some (some [7, 7]) := by decide +kernel
    rw [(okVal_ok h2).1] at h
    simpa using h

/-- The example survey does not depend on the random numbers drawn before. -/
example : ∃ P, drawSurvey env synth args st = .ok P final ∧
    drawSurvey env synth args (withRng st 1000) = .ok P final := by
  obtain ⟨P, hP⟩ := survey_ok
  exact ⟨P, hP, (C21_reproducible_partial env synth args st 1000 rfl).2 P final hP⟩

/-- No luminosity source in the example: `RuntimeError`. -/
example : outcome (drawSurvey env { synth with lumName := none } args st) = .error .runtime :=
  outcome_of_errVal (by decide +kernel)

example (P : Population Nat) (s' : SurvSt Nat Nat) :
    drawSurvey env { synth with lumName := none } args st ≠ .ok P s' :=
  (C24_no_source env { synth with lumName := none } args st rfl rfl).1 P s'

/-- The example with noise that depends more on the random state. -/
def noisyEnv : SurveyEnv Nat Nat := { env with normal := fun _ g => ((g % 10) / 2, g + 1) }

/-- The arguments of a survey with noisy fluxes. -/
def noisyArgs : SurveyArgs Nat := { fluxSigma := some 1 }

/-- State after one survey with noisy fluxes. -/
def once : SurvSt Nat Nat := endState (drawSurvey noisyEnv synth noisyArgs st)

/-- **C25 (violated: inconsistent selection).** The same survey drawn twice: the second
population has an object with observed flux 4, not below the boundary 4 of the hard flux
selection, that is not selected; the first survey was consistent. -/
theorem C25_violated_stale_mask : ∃ P1 P2 s2,
    drawSurvey noisyEnv synth noisyArgs st = .ok P1 once ∧
    drawSurvey noisyEnv synth noisyArgs once = .ok P2 s2 ∧
    P1.fluxes.obs = [3, 7, 14] ∧ P1.selection = [false, true, true] ∧
    P2.fluxes.obs = [4, 9, 15] ∧ P2.selection = [false, true, true] := by
  obtain ⟨P1, h1⟩ : ∃ P, drawSurvey noisyEnv synth noisyArgs st = .ok P once :=
    exists_ok_of_isOk (by decide +kernel)
  obtain ⟨P2, h2⟩ : ∃ P, drawSurvey noisyEnv synth noisyArgs once =
      .ok P (endState (drawSurvey noisyEnv synth noisyArgs once)) := exists_ok_of_isOk (by decide +kernel)
  refine ⟨P1, P2, _, h1, h2, ?_⟩
  have a1 : (okVal (drawSurvey noisyEnv synth noisyArgs st)).map (fun P => (P.fluxes.obs, P.selection)) =
      some ([3, 7, 14], [false, true, true]) := by decide +kernel
  have a2 : (okVal (drawSurvey noisyEnv synth noisyArgs once)).map (fun P => (P.fluxes.obs, P.selection)) =
      some ([4, 9, 15], [false, true, true]) := by decide +kernel
  rw [(okVal_ok h1).1] at a1
  rw [(okVal_ok h2).1] at a2
  simp only [Option.map_some, Option.some.injEq, Prod.mk.injEq] at a1 a2
  exact ⟨a1.1, a1.2, a2.1, a2.2⟩

/-- **C25 (violated: other size).** Drawing again with another number of objects raises
`AssertionError`. -/
theorem C25_violated_other_size : ∃ P1, drawSurvey noisyEnv synth noisyArgs st = .ok P1 once ∧
    outcome (drawSurvey noisyEnv synth { noisyArgs with nSamples := some 5 } once) = .error .assertion := by
  obtain ⟨P1, h1⟩ : ∃ P, drawSurvey noisyEnv synth noisyArgs st = .ok P once :=
    exists_ok_of_isOk (by decide +kernel)
  exact ⟨P1, h1, outcome_of_errVal (by decide +kernel)⟩

/-- **C25 (violated: clean).** Model spaces survive `clean(reset=True)`, so the object is
not like a newly constructed one. -/
theorem C25_violated_clean_spaces : ∃ (y y' : Synth Nat) (h : Heap Nat Nat),
    clean 10 y true 20 21 st.heap = .ok y' h ∧ y'.modelSpaces ≠ (newSynth y 20 21).modelSpaces := by
  let y : Synth Nat := { synth with modelSpaces := [("xspace", [1, 2, 3])], nModel := 3 }
  obtain ⟨y', hy⟩ : ∃ y', clean 10 y true 20 21 st.heap =
      .ok y' (endState (clean 10 y true 20 21 st.heap)) := exists_ok_of_isOk (by decide +kernel)
  refine ⟨y, y', _, hy, ?_⟩
  rw [(C25_clean_partial 10 y y' 20 21 _ _ (by decide) hy).1]
  simp [newSynth, y]

/-- The general theorem applies to the two draws of `C25_violated_stale_mask`. -/
example : ∃ P2 s2, drawSurvey noisyEnv synth noisyArgs once = .ok P2 s2 ∧
    s2.heap.trace = once.heap.trace ∧ once.heap.trace.map Prod.fst = [3, 1, 2, 0] := by
  obtain ⟨P1, P2, s2, h1, h2, -⟩ := C25_violated_stale_mask
  exact ⟨P2, s2, h2, (C25_violated_second_draw noisyEnv synth noisyArgs noisyArgs st once s2 P1 P2 h1 h2
    wellFormed downClosed).1, by decide +kernel⟩

/-- A survey with a derived luminosity sampler (sampler 4, luminosity = true value). -/
def derivedEnv : SurveyEnv Nat Nat :=
  { env with world := { SamplerExample.w with code := fun _ => { SamplerExample.code with
      luminosity := fun v => match v.trueVals with
        | some l => .ok l
        | none => .error .type } }
             lum := { draw := fun _ => raise .user, phi := fun _ => raise .user } }

/-- The luminosity distribution would raise if it were used. -/
example : ∃ P s', drawSurvey derivedEnv { synth with derived := some 4 } args st = .ok P s' ∧
    P.luminosities.obs = (Dict.get? P.attrs "e").elim [] (·.latent) ∧ s'.lum = st.lum := by
  obtain ⟨P, hP⟩ : ∃ P, drawSurvey derivedEnv { synth with derived := some 4 } args st =
      .ok P (endState (drawSurvey derivedEnv { synth with derived := some 4 } args st)) :=
    exists_ok_of_isOk (by decide +kernel)
  refine ⟨P, _, hP, ?_, (C24_derived_only derivedEnv { synth with derived := some 4 } args st 4 rfl
    derivedEnv.lum).2 P _ hP⟩
  have h : (okVal (drawSurvey derivedEnv { synth with derived := some 4 } args st)).map (fun P =>
      (P.luminosities.obs, (Dict.get? P.attrs "e").elim [] (·.latent))) =
      some ([45, 45, 45], [45, 45, 45]) := by decide +kernel
  rw [(okVal_ok hP).1] at h
  simp only [Option.map_some, Option.some.injEq, Prod.mk.injEq] at h
  rw [h.1, h.2]

end SurveyExample
end Popsynth
