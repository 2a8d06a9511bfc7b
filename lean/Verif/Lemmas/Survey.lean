import Verif.Model.Survey
import Verif.Lemmas.DrawReturns
import Verif.Lemmas.Distance

/-! Helper lemmas about `draw_survey`: taking a run that returned apart. -/

set_option autoImplicit false
set_option linter.unusedSectionVars false

namespace Popsynth
open Spec
variable {F G : Type}

theorem except_bind_ok_iff {α β : Type} (x : Except Err α) (f : α → Except Err β) (b : β) :
    (x >>= f) = .ok b ↔ ∃ a, x = .ok a ∧ f a = .ok b := by
  cases x with
  | ok a => exact ⟨fun h => ⟨a, rfl, h⟩, fun ⟨a', h, h'⟩ => (by cases h; exact h')⟩
  | error e => exact ⟨fun h => (by cases h), fun ⟨_, h, _⟩ => (by cases h)⟩

/-! ### Loops -/

theorem foldPy_nil {σ α β : Type} (b : β) (f : β → α → Py σ β) (s : σ) :
    foldPy [] b f s = .ok b s := rfl

theorem foldPy_cons {σ α β : Type} (x : α) (xs : List α) (b : β) (f : β → α → Py σ β) :
    foldPy (x :: xs) b f = (f b x >>= fun b' => foldPy xs b' f) := rfl

/-- Invariant of a loop whose iterations all returned. -/
theorem foldPy_ok_induct {σ α β : Type} {xs : List α} {b b' : β} {f : β → α → Py σ β} {s s' : σ}
    (P : β → σ → Prop) (h0 : P b s)
    (hstep : ∀ x ∈ xs, ∀ b1 s1 b2 s2, P b1 s1 → f b1 x s1 = .ok b2 s2 → P b2 s2)
    (h : foldPy xs b f s = .ok b' s') : P b' s' := by
  induction xs generalizing b s with
  | nil => rw [foldPy_nil] at h; cases h; exact h0
  | cons x xs ih =>
    rw [foldPy_cons, bind_ok_iff] at h
    obtain ⟨b1, s1, h1, h2⟩ := h
    exact ih (hstep x (by simp) b s b1 s1 h0 h1) (fun y hy => hstep y (by simp [hy])) h2

/-! ### Plumbing -/

theorem onHeap_ok {α : Type} {m : Py (Heap F G) α} {s s' : SurvSt F G} {a : α}
    (h : onHeap m s = .ok a s') : m s.heap = .ok a s'.heap ∧ s' = { s with heap := s'.heap } := by
  unfold onHeap at h
  cases hm : m s.heap with
  | ok b t => rw [hm] at h; cases h; exact ⟨rfl, rfl⟩
  | error e t => rw [hm] at h; cases h

theorem onSpatial_ok {α : Type} {m : Py (SpSt F G) α} {s s' : SurvSt F G} {a : α}
    (h : onSpatial m s = .ok a s') :
    m { sp := s.sp, rng := s.heap.rng } = .ok a { sp := s'.sp, rng := s'.heap.rng } ∧
    s' = { s with sp := s'.sp, heap := { s.heap with rng := s'.heap.rng } } := by
  unfold onSpatial at h
  cases hm : m { sp := s.sp, rng := s.heap.rng } with
  | ok b t => rw [hm] at h; cases h; exact ⟨rfl, rfl⟩
  | error e t => rw [hm] at h; cases h

theorem onLum_ok {α : Type} {m : Py (LumSt F G) α} {s s' : SurvSt F G} {a : α}
    (h : onLum m s = .ok a s') :
    m { lum := s.lum, rng := s.heap.rng } = .ok a { lum := s'.lum, rng := s'.heap.rng } ∧
    s' = { s with lum := s'.lum, heap := { s.heap with rng := s'.heap.rng } } := by
  unfold onLum at h
  cases hm : m { lum := s.lum, rng := s.heap.rng } with
  | ok b t => rw [hm] at h; cases h; exact ⟨rfl, rfl⟩
  | error e t => rw [hm] at h; cases h

theorem onRng_ok {α : Type} {f : G → Except Err α × G} {s s' : SurvSt F G} {a : α}
    (h : onRng f s = .ok a s') :
    f s.heap.rng = (.ok a, s'.heap.rng) ∧
    s' = { s with heap := { s.heap with rng := s'.heap.rng } } := by
  unfold onRng at h
  cases hm : f s.heap.rng with
  | mk r g =>
    rw [hm] at h
    cases r with
    | ok b => cases h; exact ⟨rfl, rfl⟩
    | error e => cases h

theorem onGraph_ok {α : Type} {m : Py Graph α} {s s' : SurvSt F G} {a : α}
    (h : onGraph m s = .ok a s') : m s.graph = .ok a s'.graph ∧ s' = { s with graph := s'.graph } := by
  unfold onGraph at h
  cases hm : m s.graph with
  | ok b t => rw [hm] at h; cases h; exact ⟨rfl, rfl⟩
  | error e t => rw [hm] at h; cases h

/-! ### Arrays -/

theorem inPlace_length {α : Type} {f : α → α → α} {a b c : List α} (h : inPlace f a b = .ok c) :
    c.length = a.length := by
  unfold inPlace at h
  split at h
  · rename_i hl; cases h; simp [List.length_zipWith, hl]
  · split at h
    · cases h; simp
    · cases h

/-- Entry `i` of an array used in a broadcast operation. -/
def bget {α : Type} (l : List α) (i : Nat) : Option α :=
  if l.length = 1 then l[0]? else l[i]?

theorem bget_of_length {α : Type} {l : List α} {n i : Nat} (h : l.length = n) (hi : i < n) :
    bget l i = l[i]? := by
  unfold bget
  split
  · have : i = 0 := by omega
    rw [this]
  · rfl

theorem inPlace_get {α : Type} {f : α → α → α} {a b c : List α} (h : inPlace f a b = .ok c)
    {i : Nat} (hi : i < a.length) :
    ∃ x z, a[i]? = some x ∧ bget b i = some z ∧ c[i]? = some (f x z) := by
  unfold inPlace at h
  split at h
  · rename_i hl
    cases h
    have hb : i < b.length := by omega
    refine ⟨a[i], b[i], by simp [hi], ?_, by simp [List.getElem?_zipWith, hi, hb]⟩
    rw [bget_of_length (n := b.length) rfl hb]; simp [hb]
  · split at h
    · cases h
      rename_i y hl
      exact ⟨a[i], y, by simp [hi], by simp [bget], by simp [hi]⟩
    · cases h

theorem mkSimVar_ok {o l : List F} {m : List Bool} {v : SimVar F} (h : mkSimVar o l m = .ok v) :
    m.length = o.length ∧ l.length = o.length ∧ v = { obs := o, latent := l, selection := m } := by
  unfold mkSimVar at h
  split at h
  · cases h
  · split at h
    · cases h
    · rename_i h1 h2
      cases h
      exact ⟨Decidable.not_not.1 h1, Decidable.not_not.1 h2, rfl⟩

theorem maskIndex_ok {α : Type} {a c : List α} {m : List Bool} (h : maskIndex a m = .ok c) :
    a.length = m.length ∧ c = pick a m := by
  unfold maskIndex at h
  split at h
  · rename_i hl; cases h; exact ⟨hl, rfl⟩
  · cases h

theorem pick_length {α : Type} (a : List α) (m : List Bool) (h : a.length = m.length) :
    (pick a m).length = countTrue m := by
  induction a generalizing m with
  | nil =>
    cases m with
    | nil => rfl
    | cons b m => simp at h
  | cons x a ih =>
    cases m with
    | nil => simp at h
    | cons b m =>
      simp only [List.length_cons, Nat.add_right_cancel_iff] at h
      rw [countTrue_cons]
      cases b
      · simp only [pick]; simpa using ih m h
      · simp only [pick, if_true, List.length_cons, ih m h]; omega

/-! ### `Population.__init__` -/

theorem excAssert_ok {b : Bool} {u : Unit} (h : excAssert b = .ok u) : b = true := by
  cases b with
  | true => rfl
  | false => cases h

/-- What a constructed population guarantees. -/
structure PopOk (a : PopArgs F) (p : Population F) : Prop where
  luminosities : p.luminosities = { obs := a.luminosities, latent := a.luminosities, selection := a.selection }
  distances : p.distances = { obs := a.distances, latent := a.distances, selection := a.selection }
  theta : p.theta = { obs := a.theta, latent := a.theta, selection := a.selection }
  phi : p.phi = { obs := a.phi, latent := a.phi, selection := a.selection }
  fluxes : p.fluxes = { obs := a.fluxObs, latent := a.fluxes, selection := a.selection }
  probability : p.probability = a.probability.map fun q => { obs := q, latent := q, selection := a.selection }
  lenLum : a.luminosities.length = a.selection.length
  lenDist : a.distances.length = a.selection.length
  lenTheta : a.theta.length = a.selection.length
  lenPhi : a.phi.length = a.selection.length
  lenFluxes : a.fluxes.length = a.selection.length
  lenFluxObs : a.fluxObs.length = a.selection.length
  lenProb : ∀ q, a.probability = some q → q.length = a.selection.length
  known : a.knownDistances.length + a.unknownIdx.length = countTrue a.selection
  aux : auxAttrs a.selection a.aux = .ok (p.attrs, p.protectedNames)
  spaces : a.modelSpaces.isSome = true → ∀ q ∈ a.spacesNow, q.2.length = a.nModel
  rest : p.knownDistances = a.knownDistances ∧ p.knownIdx = a.knownIdx ∧
    p.unknownIdx = a.unknownIdx ∧ p.selection = a.selection ∧ p.fluxSigma = a.fluxSigma ∧
    p.rMax = a.rMax ∧ p.seed = a.seed ∧ p.nModel = a.nModel ∧ p.name = a.name ∧
    p.lfParams = a.lfParams ∧ p.spatialParams = a.spatialParams ∧
    p.modelSpaces = a.modelSpaces ∧ p.truth = a.truth ∧ p.graph = a.graph ∧
    p.popSynth = a.popSynth ∧ p.auxiliary = a.aux ∧ p.spatialForm = a.spatialForm ∧
    p.lfForm = a.lfForm
  counts : p.nObjects = a.selection.length ∧ p.nDetections = countTrue a.selection ∧
    p.nNonDetections = a.selection.length - countTrue a.selection ∧
    (p.noDetection = true ↔ countTrue a.selection = 0)

theorem mkPopulation_ok {a : PopArgs F} {p : Population F} (h : mkPopulation a = .ok p) :
    PopOk a p := by
  unfold mkPopulation at h
  simp only [except_bind_ok_iff] at h
  obtain ⟨l, h1, d, h2, t, h3, f, h4, _, h5, fx, h6, pr, h7, ⟨at', prot⟩, h8, _, h9, h10⟩ := h
  obtain ⟨a1, a2, rfl⟩ := mkSimVar_ok h1
  obtain ⟨b1, b2, rfl⟩ := mkSimVar_ok h2
  obtain ⟨c1, c2, rfl⟩ := mkSimVar_ok h3
  obtain ⟨d1, d2, rfl⟩ := mkSimVar_ok h4
  obtain ⟨e1, e2, rfl⟩ := mkSimVar_ok h6
  cases h10
  have h5' : a.knownDistances.length + a.unknownIdx.length = countTrue a.selection := by
    simpa using excAssert_ok h5
  have h9' := excAssert_ok h9
  have hp : (∀ q, a.probability = some q → q.length = a.selection.length) ∧
      pr = a.probability.map fun q => { obs := q, latent := q, selection := a.selection } := by
    unfold optSimVar at h7
    cases hq : a.probability with
    | none => rw [hq] at h7; cases h7; exact ⟨fun _ h => (by cases h), rfl⟩
    | some q =>
      rw [hq] at h7
      simp only [except_bind_ok_iff] at h7
      obtain ⟨v, h7, h7'⟩ := h7
      cases h7'
      obtain ⟨f1, f2, rfl⟩ := mkSimVar_ok h7
      exact ⟨fun q' h => by cases h; exact f1.symm, rfl⟩
  refine ⟨rfl, rfl, rfl, rfl, rfl, hp.2, a1.symm, b1.symm, c1.symm, d1.symm, by rw [e2, ← e1],
    e1.symm, hp.1, h5', h8, ?_, ⟨rfl, rfl, rfl, rfl, rfl, rfl, rfl, rfl, rfl, rfl, rfl, rfl, rfl, rfl, rfl, rfl, rfl, rfl⟩,
    ⟨rfl, rfl, rfl, by simp⟩⟩
  intro hm q hq
  rw [hm, Bool.true_and, Bool.not_eq_true', List.any_eq_false] at h9'
  simpa using h9' q hq

/-! ### Taking a survey apart -/

section
variable [LE F] [DecidableLE F] [OfNat F 0] [OfNat F 1]

/-- Reseeding, population_synth.py:971. -/
def reseed (e : SurveyEnv F G) (seed : Int) : Py (SurvSt F G) Unit :=
  onRng fun g => match e.seed seed g with
    | .ok g' => (.ok (), g')
    | .error err => (.error err, g)

/-- The stages of a completed `drawAll`. -/
structure AllRun (e : SurveyEnv F G) (y : Synth F) (a : SurveyArgs F) (s : SurvSt F G)
    (d : Drawn F G) (s7 : SurvSt F G) where
  s1 : SurvSt F G
  s2 : SurvSt F G
  s3 : SurvSt F G
  s4 : SurvSt F G
  s5 : SurvSt F G
  s6 : SurvSt F G
  prob0 : List F
  loc1 : Loc F
  seeded : reseed e y.seed s = .ok () s1
  counted : countObjects e a.nSamples a.normalize s1 = .ok d.n s2
  placed : drawPositions e d.n a.normalize s2 = .ok (d.pos, prob0) s3
  lumd : drawLuminosities e y d.n d.pos
    { truth := [(y.spatialName, truthOf s.sp.params)], auxq := [], prob := prob0 } s3
      = .ok (d.lums, loc1) s4
  transformed : e.spatial.transform d.lums d.pos.distance = .ok d.fluxes
  auxd : foldPy y.aux loc1 (auxStep e d.n d.lums d.pos) s4 = .ok d.loc s5
  observed : observeFlux e y d.n a.fluxSigma a.log10Draw d.fluxes s5 = .ok (d.fluxObs, d.sigma) s6
  selected : applySelections e y d.n d.pos d.fluxObs d.loc s6 = .ok (d.glob, d.prob) s7

theorem drawAll_ok {e : SurveyEnv F G} {y : Synth F} {a : SurveyArgs F} {s s' : SurvSt F G}
    {d : Drawn F G} (h : drawAll e y a s = .ok d s') : Nonempty (AllRun e y a s d s') := by
  unfold drawAll at h
  simp only [bind_ok_iff, get_apply, EStateM.Result.ok.injEq, pure_apply, liftE_ok_iff] at h
  obtain ⟨_, _, ⟨rfl, rfl⟩, _, s1, h1, n, s2, h2, ⟨v, prob0⟩, s3, h3, ⟨lums, loc1⟩, s4, h4,
    fx, _, ⟨h5, rfl⟩, loc, s5, h6, ⟨fo, sg⟩, s6, h7, ⟨gl, pr⟩, s7, h8, rfl, rfl⟩ := h
  exact ⟨⟨s1, s2, s3, s4, s5, s6, prob0, loc1, h1, h2, h3, h4, h5, h6, h7, h8⟩⟩

/-- The arguments with which `draw_survey` builds the population. -/
def popArgs (y : Synth F) (d : Drawn F G) (gm dm : List Bool) (known : List F) (rMax : F)
    (ps : PVal F) : PopArgs F :=
  { luminosities := d.lums, distances := d.pos.distance, knownDistances := known
    knownIdx := selectionIndex dm, unknownIdx := nonSelectionIndex dm
    fluxes := d.fluxes, fluxObs := d.fluxObs, selection := gm, fluxSigma := d.sigma
    rMax := rMax, nModel := y.nModel, lfParams := y.lumName.map fun _ => .shared
    spatialParams := some .shared, spacesNow := y.modelSpaces, modelSpaces := some .shared
    seed := y.seed, name := y.name, aux := some d.loc.auxq, truth := d.loc.truth
    graph := some .shared, theta := d.pos.theta, phi := d.pos.phi, popSynth := some ps
    probability := some d.prob, spatialForm := some y.spatialForm
    lfForm := y.lumName.map fun _ => y.lumForm }

/-- The stages of a completed `buildPopulation`. -/
structure BuildRun (e : SurveyEnv F G) (y : Synth F) (d : Drawn F G) (s : SurvSt F G)
    (P : Population F) (s' : SurvSt F G) where
  s8 : SurvSt F G
  s9 : SurvSt F G
  gm : List Bool
  dm : List Bool
  sel : List F
  known : List F
  rMax : F
  ps : PVal F
  gmask : d.glob.mask = .ok gm
  distd : selectOn e y.distSel (countTrue gm) s = .ok () s8
  dmask : (s8.heap.selectors y.distSel).mask = .ok dm
  sel_eq : maskIndex d.pos.distance gm = .ok sel
  known_eq : maskIndex sel dm = .ok known
  logged : logFarthest d.glob known = .ok ()
  rmax : onSpatial (onParams e.spatial.readRMax) s8 = .ok rMax s9
  graphed : onGraph (buildGraph e.frames y s8.heap) s9 = .ok () s'
  dicted : e.toDict y s' = .ok ps
  built : mkPopulation (popArgs y d gm dm known rMax ps) = .ok P

theorem buildPopulation_ok {e : SurveyEnv F G} {y : Synth F} {d : Drawn F G} {s s' : SurvSt F G}
    {P : Population F} (h : buildPopulation e y d s = .ok P s') :
    Nonempty (BuildRun e y d s P s') := by
  unfold buildPopulation at h
  simp only [bind_ok_iff, get_apply, EStateM.Result.ok.injEq, pure_apply, liftE_ok_iff] at h
  obtain ⟨gm, _, ⟨h1, rfl⟩, _, s8, h2, _, _, ⟨rfl, rfl⟩, dm, _, ⟨h3, rfl⟩, sel, _, ⟨h4, rfl⟩,
    known, _, ⟨h5, rfl⟩, _, _, ⟨h6, rfl⟩, rm, s9, h7, _, s10, h8, _, _, ⟨rfl, rfl⟩, ps, _, ⟨h9, rfl⟩,
    h10, rfl⟩ := h
  exact ⟨⟨_, s9, gm, dm, sel, known, rm, ps, h1, h2, h3, h4, h5, h6, h7, h8, h9, h10⟩⟩

/-- A survey that returned a population. -/
structure SurveyRun (e : SurveyEnv F G) (y : Synth F) (a : SurveyArgs F) (s : SurvSt F G)
    (P : Population F) (s' : SurvSt F G) where
  d : Drawn F G
  s7 : SurvSt F G
  all : AllRun e y a s d s7
  build : BuildRun e y d s7 P s'

theorem drawSurvey_ok {e : SurveyEnv F G} {y : Synth F} {a : SurveyArgs F} {s s' : SurvSt F G}
    {P : Population F} (h : drawSurvey e y a s = .ok P s') : Nonempty (SurveyRun e y a s P s') := by
  unfold drawSurvey at h
  rw [bind_ok_iff] at h
  obtain ⟨d, s7, h1, h2⟩ := h
  obtain ⟨r1⟩ := drawAll_ok h1
  obtain ⟨r2⟩ := buildPopulation_ok h2
  exact ⟨⟨d, s7, r1, r2⟩⟩

/-! ### Positions -/

/-- The stages of `drawPositions`. -/
structure PosRun (e : SurveyEnv F G) (n : Nat) (normalize : Bool) (s : SurvSt F G)
    (v : Spatial F) (prob : List F) (s' : SurvSt F G) where
  s1 : SurvSt F G
  pr : List F
  dist : onSpatial (e.spatial.drawDistance n normalize) s = .ok () s1
  hpr : s1.sp.probability = some pr
  hprob : inPlace e.mul (List.replicate n 1) pr = .ok prob
  sky : onSpatial (e.spatial.drawSky n) s1 = .ok () s'
  hd : s'.sp.distances = some v.distance
  ht : s'.sp.theta = some v.theta
  hp : s'.sp.phi = some v.phi

theorem mulProb_ok {e : SurveyEnv F G} {prob r : List F} {p : Option (List F)}
    (h : mulProb e prob p = .ok r) : ∃ q, p = some q ∧ inPlace e.mul prob q = .ok r := by
  unfold mulProb at h
  rw [except_bind_ok_iff] at h
  obtain ⟨q, h1, h2⟩ := h
  cases p with
  | none => cases h1
  | some p => cases h1; exact ⟨_, rfl, h2⟩

theorem spatialValues_ok {s s' : SurvSt F G} {v : Spatial F} (h : spatialValues s = .ok v s') :
    s' = s ∧ s.sp.distances = some v.distance ∧ s.sp.theta = some v.theta ∧
      s.sp.phi = some v.phi := by
  unfold spatialValues at h
  cases hd : s.sp.distances with
  | none => rw [hd] at h; cases h
  | some d =>
    cases ht : s.sp.theta with
    | none => rw [hd, ht] at h; cases h
    | some t =>
      cases hp : s.sp.phi with
      | none => rw [hd, ht, hp] at h; cases h
      | some p => rw [hd, ht, hp] at h; cases h; exact ⟨rfl, rfl, rfl, rfl⟩

theorem drawPositions_ok {e : SurveyEnv F G} {n : Nat} {nz : Bool} {s s' : SurvSt F G}
    {v : Spatial F} {prob : List F} (h : drawPositions e n nz s = .ok (v, prob) s') :
    Nonempty (PosRun e n nz s v prob s') := by
  unfold drawPositions at h
  simp only [bind_ok_iff, get_apply, EStateM.Result.ok.injEq, pure_apply, liftE_ok_iff] at h
  obtain ⟨_, s1, h1, _, _, ⟨rfl, rfl⟩, p, _, ⟨h2, rfl⟩, _, s2, h3, v', s3, h4, h5, rfl⟩ := h
  cases h5
  obtain ⟨rfl, hd, ht, hp⟩ := spatialValues_ok h4
  obtain ⟨q, hq, hi⟩ := mulProb_ok h2
  exact ⟨⟨_, q, h1, hq, hi, h3, hd, ht, hp⟩⟩

/-! ### Luminosities -/

/-- The stages of `derivedLuminosity`. -/
structure DerivedRun (e : SurveyEnv F G) (n : Nat) (v : Spatial F) (d : Nat) (loc : Loc F)
    (s : SurvSt F G) (lums : List F) (loc' : Loc F) (s' : SurvSt F G) where
  h1 : Heap F G
  auxq : Storage F
  set : setSpatialValues d v s.heap = .ok () h1
  drawn : samplerDraw e.world e.frames d n h1 = .ok () s'.heap
  frame : s' = { s with heap := s'.heap }
  lenTrue : lenIs (s'.heap.samplers d).trueVals n = true
  lenObs : lenIs (s'.heap.samplers d).obsVals n = true
  lum : (e.world.code d).luminosity (s'.heap.view d) = .ok lums
  secs : (s'.heap.samplers d).secondaries.foldlM
    (fun acc p => do
      let r ← secProps s'.heap e.frames p.2
      pure (Storage.add acc r))
    (Dict.set loc.auxq (s'.heap.samplers d).name
      { name := (s'.heap.samplers d).name, trueVals := (s'.heap.samplers d).trueVals,
        obsVals := (s'.heap.samplers d).obsVals, selection := (s'.heap.samplers d).selector,
        prob := (s'.heap.samplers d).probability }) = .ok auxq
  loc_eq : loc' = { loc with auxq := auxq, truth := (secTruths s'.heap d
    (Dict.set loc.truth (s'.heap.samplers d).name (truthOf (s'.heap.samplers d).params))) }

theorem pyAssert_ok {σ : Type} {b : Bool} {s s' : σ} {u : Unit}
    (h : pyAssert b s = .ok u s') : b = true ∧ s' = s := by
  cases b with
  | true => cases h; exact ⟨rfl, rfl⟩
  | false => cases h

theorem derivedLuminosity_ok {e : SurveyEnv F G} {n : Nat} {v : Spatial F} {d : Nat} {loc loc' : Loc F}
    {s s' : SurvSt F G} {lums : List F}
    (h : derivedLuminosity e n v d loc s = .ok (lums, loc') s') :
    Nonempty (DerivedRun e n v d loc s lums loc' s') := by
  unfold derivedLuminosity at h
  simp only [bind_ok_iff, get_apply, EStateM.Result.ok.injEq, pure_apply, liftE_ok_iff] at h
  obtain ⟨_, s1, h1, _, s2, h2, _, _, ⟨rfl, rfl⟩, _, s3, h3, _, s4, h4, l, _, ⟨h5, rfl⟩, q, _, ⟨h6, rfl⟩,
    h7, rfl⟩ := h
  obtain ⟨a3, rfl⟩ := pyAssert_ok h3
  obtain ⟨a4, rfl⟩ := pyAssert_ok h4
  obtain ⟨k1, e1⟩ := onHeap_ok h1
  obtain ⟨k2, e2⟩ := onHeap_ok h2
  cases h7
  exact ⟨⟨_, q, k1, k2, by rw [e2, e1], a3, a4, h5, h6, rfl⟩⟩

/-- The stages of `distLuminosity`. -/
structure DistRun (e : SurveyEnv F G) (n : Nat) (name : String) (loc : Loc F)
    (s : SurvSt F G) (lums : List F) (loc' : Loc F) (s' : SurvSt F G) where
  s1 : SurvSt F G
  pr : List F
  prob : List F
  drawn : onLum (e.lum.draw n) s = .ok lums s1
  probd : onLum (computeLumProbability e.lum lums) s1 = .ok () s'
  hpr : s'.lum.probability = some pr
  hprob : inPlace e.mul loc.prob pr = .ok prob
  loc_eq : loc' = { loc with prob := prob, truth := Dict.set loc.truth name (truthOf s'.lum.params) }

theorem distLuminosity_ok {e : SurveyEnv F G} {n : Nat} {name : String} {loc loc' : Loc F}
    {s s' : SurvSt F G} {lums : List F}
    (h : distLuminosity e n name loc s = .ok (lums, loc') s') :
    Nonempty (DistRun e n name loc s lums loc' s') := by
  unfold distLuminosity at h
  simp only [bind_ok_iff, get_apply, EStateM.Result.ok.injEq, pure_apply, liftE_ok_iff] at h
  obtain ⟨l, s1, h1, _, s2, h2, _, _, ⟨rfl, rfl⟩, p, _, ⟨h3, rfl⟩, h4, rfl⟩ := h
  cases h4
  obtain ⟨q, hq, hi⟩ := mulProb_ok h3
  exact ⟨⟨s1, q, p, h1, h2, hq, hi, rfl⟩⟩

/-- The two ways to get luminosities. -/
theorem drawLuminosities_ok {e : SurveyEnv F G} {y : Synth F} {n : Nat} {v : Spatial F}
    {loc loc' : Loc F} {s s' : SurvSt F G} {lums : List F}
    (h : drawLuminosities e y n v loc s = .ok (lums, loc') s') :
    (∃ d, y.derived = some d ∧ Nonempty (DerivedRun e n v d loc s lums loc' s')) ∨
    (∃ name, y.derived = none ∧ y.lumName = some name ∧
      Nonempty (DistRun e n name loc s lums loc' s')) := by
  unfold drawLuminosities at h
  cases hd : y.derived with
  | some d => rw [hd] at h; exact .inl ⟨d, rfl, derivedLuminosity_ok h⟩
  | none =>
    cases hl : y.lumName with
    | some l => rw [hd, hl] at h; exact .inr ⟨l, rfl, rfl, distLuminosity_ok h⟩
    | none => rw [hd, hl] at h; cases h

/-! ### Auxiliary samplers -/

/-- The stages of `auxStep`. -/
structure AuxRun (e : SurveyEnv F G) (n : Nat) (lums : List F) (v : Spatial F) (loc : Loc F)
    (i : Nat) (s : SurvSt F G) (loc' : Loc F) (s' : SurvSt F G) where
  h1 : Heap F G
  r : Storage F
  primary : (s.heap.samplers i).isSecondary = false
  set : prepareAux lums v i s.heap = .ok () h1
  drawn : samplerDraw e.world e.frames i n h1 = .ok () s'.heap
  frame : s' = { s with heap := s'.heap }
  lenTrue : lenIs (s'.heap.samplers i).trueVals n = true
  lenObs : lenIs (s'.heap.samplers i).obsVals n = true
  props : secProps s'.heap e.frames i = .ok r
  loc_eq : loc' = { loc with auxq := Storage.add loc.auxq r, truth := (secTruths s'.heap i
    (Dict.set loc.truth (s'.heap.samplers i).name (truthOf (s'.heap.samplers i).params))) }

theorem auxStep_ok {e : SurveyEnv F G} {n : Nat} {lums : List F} {v : Spatial F} {loc loc' : Loc F}
    {kv : String × Nat} {s s' : SurvSt F G} (h : auxStep e n lums v loc kv s = .ok loc' s') :
    Nonempty (AuxRun e n lums v loc kv.2 s loc' s') := by
  unfold auxStep at h
  simp only [bind_ok_iff, get_apply, EStateM.Result.ok.injEq, pure_apply, liftE_ok_iff] at h
  obtain ⟨_, _, ⟨rfl, rfl⟩, _, s0, h0, _, s1, h1, _, s2, h2, _, _, ⟨rfl, rfl⟩, _, s3, h3, _, s4, h4,
    r, _, ⟨h5, rfl⟩, h6, rfl⟩ := h
  obtain ⟨a0, rfl⟩ := pyAssert_ok h0
  obtain ⟨a3, rfl⟩ := pyAssert_ok h3
  obtain ⟨a4, rfl⟩ := pyAssert_ok h4
  obtain ⟨k1, e1⟩ := onHeap_ok h1
  obtain ⟨k2, e2⟩ := onHeap_ok h2
  cases h6
  exact ⟨⟨_, r, by simpa using a0, k1, k2, by rw [e2, e1], a3, a4, h5, rfl⟩⟩

/-! ### Observed fluxes -/

/-- Measurement: latent fluxes moved in log space by one normal number each. -/
def Scattered (e : SurveyEnv F G) (fwd bwd : F → F) (sigma : F) (n : Nat) (g : G)
    (fluxes obs : List F) (g' : G) : Prop :=
  e.validScale sigma = true ∧ (normalMany e sigma n g).2 = g' ∧
  ∃ l, bcast e.add (fluxes.map fwd) (normalMany e sigma n g).1 = .ok l ∧
    l.all e.isFinite = true ∧ obs = l.map bwd

theorem noisyFlux_ok {e : SurveyEnv F G} {n : Nat} {sigma : F} {fwd bwd : F → F}
    {fluxes obs : List F} {s s' : SurvSt F G}
    (h : noisyFlux e n sigma fwd bwd fluxes s = .ok obs s') :
    Scattered e fwd bwd sigma n s.heap.rng fluxes obs s'.heap.rng ∧
    s' = { s with heap := { s.heap with rng := s'.heap.rng } } := by
  unfold noisyFlux at h
  cases hv : e.validScale sigma with
  | false => rw [hv] at h; cases h
  | true =>
    rw [hv] at h
    simp only [Bool.not_true, Bool.false_eq_true, if_false, bind_ok_iff, pure_apply,
      EStateM.Result.ok.injEq, liftE_ok_iff] at h
    obtain ⟨xs, s1, h1, l, _, ⟨h2, rfl⟩, _, s2, h3, rfl, rfl⟩ := h
    obtain ⟨k1, k2⟩ := onRng_ok h1
    simp only [Prod.mk.injEq, Except.ok.injEq] at k1
    obtain ⟨rfl, k1⟩ := k1
    obtain ⟨h4, rfl⟩ := pyAssert_ok h3
    exact ⟨⟨hv, k1, l, h2, h4, rfl⟩, k2⟩

theorem observeFlux_ok {e : SurveyEnv F G} {y : Synth F} {n : Nat} {fs : Option F} {lg : Bool}
    {fluxes obs : List F} {sg : F} {s s' : SurvSt F G}
    (h : observeFlux e y n fs lg fluxes s = .ok (obs, sg) s') :
    (∃ sigma, (s.heap.selectors y.fluxSel).kind.isUnity = false ∧ fs = some sigma ∧ sg = sigma ∧
      Scattered e (if lg then e.log10 else e.ln) (if lg then e.pow10 else e.exp) sigma n
        s.heap.rng fluxes obs s'.heap.rng ∧
      s' = { s with heap := { s.heap with rng := s'.heap.rng } }) ∨
    (((s.heap.selectors y.fluxSel).kind.isUnity = true ∨ fs = none) ∧ obs = fluxes ∧
      sg = e.minusOne ∧ s' = s) := by
  unfold observeFlux at h
  rw [bind_apply, get_apply] at h
  simp only at h
  cases hu : (s.heap.selectors y.fluxSel).kind.isUnity with
  | true =>
    rw [hu] at h
    simp only [Bool.not_true, Bool.false_eq_true, if_false, pure_apply,
      EStateM.Result.ok.injEq, Prod.mk.injEq] at h
    obtain ⟨⟨rfl, rfl⟩, rfl⟩ := h
    exact .inr ⟨.inl rfl, rfl, rfl, rfl⟩
  | false =>
    rw [hu] at h
    cases fs with
    | none =>
      simp only [Bool.not_false, if_true, pure_apply,
        EStateM.Result.ok.injEq, Prod.mk.injEq] at h
      obtain ⟨⟨rfl, rfl⟩, rfl⟩ := h
      exact .inr ⟨.inr rfl, rfl, rfl, rfl⟩
    | some sigma =>
      refine .inl ⟨sigma, rfl, rfl, ?_⟩
      cases lg with
      | true =>
        simp only [Bool.not_false, if_true, bind_ok_iff, pure_apply,
          EStateM.Result.ok.injEq, Prod.mk.injEq] at h
        obtain ⟨o, s1, h1, ⟨rfl, rfl⟩, rfl⟩ := h
        exact ⟨rfl, noisyFlux_ok h1⟩
      | false =>
        simp only [Bool.not_false, if_true, bind_ok_iff, pure_apply, Bool.false_eq_true, if_false,
          EStateM.Result.ok.injEq, Prod.mk.injEq] at h
        obtain ⟨o, s1, h1, ⟨rfl, rfl⟩, rfl⟩ := h
        exact ⟨rfl, noisyFlux_ok h1⟩

theorem observeFlux_rng {e : SurveyEnv F G} {y : Synth F} {n : Nat} {fs : Option F} {lg : Bool}
    {fluxes obs : List F} {sg : F} {s s' : SurvSt F G}
    (h : observeFlux e y n fs lg fluxes s = .ok (obs, sg) s') :
    s' = { s with heap := { s.heap with rng := s'.heap.rng } } := by
  rcases observeFlux_ok h with ⟨_, _, _, _, _, h⟩ | ⟨_, _, _, rfl⟩
  · exact h
  · rfl

/-! ### Selections -/

/-- A completed `select` of selector `q`. -/
structure SelectRun (e : SurveyEnv F G) (q n : Nat) (s s' : SurvSt F G) : Prop where
  samplers : s'.heap.samplers = s.heap.samplers
  trace : s'.heap.trace = s.heap.trace
  others : ∀ r, r ≠ q → s'.heap.selectors r = s.heap.selectors r
  rest : s'.sp = s.sp ∧ s'.lum = s.lum ∧ s'.graph = s.graph
  mask : ∃ m, (s'.heap.selectors q).selection = some m
  sampled : (s'.heap.selectors q).isSampled = true
  drawn : (s.heap.selectors q).isSampled = false →
    ∃ t, selDraw e.world.sel e.world.half e.world.ninety e.world.showProgress n
        { sel := s.heap.selectors q, rng := s.heap.rng } = .ok () t ∧
      s'.heap.selectors q = { t.sel with isSampled := true }
  kept : (s.heap.selectors q).isSampled = true → s'.heap.selectors q = s.heap.selectors q

theorem selectOn_ok {e : SurveyEnv F G} {q n : Nat} {s s' : SurvSt F G}
    (h : selectOn e q n s = .ok () s') : SelectRun e q n s s' := by
  unfold selectOn at h
  obtain ⟨k1, k2⟩ := onHeap_ok h
  obtain ⟨t, k3, k4⟩ := withSelector_ok k1
  rw [selSelect_apply] at k3
  have hsel : s'.heap.selectors q = t.sel := by rw [k4]; simp [Heap.modSelector]
  have key : ∃ t0 m, (if (s.heap.selectors q).isSampled then
        (EStateM.Result.ok () { sel := s.heap.selectors q, rng := s.heap.rng } : EStateM.Result Err _ _)
      else selDraw e.world.sel e.world.half e.world.ninety e.world.showProgress n
        { sel := s.heap.selectors q, rng := s.heap.rng }) = .ok () t0 ∧
      t0.sel.selection = some m ∧ t = { t0 with sel := { t0.sel with isSampled := true } } := by
    revert k3
    generalize (if (s.heap.selectors q).isSampled then
        (EStateM.Result.ok () { sel := s.heap.selectors q, rng := s.heap.rng } : EStateM.Result Err _ _)
      else selDraw e.world.sel e.world.half e.world.ninety e.world.showProgress n
        { sel := s.heap.selectors q, rng := s.heap.rng }) = r
    intro k3
    cases r with
    | error e t => cases k3
    | ok u t0 =>
      simp only at k3
      cases hm : t0.sel.selection with
      | none => rw [hm] at k3; cases k3
      | some m =>
        rw [hm] at k3
        simp only [EStateM.Result.ok.injEq, true_and] at k3
        exact ⟨t0, m, rfl, hm, by rw [← k3, ← hm]⟩
  obtain ⟨t0, m, h0, hm, rfl⟩ := key
  refine ⟨by rw [k4]; rfl, by rw [k4]; rfl, ?_, ⟨by rw [k2], by rw [k2], by rw [k2]⟩, ⟨m, ?_⟩, ?_, ?_, ?_⟩
  · intro r hr; rw [k4]; simp [Heap.modSelector, hr]
  · rw [hsel]; exact hm
  · rw [hsel]
  · intro hs
    rw [hs] at h0
    simp only [Bool.false_eq_true, if_false] at h0
    exact ⟨t0, h0, hsel⟩
  · intro hs
    rw [hs] at h0
    simp only [if_true, EStateM.Result.ok.injEq] at h0
    obtain ⟨-, rfl⟩ := h0
    rw [hsel]
    simp only
    rw [← hs]

/-- The selector selects object `i`; a mask of length one counts for all objects. -/
def MaskSelects (c : Selector F G) (i : Nat) : Prop :=
  ∃ m, c.selection = some m ∧ bget m i = some true

theorem logicalAnd_get {a b c : List Bool} (h : logicalAnd a b = .ok c) {i : Nat} {z : Bool}
    (hz : bget c i = some z) :
    ∃ x w, bget a i = some x ∧ bget b i = some w ∧ z = (x && w) := by
  unfold logicalAnd at h
  split at h
  · rename_i hl
    cases h
    have hlen : (List.zipWith (· && ·) a b).length = a.length := by simp [hl]
    unfold bget at hz ⊢
    rw [hlen] at hz
    rw [← hl]
    split
    · rename_i h1
      rw [if_pos h1] at hz
      rw [List.getElem?_zipWith] at hz
      revert hz
      cases a[0]? <;> cases b[0]? <;> simp
      intro h; exact h.symm
    · rename_i h1
      rw [if_neg h1] at hz
      rw [List.getElem?_zipWith] at hz
      revert hz
      cases a[i]? <;> cases b[i]? <;> simp
      intro h; exact h.symm
  · rename_i hne
    split at h
    · rename_i h1
      cases h
      obtain ⟨x, rfl⟩ := List.length_eq_one_iff.1 h1
      have hb : b.length ≠ 1 := fun hb => hne (by rw [h1, hb])
      unfold bget at hz ⊢
      rw [if_neg (by simpa using hb)] at hz
      rw [if_neg hb, if_pos h1]
      rw [List.getElem?_map] at hz
      revert hz
      cases b[i]? <;> simp
      intro h; exact h.symm
    · split at h
      · rename_i h1 h2
        cases h
        obtain ⟨x, rfl⟩ := List.length_eq_one_iff.1 h2
        unfold bget at hz ⊢
        rw [if_neg (by simpa using h1)] at hz
        rw [if_neg h1, if_pos h2]
        rw [List.getElem?_map] at hz
        revert hz
        cases a[i]? <;> simp
        intro h; exact h.symm
      · cases h

theorem Selector.add_ok {a b c : Selector F G} (h : a.add b = .ok c) :
    ∃ ma mb m, a.selection = some ma ∧ b.selection = some mb ∧ logicalAnd ma mb = .ok m ∧
      c.selection = some m := by
  unfold Selector.add at h
  rw [except_bind_ok_iff] at h
  obtain ⟨mb, h1, h2⟩ := h
  unfold Selector.mask at h1
  cases hb : b.selection with
  | none => rw [hb] at h1; cases h1
  | some mb' =>
    rw [hb] at h1; cases h1
    cases ha : a.selection with
    | none => rw [ha] at h2; cases h2
    | some ma =>
      rw [ha] at h2
      simp only [except_bind_ok_iff] at h2
      obtain ⟨m, h3, h4⟩ := h2
      cases h4
      exact ⟨ma, _, m, rfl, rfl, h3, rfl⟩

/-- In a sum of selectors an object is selected iff both select it. -/
theorem Selector.add_selects {a b c : Selector F G} (h : a.add b = .ok c) {m : List Bool}
    (hm : c.selection = some m) {i : Nat} {z : Bool} (hz : bget m i = some z) :
    ∃ ma z0, a.selection = some ma ∧ bget ma i = some z0 ∧
      (z = true ↔ z0 = true ∧ MaskSelects b i) := by
  obtain ⟨ma, mb, m', h1, h2, h3, h4⟩ := Selector.add_ok h
  rw [hm] at h4; cases h4
  obtain ⟨x, w, hx, hw, rfl⟩ := logicalAnd_get h3 hz
  refine ⟨ma, x, h1, hx, ?_⟩
  constructor
  · intro hz'
    rw [Bool.and_eq_true] at hz'
    exact ⟨hz'.1, mb, h2, by rw [hw, hz'.2]⟩
  · rintro ⟨hx', mb', hb', hw'⟩
    rw [h2] at hb'; cases hb'
    rw [hw] at hw'; cases hw'
    rw [hx', Bool.and_self]

theorem applyAux_ok {e : SurveyEnv F G} {acc acc' : Selector F G × List F} {kv : String × SecC F}
    {s s' : SurvSt F G} (h : applyAux e acc kv s = .ok acc' s') :
    s' = s ∧ (((s.heap.selectors kv.2.selection).kind.isUnity = true ∧ acc' = acc) ∨
      ((s.heap.selectors kv.2.selection).kind.isUnity = false ∧
        inPlace e.mul acc.2 kv.2.prob = .ok acc'.2 ∧
        acc.1.add (s.heap.selectors kv.2.selection) = .ok acc'.1)) := by
  unfold applyAux at h
  rw [bind_apply, get_apply] at h
  simp only at h
  cases hu : (s.heap.selectors kv.2.selection).kind.isUnity with
  | true =>
    simp only [hu, if_true, pure_apply, EStateM.Result.ok.injEq] at h
    exact ⟨h.2.symm, .inl ⟨rfl, h.1.symm⟩⟩
  | false =>
    simp only [hu, Bool.false_eq_true, if_false, bind_ok_iff, liftE_ok_iff, pure_apply,
      EStateM.Result.ok.injEq] at h
    obtain ⟨p, _, ⟨h1, rfl⟩, c, _, ⟨h2, rfl⟩, rfl, rfl⟩ := h
    exact ⟨rfl, .inr ⟨rfl, h1, h2⟩⟩

/-- All auxiliary selections and probabilities. -/
theorem applyAux_fold {e : SurveyEnv F G} {xs : List (String × SecC F)}
    {acc acc' : Selector F G × List F} {s s' : SurvSt F G}
    (h : foldPy xs acc (applyAux e) s = .ok acc' s') :
    s' = s ∧ acc'.2.length = acc.2.length ∧
    (∀ m, acc'.1.selection = some m → ∀ i z, bget m i = some z →
      ∃ m0 z0, acc.1.selection = some m0 ∧ bget m0 i = some z0 ∧
        (z = true ↔ z0 = true ∧ ∀ kv ∈ xs, (s.heap.selectors kv.2.selection).kind.isUnity = false →
          MaskSelects (s.heap.selectors kv.2.selection) i)) ∧
    (∀ i p0, acc.2[i]? = some p0 → ∃ fs : List F,
      (xs.filter fun kv => !(s.heap.selectors kv.2.selection).kind.isUnity).map
        (fun kv => bget kv.2.prob i) = fs.map some ∧
      acc'.2[i]? = some (fs.foldl e.mul p0)) := by
  induction xs generalizing acc with
  | nil =>
    rw [foldPy_nil] at h; cases h
    refine ⟨rfl, rfl, ?_, ?_⟩
    · intro m hm i z hz; exact ⟨m, z, hm, hz, by simp⟩
    · intro i p0 hp; exact ⟨[], rfl, hp⟩
  | cons kv xs ih =>
    rw [foldPy_cons, bind_ok_iff] at h
    obtain ⟨b, s1, h1, h2⟩ := h
    obtain ⟨rfl, h3⟩ := applyAux_ok h1
    obtain ⟨rfl, i1, i2, i3⟩ := ih h2
    refine ⟨rfl, ?_⟩
    rcases h3 with ⟨hu, rfl⟩ | ⟨hu, hp, ha⟩
    · refine ⟨i1, ?_, ?_⟩
      · intro m hm i z hz
        obtain ⟨m0, z0, a1, a2, a3⟩ := i2 m hm i z hz
        refine ⟨m0, z0, a1, a2, a3.trans ?_⟩
        constructor
        · rintro ⟨b1, b2⟩
          refine ⟨b1, fun x hx hxu => ?_⟩
          rcases List.mem_cons.1 hx with rfl | hx
          · rw [hu] at hxu; cases hxu
          · exact b2 x hx hxu
        · rintro ⟨b1, b2⟩
          exact ⟨b1, fun x hx hxu => b2 x (List.mem_cons_of_mem _ hx) hxu⟩
      · intro i p0 hp0
        rw [List.filter_cons, hu]
        exact i3 i p0 hp0
    · have hl := inPlace_length hp
      refine ⟨i1.trans hl, ?_, ?_⟩
      · intro m hm i z hz
        obtain ⟨m1, z1, a1, a2, a3⟩ := i2 m hm i z hz
        obtain ⟨m0, z0, c1, c2, c3⟩ := Selector.add_selects ha a1 a2
        refine ⟨m0, z0, c1, c2, a3.trans ?_⟩
        constructor
        · rintro ⟨b1, b2⟩
          refine ⟨(c3.1 b1).1, fun x hx hxu => ?_⟩
          rcases List.mem_cons.1 hx with rfl | hx
          · exact (c3.1 b1).2
          · exact b2 x hx hxu
        · rintro ⟨b1, b2⟩
          exact ⟨c3.2 ⟨b1, b2 kv (by simp) hu⟩,
            fun x hx hxu => b2 x (List.mem_cons_of_mem _ hx) hxu⟩
      · intro i p0 hp0
        have hi : i < acc.2.length := by
          rw [List.getElem?_eq_some_iff] at hp0; exact hp0.1
        obtain ⟨x, z, b1, b2, b3⟩ := inPlace_get hp hi
        rw [hp0] at b1; cases b1
        obtain ⟨fs, d1, d2⟩ := i3 i _ b3
        refine ⟨z :: fs, ?_, d2⟩
        rw [List.filter_cons, hu]
        simp only [Bool.not_false, if_true, List.map_cons, b2, d1]

/-- The stages of `applySelections`. -/
structure SelRun (e : SurveyEnv F G) (y : Synth F) (n : Nat) (v : Spatial F) (fluxObs : List F)
    (loc : Loc F) (s : SurvSt F G) (glob : Selector F G) (prob : List F) (s' : SurvSt F G) where
  s2 : SurvSt F G
  auxSel : Selector F G
  glob1 : Selector F G
  glob2 : Selector F G
  fluxd : selectOn e y.fluxSel n { s with heap := s.heap.modSelector y.fluxSel fun c =>
    { c with data := { c.data with flux := some fluxObs } } } = .ok () s2
  auxed : foldPy loc.auxq ((drawnUnity "total auxiliary selection" n : Selector F G), loc.prob)
    (applyAux e) s2 = .ok (auxSel, prob) s2
  g1 : (drawnUnity "global" n).add auxSel = .ok glob1
  g2 : glob1.add (s2.heap.selectors y.fluxSel) = .ok glob2
  spat : applySpatial e y n v glob2 s2 = .ok glob s'

theorem applySelections_ok {e : SurveyEnv F G} {y : Synth F} {n : Nat} {v : Spatial F}
    {fluxObs : List F} {loc : Loc F} {s s' : SurvSt F G} {glob : Selector F G} {prob : List F}
    (h : applySelections e y n v fluxObs loc s = .ok (glob, prob) s') :
    Nonempty (SelRun e y n v fluxObs loc s glob prob s') := by
  unfold applySelections at h
  simp only [bind_ok_iff, get_apply, EStateM.Result.ok.injEq, pure_apply, liftE_ok_iff] at h
  obtain ⟨_, s1, h1, _, s2, h2, ⟨auxSel, p⟩, s3, h3, g1, _, ⟨h4, rfl⟩, _, _, ⟨rfl, rfl⟩, g2, _, ⟨h5, rfl⟩,
    g3, s4, h6, h7, rfl⟩ := h
  cases h7
  have e1 : s1 = { s with heap := s.heap.modSelector y.fluxSel fun c =>
    { c with data := { c.data with flux := some fluxObs } } } := by
    obtain ⟨k1, k2⟩ := onHeap_ok h1
    rw [modify_apply] at k1
    simp only [EStateM.Result.ok.injEq, true_and] at k1
    rw [k2, ← k1]
  have e3 := (applyAux_fold h3).1
  subst e1; subst e3
  exact ⟨⟨_, auxSel, g1, g2, h2, h3, h4, h5, h6⟩⟩

theorem applySpatial_ok {e : SurveyEnv F G} {y : Synth F} {n : Nat} {v : Spatial F}
    {s s' : SurvSt F G} {glob glob' : Selector F G}
    (h : applySpatial e y n v glob s = .ok glob' s') :
    (y.spatSel = none ∧ glob' = glob ∧ s' = s) ∨
    (∃ q, y.spatSel = some q ∧ (s.heap.selectors q).kind.isSpatial = true ∧
      selectOn e q n { s with heap := s.heap.modSelector q fun c => { c with data := { c.data with
        spatial := some { distances := v.distance, galB := e.spatial.galB v.theta v.phi } } } }
        = .ok () s' ∧
      glob.add (s'.heap.selectors q) = .ok glob') := by
  unfold applySpatial at h
  cases hq : y.spatSel with
  | none => rw [hq] at h; cases h; exact .inl ⟨rfl, rfl, rfl⟩
  | some q =>
    rw [hq] at h
    simp only [bind_apply, get_apply] at h
    cases hs : (s.heap.selectors q).kind.isSpatial with
    | false => rw [hs] at h; cases h
    | true =>
      rw [hs, if_pos rfl] at h
      refine .inr ⟨q, rfl, hs, ?_⟩
      have h' := h
      rw [bind_ok_iff] at h'
      obtain ⟨_, s1, h1, h2⟩ := h'
      rw [bind_ok_iff] at h2
      obtain ⟨_, s2, h2, h3⟩ := h2
      rw [bind_ok_iff] at h3
      obtain ⟨_, _, h4, h3⟩ := h3
      rw [get_apply] at h4; cases h4
      rw [liftE_ok_iff] at h3
      obtain ⟨h3, rfl⟩ := h3
      obtain ⟨k1, k2⟩ := onHeap_ok h1
      rw [modify_apply] at k1
      simp only [EStateM.Result.ok.injEq, true_and] at k1
      rw [← k1] at k2
      rw [k2] at h2
      exact ⟨h2, h3⟩

end

end Popsynth
