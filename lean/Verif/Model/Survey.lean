import Verif.Model.Distance
import Verif.Model.Population

/-!
# `popsynth/population_synth.py`: `PopulationSynth.draw_survey`, `clean`,
`add_observed_quantity`, the selector setters and `add_model_space`

The state is everything the survey mutates: the heap of samplers and selectors (with
the random state), the spatial and the luminosity distribution, and the graph object of
the synth.  The configuration (`Synth`) is changed only by the user-facing setters.
-/

set_option autoImplicit false

namespace Popsynth

/-- Mutable state of a population synth and everything attached to it. -/
structure SurvSt (F G : Type) where
  heap : Heap F G
  sp : Spat F
  lum : Lum F
  graph : Graph

/-- The methods of the spatial distribution used by `draw_survey`. -/
structure SpatialCode (F G : Type) where
  /-- the Poisson mean, 976-1025 (`expectedCount` for the base class) -/
  count : Bool → Py (Obj F) F
  /-- `draw_distance(size, normalize)` -/
  drawDistance : Nat → Bool → Py (SpSt F G) Unit
  /-- `draw_sky_positions(size)` -/
  drawSky : Nat → Py (SpSt F G) Unit
  /-- `transform(luminosity, distance)` -/
  transform : List F → List F → Except Err (List F)
  /-- galactic latitudes computed from the sky positions (astropy) -/
  galB : List F → List F → List F
  /-- `self.r_max` -/
  readRMax : Py (Obj F) F

/-- Everything external to the state: primitives and the classes of the attached
objects. -/
structure SurveyEnv (F G : Type) where
  world : World F G
  spatial : SpatialCode F G
  lum : LumCode F G
  /-- `np.random.seed(seed)`; `ValueError` for seeds out of range -/
  seed : Int → G → Except Err G
  /-- `np.random.poisson(N)` -/
  poisson : F → G → Except Err Nat × G
  /-- one `np.random.normal(0, sigma)` -/
  normal : F → G → F × G
  /-- scale accepted by `np.random.normal` -/
  validScale : F → Bool
  mul : F → F → F
  add : F → F → F
  log10 : F → F
  pow10 : F → F
  ln : F → F
  exp : F → F
  isFinite : F → Bool
  minusOne : F
  /-- Python stack frames available for recursive sampler methods -/
  frames : Nat
  /-- `self.to_dict()` -/
  toDict : Synth F → SurvSt F G → Except Err (PVal F)

variable {F G : Type}

/-- The base class methods for a given density (`Verif/Model/Distance.lean`). -/
def SpatialCode.base [OfNat F 0] [OfNat F 1] (env : DistEnv F G) (code : DensityCode F)
    (showProgress : Bool) (transform : List F → List F → Except Err (List F))
    (galB : List F → List F → List F) : SpatialCode F G where
  count := expectedCount env code
  drawDistance := Popsynth.drawDistance env code showProgress
  drawSky := Popsynth.drawSky env
  transform := transform
  galB := galB
  readRMax := Popsynth.readRMax env

/-! ### Plumbing -/

/-- A loop that updates local variables `b`. -/
def foldPy {σ α β : Type} : List α → β → (β → α → Py σ β) → Py σ β
  | [], b, _ => pure b
  | x :: xs, b, f => do
    let b ← f b x
    foldPy xs b f

/-- Run something on the sampler heap. -/
def onHeap {α : Type} (m : Py (Heap F G) α) : Py (SurvSt F G) α := fun s =>
  match m s.heap with
  | .ok a h => .ok a { s with heap := h }
  | .error e h => .error e { s with heap := h }

/-- Run a method of the spatial distribution (it shares numpy's random state). -/
def onSpatial {α : Type} (m : Py (SpSt F G) α) : Py (SurvSt F G) α := fun s =>
  match m { sp := s.sp, rng := s.heap.rng } with
  | .ok a t => .ok a { s with sp := t.sp, heap := { s.heap with rng := t.rng } }
  | .error e t => .error e { s with sp := t.sp, heap := { s.heap with rng := t.rng } }

/-- Run a method of the luminosity distribution. -/
def onLum {α : Type} (m : Py (LumSt F G) α) : Py (SurvSt F G) α := fun s =>
  match m { lum := s.lum, rng := s.heap.rng } with
  | .ok a t => .ok a { s with lum := t.lum, heap := { s.heap with rng := t.rng } }
  | .error e t => .error e { s with lum := t.lum, heap := { s.heap with rng := t.rng } }

/-- Run something on the graph of the synth. -/
def onGraph {α : Type} (m : Py Graph α) : Py (SurvSt F G) α := fun s =>
  match m s.graph with
  | .ok a g => .ok a { s with graph := g }
  | .error e g => .error e { s with graph := g }

/-- A random primitive of numpy. -/
def onRng {α : Type} (f : G → Except Err α × G) : Py (SurvSt F G) α := fun s =>
  match f s.heap.rng with
  | (.ok a, g) => .ok a { s with heap := { s.heap with rng := g } }
  | (.error e, g) => .error e { s with heap := { s.heap with rng := g } }

/-- `np.random.normal(loc=0, scale=sigma, size=n)`. -/
def normalMany (e : SurveyEnv F G) (sigma : F) : Nat → G → List F × G
  | 0, g => ([], g)
  | n + 1, g =>
    let (x, g1) := e.normal sigma g
    let (xs, g2) := normalMany e sigma n g1
    (x :: xs, g2)

/-- numpy broadcasting of a binary operation on 1-d arrays. -/
def bcast {α β γ : Type} (f : α → β → γ) (a : List α) (b : List β) : Except Err (List γ) :=
  if a.length = b.length then .ok (List.zipWith f a b)
  else match a, b with
    | [x], _ => .ok (b.map fun y => f x y)
    | _, [y] => .ok (a.map fun x => f x y)
    | _, _ => .error .value

/-- `a *= b` in place: the shape of `a` is kept. -/
def inPlace {α : Type} (f : α → α → α) (a b : List α) : Except Err (List α) :=
  if a.length = b.length then .ok (List.zipWith f a b)
  else match b with
    | [y] => .ok (a.map fun x => f x y)
    | _ => .error .value

/-- The selected entries of an array. -/
def pick {α : Type} : List α → List Bool → List α
  | a :: as, b :: bs => if b then a :: pick as bs else pick as bs
  | _, _ => []

/-- `a[mask]`: `IndexError` if the lengths differ. -/
def maskIndex {α : Type} (a : List α) (m : List Bool) : Except Err (List α) :=
  if a.length = m.length then .ok (pick a m) else .error .index

/-! ### `draw_survey` -/

/-- Local variables of `draw_survey` that loops update. -/
structure Loc (F : Type) where
  truth : Dict (Dict F)
  auxq : Storage F
  prob : List F

/-- `self._spatial_distribution.spatial_values` after positions were drawn.  If user
code left a position unset, Python fails later with `TypeError` (`len(None)`); the
model fails here. -/
def spatialValues : Py (SurvSt F G) (Spatial F) := fun s =>
  match s.sp.distances, s.sp.theta, s.sp.phi with
  | some d, some t, some p => .ok { distance := d, theta := t, phi := p } s
  | none, _, _ => .error .attribute s
  | _, _, _ => .error .type s

/-- Lines 973-1034: the number of objects. -/
def countObjects (e : SurveyEnv F G) (nSamples : Option Nat) (normalize : Bool) :
    Py (SurvSt F G) Nat :=
  match nSamples with
  | some n => pure n
  | none => do
    let N ← onSpatial (onParams (e.spatial.count normalize))
    onRng (e.poisson N)

/-- `probability *= p` where `p` may be `None` (`TypeError`). -/
def mulProb (e : SurveyEnv F G) (prob : List F) (p : Option (List F)) :
    Except Err (List F) := do
  let p ← optArray p
  inPlace e.mul prob p

/-- `truth[sampler.name] = sampler.truth` for the direct secondaries of `i`. -/
def secTruths (h : Heap F G) (i : Nat) (truth : Dict (Dict F)) : Dict (Dict F) :=
  (h.samplers i).secondaries.foldl
    (fun t p => Dict.set t (h.samplers p.2).name (truthOf (h.samplers p.2).params)) truth

section
variable [LE F] [DecidableLE F] [OfNat F 0] [OfNat F 1]

/-- Lines 1036-1048: distances, their probability, sky positions. -/
def drawPositions (e : SurveyEnv F G) (n : Nat) (normalize : Bool) :
    Py (SurvSt F G) (Spatial F × List F) := do
  onSpatial (e.spatial.drawDistance n normalize)
  let s ← get
  let prob ← liftE (mulProb e (List.replicate n 1) s.sp.probability)
  onSpatial (e.spatial.drawSky n)
  let v ← spatialValues
  pure (v, prob)

/-- Lines 1083-1159: luminosities from the derived sampler `d`. -/
def derivedLuminosity (e : SurveyEnv F G) (n : Nat) (v : Spatial F) (d : Nat) (loc : Loc F) :
    Py (SurvSt F G) (List F × Loc F) := do
  onHeap (setSpatialValues d v)
  onHeap (samplerDraw e.world e.frames d n)
  let s ← get
  let h := s.heap
  pyAssert (lenIs (h.samplers d).trueVals n)
  pyAssert (lenIs (h.samplers d).obsVals n)
  let own : SecC F :=
    { name := (h.samplers d).name, trueVals := (h.samplers d).trueVals,
      obsVals := (h.samplers d).obsVals, selection := (h.samplers d).selector,
      prob := (h.samplers d).probability }
  let auxq : Storage F := Dict.set loc.auxq own.name own
  let lums ← liftE ((e.world.code d).luminosity (h.view d))
  let truth := Dict.set loc.truth (h.samplers d).name (truthOf (h.samplers d).params)
  let auxq ← liftE ((h.samplers d).secondaries.foldlM
    (fun acc p => do
      let r ← secProps h e.frames p.2
      pure (Storage.add acc r)) auxq)
  pure (lums, { loc with auxq := auxq, truth := secTruths h d truth })

omit [LE F] [DecidableLE F] [OfNat F 0] [OfNat F 1] in
/-- Lines 1163-1174: luminosities from the luminosity distribution. -/
def distLuminosity (e : SurveyEnv F G) (n : Nat) (name : String) (loc : Loc F) :
    Py (SurvSt F G) (List F × Loc F) := do
  let lums ← onLum (e.lum.draw n)
  onLum (computeLumProbability e.lum lums)
  let s ← get
  let prob ← liftE (mulProb e loc.prob s.lum.probability)
  pure (lums, { loc with prob := prob, truth := Dict.set loc.truth name (truthOf s.lum.params) })

/-- Lines 1073-1174: the luminosities. -/
def drawLuminosities (e : SurveyEnv F G) (y : Synth F) (n : Nat) (v : Spatial F) (loc : Loc F) :
    Py (SurvSt F G) (List F × Loc F) :=
  match y.derived, y.lumName with
  | some d, _ => derivedLuminosity e n v d loc
  | none, some name => distLuminosity e n name loc
  | none, none => raise .runtime

omit [LE F] [DecidableLE F] [OfNat F 0] [OfNat F 1] in
/-- Lines 1194-1210: hand luminosities and positions to an attached sampler and its
direct secondaries. -/
def prepareAux (lums : List F) (v : Spatial F) (i : Nat) : Py (Heap F G) Unit := do
  setLuminosity i lums
  setSpatialValues i v
  let h ← get
  forEach (h.samplers i).secondaries fun p => do
    let h ← get
    if (h.samplers p.2).usesLuminosity then setLuminosity p.2 lums
    if (h.samplers p.2).usesDistance then setSpatialValues p.2 v

/-- Lines 1184-1233: one attached sampler. -/
def auxStep (e : SurveyEnv F G) (n : Nat) (lums : List F) (v : Spatial F) (loc : Loc F)
    (kv : String × Nat) : Py (SurvSt F G) (Loc F) := do
  let s ← get
  pyAssert (!(s.heap.samplers kv.2).isSecondary)
  onHeap (prepareAux lums v kv.2)
  onHeap (samplerDraw e.world e.frames kv.2 n)
  let s ← get
  let h := s.heap
  pyAssert (lenIs (h.samplers kv.2).trueVals n)
  pyAssert (lenIs (h.samplers kv.2).obsVals n)
  let r ← liftE (secProps h e.frames kv.2)
  pure { loc with
    auxq := Storage.add loc.auxq r
    truth := secTruths h kv.2
      (Dict.set loc.truth (h.samplers kv.2).name (truthOf (h.samplers kv.2).params)) }

omit [LE F] [DecidableLE F] [OfNat F 0] [OfNat F 1] in
/-- `draw_log10_fobs` / `draw_log_fobs` and back, 914-936, 1246-1265. -/
def noisyFlux (e : SurveyEnv F G) (n : Nat) (sigma : F) (fwd bwd : F → F) (fluxes : List F) :
    Py (SurvSt F G) (List F) := do
  if !e.validScale sigma then raise .value
  let xs ← onRng fun g => let r := normalMany e sigma n g; (.ok r.1, r.2)
  let l ← liftE (bcast e.add (fluxes.map fwd) xs)
  pyAssert (l.all e.isFinite)
  pure (l.map bwd)

omit [LE F] [DecidableLE F] [OfNat F 0] [OfNat F 1] in
/-- Lines 1240-1281: observed fluxes, and the `flux_sigma` recorded. -/
def observeFlux (e : SurveyEnv F G) (y : Synth F) (n : Nat) (fluxSigma : Option F)
    (log10Draw : Bool) (fluxes : List F) : Py (SurvSt F G) (List F × F) := do
  let s ← get
  if !(s.heap.selectors y.fluxSel).kind.isUnity then
    match fluxSigma with
    | some sigma => do
      let o ← if log10Draw then noisyFlux e n sigma e.log10 e.pow10 fluxes
        else noisyFlux e n sigma e.ln e.exp fluxes
      pure (o, sigma)
    | none => pure (fluxes, e.minusOne)
  else pure (fluxes, e.minusOne)

/-- `selector.select(n)` on the heap. -/
def selectOn (e : SurveyEnv F G) (q n : Nat) : Py (SurvSt F G) Unit :=
  onHeap (withSelector q
    (selSelect e.world.sel e.world.half e.world.ninety e.world.showProgress n))

omit [LE F] [DecidableLE F] [OfNat F 0] [OfNat F 1] in
/-- A `UnitySelection` on which `select(n)` was called, 1057-1066. -/
def drawnUnity (name : String) (n : Nat) : Selector F G :=
  { kind := .unity, cls := "UnitySelection", name := name,
    selection := some (List.replicate n true), isSampled := true }

omit [LE F] [DecidableLE F] [OfNat F 0] [OfNat F 1] in
/-- Lines 1295-1317: selection and probability of one auxiliary quantity; selections
that are `UnitySelection`s are skipped together with the probability. -/
def applyAux (e : SurveyEnv F G) (acc : Selector F G × List F) (kv : String × SecC F) :
    Py (SurvSt F G) (Selector F G × List F) := do
  let s ← get
  let q := s.heap.selectors kv.2.selection
  if q.kind.isUnity then pure acc
  else do
    let prob ← liftE (inPlace e.mul acc.2 kv.2.prob)
    let sel ← liftE (acc.1.add q)
    pure (sel, prob)

/-- Lines 1330-1342: the spatial selector.  Only `SpatialSelection`s have
`set_spatial_distribution`. -/
def applySpatial (e : SurveyEnv F G) (y : Synth F) (n : Nat) (v : Spatial F)
    (glob : Selector F G) : Py (SurvSt F G) (Selector F G) :=
  match y.spatSel with
  | none => pure glob
  | some q => do
    let s ← get
    if (s.heap.selectors q).kind.isSpatial then do
      onHeap (modify fun h => h.modSelector q fun c => { c with data := { c.data with
        spatial := some { distances := v.distance, galB := e.spatial.galB v.theta v.phi } } })
      selectOn e q n
      let s ← get
      liftE (glob.add (s.heap.selectors q))
    else raise .attribute

omit [OfNat F 0] [OfNat F 1] [LE F] [DecidableLE F] in
/-- `max(known_distances)` in the log message of line 1361: `ValueError` when empty. -/
def logFarthest (glob : Selector F G) (known : List F) : Except Err Unit := do
  let m ← glob.mask
  if countTrue m > 0 ∧ known = [] then throw .value
  pure ()

/-- Lines 1286-1342: all selections; returns the global selection and the final
probability. -/
def applySelections (e : SurveyEnv F G) (y : Synth F) (n : Nat) (v : Spatial F)
    (fluxObs : List F) (loc : Loc F) : Py (SurvSt F G) (Selector F G × List F) := do
  onHeap (modify fun h => h.modSelector y.fluxSel fun c =>
    { c with data := { c.data with flux := some fluxObs } })
  selectOn e y.fluxSel n
  let (auxSel, prob) ← foldPy loc.auxq
    ((drawnUnity "total auxiliary selection" n : Selector F G), loc.prob) (applyAux e)
  let glob ← liftE ((drawnUnity "global" n).add auxSel)
  let s ← get
  let glob ← liftE (glob.add (s.heap.selectors y.fluxSel))
  let glob ← applySpatial e y n v glob
  pure (glob, prob)

/-- Arguments of `draw_survey`. -/
structure SurveyArgs (F : Type) where
  fluxSigma : Option F := none
  log10Draw : Bool := true
  nSamples : Option Nat := none
  normalize : Bool := false

/-- What is known when all random numbers have been drawn. -/
structure Drawn (F G : Type) where
  n : Nat
  pos : Spatial F
  lums : List F
  loc : Loc F
  fluxes : List F
  fluxObs : List F
  sigma : F
  glob : Selector F G
  prob : List F

/-- Lines 961-1342. -/
def drawAll (e : SurveyEnv F G) (y : Synth F) (a : SurveyArgs F) : Py (SurvSt F G) (Drawn F G) := do
  let s ← get
  let truth : Dict (Dict F) := [(y.spatialName, truthOf s.sp.params)]
  onRng fun g => match e.seed y.seed g with
    | .ok g' => (.ok (), g')
    | .error err => (.error err, g)
  let n ← countObjects e a.nSamples a.normalize
  let (v, prob) ← drawPositions e n a.normalize
  let (lums, loc) ← drawLuminosities e y n v { truth, auxq := [], prob }
  let fluxes ← liftE (e.spatial.transform lums v.distance)
  let loc ← foldPy y.aux loc (auxStep e n lums v)
  let (fluxObs, sigma) ← observeFlux e y n a.fluxSigma a.log10Draw fluxes
  let (glob, prob) ← applySelections e y n v fluxObs loc
  pure { n, pos := v, lums, loc, fluxes, fluxObs, sigma, glob, prob }

/-- Lines 1344-1405: known distances and the population object. -/
def buildPopulation (e : SurveyEnv F G) (y : Synth F) (d : Drawn F G) :
    Py (SurvSt F G) (Population F) := do
  let gm ← liftE d.glob.mask
  selectOn e y.distSel (countTrue gm)
  let s ← get
  let dm ← liftE (s.heap.selectors y.distSel).mask
  let sel ← liftE (maskIndex d.pos.distance gm)
  let known ← liftE (maskIndex sel dm)
  liftE (logFarthest d.glob known)
  let rMax ← onSpatial (onParams e.spatial.readRMax)
  onGraph (buildGraph e.frames y s.heap)
  let s ← get
  let ps ← liftE (e.toDict y s)
  liftE (mkPopulation
    { luminosities := d.lums, distances := d.pos.distance, knownDistances := known
      knownIdx := selectionIndex dm, unknownIdx := nonSelectionIndex dm
      fluxes := d.fluxes, fluxObs := d.fluxObs, selection := gm, fluxSigma := d.sigma
      rMax, nModel := y.nModel, lfParams := y.lumName.map fun _ => .shared
      spatialParams := some .shared, spacesNow := y.modelSpaces, modelSpaces := some .shared
      seed := y.seed, name := y.name, aux := some d.loc.auxq, truth := d.loc.truth
      graph := some .shared, theta := d.pos.theta, phi := d.pos.phi, popSynth := some ps
      probability := some d.prob, spatialForm := some y.spatialForm
      lfForm := y.lumName.map fun _ => y.lumForm })

/-- `draw_survey`, population_synth.py:938-1405. -/
def drawSurvey (e : SurveyEnv F G) (y : Synth F) (a : SurveyArgs F) :
    Py (SurvSt F G) (Population F) := do
  let d ← drawAll e y a
  buildPopulation e y d

end

/-! ### Setting up and cleaning -/

/-- What kind of sampler object the user passes to `add_observed_quantity`. -/
inductive Quantity where
  | derived (i : Nat)
  | sampler (i : Nat)
  | other

/-- `add_observed_quantity`, 805-855. -/
def addQuantity (h : Heap F G) (q : Quantity) : Py (Synth F) Unit :=
  match q with
  | .derived i => modify fun y => { y with derived := some i }
  | .sampler i => do
    if (h.samplers i).isSecondary then raise .runtime
    let y ← get
    if Dict.has y.aux (h.samplers i).name then raise .runtime
    modify fun y => { y with aux := Dict.set y.aux (h.samplers i).name i }
  | .other => raise .runtime

/-- What the user passes where a selection is expected: a `SelectionProbability` or
anything else. -/
inductive SelArg where
  | selection (q : Nat)
  | other

/-- `set_flux_selection`, 875-890. -/
def setFluxSelection : SelArg → Py (Synth F) Unit
  | .selection q => modify fun y => { y with fluxSel := q, fluxSelSet := true }
  | .other => raise .runtime

/-- `set_distance_selection`, 857-873. -/
def setDistanceSelection : SelArg → Py (Synth F) Unit
  | .selection q => modify fun y => { y with distSel := q, distSelSet := true }
  | .other => raise .runtime

/-- `add_spatial_selector`, 892-908. -/
def addSpatialSelector : SelArg → Py (Synth F) Unit
  | .selection q => modify fun y => { y with spatSel := some q }
  | .other => raise .runtime

/-- `add_model_space`, 774-790; `grid start stop log n` is `np.logspace`/`np.linspace`. -/
def addModelSpace (grid : F → F → Bool → Nat → List F) (name : String) (start stop : F)
    (log : Bool) : Py (Synth F) Unit :=
  modify fun y => { y with modelSpaces := Dict.set y.modelSpaces name (grid start stop log y.nModel) }

/-- Reset the derived luminosity sampler, if there is one, 148-150. -/
def resetDerived (frames : Nat) : Option Nat → Py (Heap F G) Unit
  | some d => samplerReset frames d
  | none => pure ()

/-- Reset the spatial selector, if there is one, 180-182. -/
def resetSpatSel : Option Nat → Py (Heap F G) Unit
  | some q => modify fun h => h.modSelector q Selector.reset
  | none => pure ()

/-- The `reset=True` part of `clean`, 136-140, 146-150, 162-164, 170-172, 178-182. -/
def resetAll (frames : Nat) (y : Synth F) : Py (Heap F G) Unit := do
  forEach y.aux fun p => samplerReset frames p.2
  resetDerived frames y.derived
  modify fun h => (h.modSelector y.fluxSel Selector.reset).modSelector y.distSel Selector.reset
  resetSpatSel y.spatSel

/-- `clean(reset)`, 127-184: the new configuration refers to new unity selectors, which
get the unused ids `q1`, `q2`. -/
def clean (frames : Nat) (y : Synth F) (reset : Bool) (q1 q2 : Nat) : Py (Heap F G) (Synth F) := do
  if reset then resetAll frames y
  modify fun h => (h.modSelector q1 fun _ =>
      { kind := .unity, cls := "UnitySelection", name := "unity flux selector" }).modSelector q2
    fun _ => { kind := .unity, cls := "UnitySelection", name := "unity distance selector" }
  pure { y with aux := [], derived := none, distSelSet := false, fluxSelSet := false,
                fluxSel := q1, distSel := q2, spatSel := none }

end Popsynth
