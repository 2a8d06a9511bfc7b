import Verif.Model.Graph

/-!
# `popsynth/population.py`: `Population.__init__`, and
`SimulatedVariable.__new__` (simulated_variable.py:29-61)
-/

set_option autoImplicit false

namespace Popsynth

/-- Plain Python data as it appears in dictionaries: `None`, booleans, integers,
floats, strings, bytes, numeric arrays, lists, dictionaries; `other` is any other object
(tuples, sets, …). -/
inductive PVal (F : Type) where
  | none
  | other
  | bytes (b : List UInt8)
  | bool (b : Bool)
  | int (i : Int)
  | num (v : F)
  | str (s : String)
  | arr (l : List F)
  | list (l : List (PVal F))
  | dict (d : List (String × PVal F))

/-- A `SimulatedVariable`: observed values, latent values, selection. -/
structure SimVar (F : Type) where
  obs : List F
  latent : List F
  selection : List Bool
  deriving DecidableEq

variable {F G : Type}

/-- `SimulatedVariable.__new__`, simulated_variable.py:29-61. -/
def mkSimVar (obs latent : List F) (selection : List Bool) : Except Err (SimVar F) :=
  if selection.length ≠ obs.length then .error .assertion
  else if latent.length ≠ obs.length then .error .assertion
  else .ok { obs, latent, selection }

/-- A mutable object held by the population: its own, or the very object of the
population synth (Python reference). -/
inductive Ref (α : Type) where
  | own (v : α)
  | shared

/-- What a reference reads when the object of the synth is now `now`. -/
def Ref.get {α : Type} (now : α) : Ref α → α
  | .own v => v
  | .shared => now

/-- Arguments of `Population.__init__`, population.py:34-60. -/
structure PopArgs (F : Type) where
  luminosities : List F
  distances : List F
  knownDistances : List F
  knownIdx : List Nat
  unknownIdx : List Nat
  fluxes : List F
  fluxObs : List F
  selection : List Bool
  fluxSigma : F
  rMax : F
  nModel : Nat
  lfParams : Option (Ref (Dict (Option F)))
  spatialParams : Option (Ref (Dict (Option F)))
  /-- the model spaces as they are now (checked) and the reference stored -/
  spacesNow : Dict (List F)
  modelSpaces : Option (Ref (Dict (List F)))
  seed : Int
  name : String
  aux : Option (Storage F)
  truth : Dict (Dict F)
  graph : Option (Ref Graph)
  theta : List F
  phi : List F
  popSynth : Option (PVal F)
  probability : Option (List F)
  spatialForm : Option String := none
  lfForm : Option String := none

/-- A `Population` object, population.py:110-209. -/
structure Population (F : Type) where
  luminosities : SimVar F
  distances : SimVar F
  knownDistances : List F
  knownIdx : List Nat
  unknownIdx : List Nat
  theta : SimVar F
  phi : SimVar F
  fluxes : SimVar F
  selection : List Bool
  fluxSigma : F
  rMax : F
  seed : Int
  nModel : Nat
  name : String
  lfParams : Option (Ref (Dict (Option F)))
  spatialParams : Option (Ref (Dict (Option F)))
  modelSpaces : Option (Ref (Dict (List F)))
  truth : Dict (Dict F)
  graph : Option (Ref Graph)
  nObjects : Nat
  nDetections : Nat
  nNonDetections : Nat
  popSynth : Option (PVal F)
  probability : Option (SimVar F)
  noDetection : Bool
  /-- attributes created for the auxiliary quantities (192-203) -/
  attrs : Dict (SimVar F)
  protectedNames : List String
  auxiliary : Option (Storage F)
  spatialForm : Option String
  lfForm : Option String

/-- Read-only properties of the class, population.py:224-503: assigning an attribute
with such a name raises `AttributeError`. -/
def readOnlyNames : List String :=
  ["graph", "probability", "pop_synth", "truth", "flux_sigma", "theta", "phi", "dec", "ra",
   "luminosities", "luminosities_latent", "distances", "known_distances", "selection",
   "fluxes", "fluxes_latent", "fluxes_observed", "selected_fluxes_observed",
   "selected_fluxes_latent", "selected_distances", "hidden_fluxes_observed",
   "hidden_distances", "hidden_fluxes_latent", "hard_cut", "distance_probability",
   "luminosity_parameters", "n_objects", "n_detections", "n_non_detections",
   "has_detections", "spatial_parameters"]

/-- `len(x)` where `x` may be `None`. -/
def optArray : Option (List F) → Except Err (List F)
  | some l => .ok l
  | none => .error .type

/-- `__setattr__`, population.py:211-222, for the attributes users and the constructor
create.  (Assigning internal names with a leading underscore is not modelled.) -/
def setAttr (readOnly protectedNames : List String) (attrs : Dict (SimVar F)) (k : String)
    (v : SimVar F) : Except Err (Dict (SimVar F)) :=
  if k ∈ protectedNames then .error .attribute
  else if k ∈ readOnly then .error .attribute
  else .ok (Dict.set attrs k v)

/-- The loop over the auxiliary quantities, population.py:190-203. -/
def addAttrs (selection : List Bool) :
    Storage F → Dict (SimVar F) → List String → Except Err (Dict (SimVar F) × List String)
  | [], attrs, prot => .ok (attrs, prot)
  | (k, v) :: rest, attrs, prot => do
    let o ← optArray v.obsVals
    let t ← optArray v.trueVals
    let x ← mkSimVar o t selection
    let attrs ← setAttr readOnlyNames prot attrs k x
    addAttrs selection rest attrs (prot ++ [k])

/-- The probability, population.py:183-188. -/
def optSimVar (p : Option (List F)) (selection : List Bool) : Except Err (Option (SimVar F)) :=
  match p with
  | none => .ok none
  | some p => do
    let v ← mkSimVar p p selection
    pure (some v)

/-- Attributes for the auxiliary quantities, population.py:190-203. -/
def auxAttrs (selection : List Bool) (aux : Option (Storage F)) :
    Except Err (Dict (SimVar F) × List String) :=
  match aux with
  | none => .ok ([], [])
  | some q => addAttrs selection q [] []

/-- `assert b` in a pure part. -/
def excAssert (b : Bool) : Except Err Unit := if b then .ok () else .error .assertion

/-- `Population.__init__`, population.py:110-209. -/
def mkPopulation (a : PopArgs F) : Except Err (Population F) := do
  let luminosities ← mkSimVar a.luminosities a.luminosities a.selection
  let distances ← mkSimVar a.distances a.distances a.selection
  let theta ← mkSimVar a.theta a.theta a.selection
  let phi ← mkSimVar a.phi a.phi a.selection
  excAssert (a.knownDistances.length + a.unknownIdx.length == countTrue a.selection)
  let fluxes ← mkSimVar a.fluxObs a.fluxes a.selection
  let nObjects := a.selection.length
  let nDetections := countTrue a.selection
  let probability ← optSimVar a.probability a.selection
  let (attrs, prot) ← auxAttrs a.selection a.aux
  excAssert (!(a.modelSpaces.isSome && a.spacesNow.any (fun p => p.2.length != a.nModel)))
  pure {
    luminosities, distances, theta, phi, fluxes, probability, attrs
    knownDistances := a.knownDistances, knownIdx := a.knownIdx, unknownIdx := a.unknownIdx
    selection := a.selection, fluxSigma := a.fluxSigma, rMax := a.rMax, seed := a.seed
    nModel := a.nModel, name := a.name, lfParams := a.lfParams, spatialParams := a.spatialParams
    modelSpaces := a.modelSpaces, truth := a.truth, graph := a.graph
    nObjects, nDetections, nNonDetections := nObjects - nDetections
    popSynth := a.popSynth, noDetection := nDetections = 0
    protectedNames := prot, auxiliary := a.aux
    spatialForm := a.spatialForm, lfForm := a.lfForm }

/-- `population.py:477-483` (`has_detections`). -/
def Population.hasDetections (P : Population F) : Bool := !P.noDetection

end Popsynth
