import Verif.Model.Config
import Verif.Model.Survey

/-!
# From a configuration to objects in memory, and back

`Verif/Model/Config.lean` treats a synth as a tree of values (what `to_dict` reads and
`from_dict` builds), `Verif/Model/Survey.lean` as objects in a heap (what `draw_survey` works
on).  Here: which objects in a heap make up a given configuration, and `to_dict` read off the
heap.
-/

set_option autoImplicit false

namespace Popsynth

variable {F G : Type}

/-! ### `to_dict` of objects in a heap -/

/-- The selector at address `q`: its class and parameters. -/
def selAt (h : Heap F G) (q : Nat) : CSel F :=
  { cls := (h.selectors q).cls, obj := (h.selectors q).params }

/-- The entry of the sampler at address `i`, population_synth.py:279-295 and
auxiliary_sampler.py:528-547. -/
def entryAt (h : Heap F G) (i : Nat) (type : String) : PVal F :=
  let s := h.samplers i
  entryOf { cls := s.cls, name := s.name, obsName := s.obsName, observed := .bool s.isObserved
            obj := s.params, sel := selAt h s.selector
            secs := s.secondaries.map fun p => (p.1, p.1) } type

/-- `get_secondary_objects`, auxiliary_sampler.py:506-550. -/
def secObjectsAt (h : Heap F G) : Nat → Nat → Dict (PVal F) → Except Err (Dict (PVal F))
  | 0, _, _ => .error .recursion
  | k + 1, i, d => do
    let d ← if (h.samplers i).hasSecondary then
        (h.samplers i).secondaries.foldlM (fun d p => secObjectsAt h k p.2 d) d
      else pure d
    pure (Dict.set d (h.samplers i).name (entryAt h i (h.samplers i).cls))

/-- Lines 277-299 and 301-331: the entry under `key`, then the secondaries. -/
def addEntryAt (fuel : Nat) (h : Heap F G) (d : Dict (PVal F)) (i : Nat) (key type : String) :
    Except Err (Dict (PVal F)) :=
  let d := Dict.set d key (entryAt h i type)
  if (h.samplers i).hasSecondary then secObjectsAt h fuel i d else .ok d

/-- Lines 275-331. -/
def auxDictAt (fuel : Nat) (h : Heap F G) (y : Synth F) : Except Err (Dict (PVal F)) := do
  let d ← y.aux.foldlM (fun d p => addEntryAt fuel h d p.2 p.1 (h.samplers p.2).cls) []
  match y.derived with
  | none => pure d
  | some i => addEntryAt fuel h d i (h.samplers i).name (h.samplers i).name

/-- `to_dict`, population_synth.py:202-335, of a synth in memory whose distributions are of the
given classes (`spatial` with its `_is_rate`). -/
def heapDict (R : Registry F) (spatial : String × PVal F) (lum : String) (fuel : Nat)
    (y : Synth F) (s : SurvSt F G) : Except Err (PVal F) := do
  let aux ← auxDictAt fuel s.heap y
  pure (.dict ([("seed", PVal.int y.seed),
      ("spatial distribution", .dict (spatialDict R
        { cls := spatial.1, obj := s.sp.params, isRate := spatial.2 }))]
    ++ optSection "luminosity distribution"
        (y.lumName.map fun _ => .dict (distDict { cls := lum, obj := s.lum.params }))
    ++ optSection "flux selection" (if y.fluxSelSet then some (selDict (selAt s.heap y.fluxSel))
        else none)
    ++ optSection "distance selection" (if y.distSelSet then some (selDict (selAt s.heap y.distSel))
        else none)
    ++ optSection "spatial selection" (y.spatSel.map fun q => selDict (selAt s.heap q))
    ++ [("auxiliary samplers", .dict aux)]))

/-! ### The objects of a configuration -/

/-- What the classes named in a configuration are: their methods, the names their objects get,
and the object that results from assigning parameter values to a new one. -/
structure Classes (F G : Type) where
  spatial : String → PVal F → SpatialCode F G
  lum : String → LumCode F G
  smp : String → SamplerCode F G
  usesDistance : String → Bool
  usesLuminosity : String → Bool
  kind : String → SelKind F G
  /-- name and form of distributions -/
  distName : String → String
  distForm : String → String
  /-- a new object with these parameter values assigned -/
  assigned : String → Dict F → Obj F
  /-- how Python reads a flag that may be any value -/
  truthy : PVal F → Bool

/-- A new selector object. -/
def Classes.selector (K : Classes F G) (s : CSel F) : Selector F G :=
  { kind := K.kind s.cls, cls := s.cls, params := K.assigned s.cls (truthOf s.obj)
    data := { useObs := s.flags.obs, useDistance := s.flags.dist, useLuminosity := s.flags.lum
              useFlux := s.flags.flux } }

/-- The `draw` methods of the registered selections: generic_selectors.py:25, 45, 114, 177, 240,
306, flux_selectors.py:20, 35, spatial_selection.py:56, 91, selection_probability.py:194. -/
def builtinKind : List (String × SelKind F G) :=
  [("DummySelection", .dummy), ("UnitySelection", .unity), ("BernoulliSelection", .bernoulli),
   ("BoxSelection", .box), ("LowerBound", .lower), ("UpperBound", .upper), ("SoftSelection", .soft),
   ("HardFluxSelection", .lower), ("SoftFluxSelection", .soft),
   ("GalacticPlaneSelection", .galactic), ("DistanceSelection", .distance)]

/-- The selector a synth has when none was set, population_synth.py:95-101. -/
def unitySel : CSel F := { cls := "UnitySelection" }

/-- Where a selector is used. -/
inductive Role where
  | flux
  | dist
  | spat
  | of (i : String)
  deriving DecidableEq

/-- A new sampler object with its secondaries at the addresses `at'` and its selector at `q`. -/
def Classes.sampler (K : Classes F G) (at' : String → Nat) (q : Nat) (c : CSampler F) : Sampler F :=
  { name := c.name, obsName := c.obsName, cls := c.cls, isObserved := K.truthy c.observed
    usesDistance := K.usesDistance c.cls, usesLuminosity := K.usesLuminosity c.cls
    secondaries := c.secs.map fun p => (p.1, at' p.2), isSecondary := c.isSecondary
    parents := c.parents, hasSecondary := !c.secs.isEmpty, selector := q
    params := K.assigned c.cls (truthOf c.obj) }

/-- The name of a synth, population_synth.py:73-83. -/
def Classes.synthName (K : Classes F G) (y : CSynth F) : String :=
  match y.lum with
  | none => K.distName y.spatial.cls
  | some l => K.distName y.spatial.cls ++ "_" ++ K.distName l.cls

/-- The synth in memory: samplers at `at'`, selectors at `sel`, population_synth.py:36-125. -/
def Classes.synth (K : Classes F G) (at' : String → Nat) (sel : Role → Nat) (y : CSynth F) :
    Synth F :=
  { name := K.synthName y, seed := y.seed, spatialName := K.distName y.spatial.cls
    lumName := y.lum.map fun l => K.distName l.cls
    aux := y.aux.map fun p => (p.1, at' p.2), derived := y.derived.map at'
    fluxSel := sel .flux, distSel := sel .dist, spatSel := y.spatSel.map fun _ => sel .spat
    fluxSelSet := y.fluxSel.isSome, distSelSet := y.distSel.isSome
    spatialForm := K.distForm y.spatial.cls
    lumForm := (y.lum.map fun l => K.distForm l.cls).getD "" }

/-- The environment: primitives from `base`, samplers and selectors from `w`, the classes of the
distributions from the configuration. -/
def Classes.env (K : Classes F G) (R : Registry F) (fuel : Nat) (base : SurveyEnv F G)
    (code : Nat → SamplerCode F G) (y : CSynth F) : SurveyEnv F G :=
  { base with
    world := { base.world with code }
    spatial := K.spatial y.spatial.cls y.spatial.isRate
    lum := (y.lum.map fun l => K.lum l.cls).getD base.lum
    toDict := heapDict R (y.spatial.cls, y.spatial.isRate) ((y.lum.map (·.cls)).getD "") fuel }

end Popsynth
