import Verif.Model.Selection

/-!
# `popsynth/auxiliary_sampler.py`

Auxiliary samplers are objects with identity that may be shared between
parents, so they live in a heap addressed by natural numbers; the same holds
for their selectors.  The code of user-written samplers is an arbitrary
function of what the framework documents as accessible to it (`SView`).
-/

namespace Popsynth

/-- `SpatialContainer`, distribution.py:142-158 (`ra`, `dec` are functions of
`phi`, `theta`, see `Verif/Model/Sky.lean`). -/
structure Spatial (F : Type) where
  distance : List F
  theta : List F
  phi : List F
  deriving DecidableEq

/-- Instance data of an auxiliary sampler, auxiliary_sampler.py:197-213.
`luminosity`/`spatial` are `none` while the attributes `_luminosity` /
`_distance, _theta, _phi, _spatial_values` do not exist (they are created by
`set_luminosity` / `set_spatial_values`, which set them together). -/
structure Sampler (F : Type) where
  name : String
  obsName : String
  cls : String := ""
  isObserved : Bool := true
  usesDistance : Bool := false
  usesLuminosity : Bool := false
  secondaries : Dict Nat := []
  isSecondary : Bool := false
  parents : List String := []
  hasSecondary : Bool := false
  isSampled : Bool := false
  selector : Nat := 0
  params : Obj F := {}
  luminosity : Option (List F) := none
  spatial : Option (Spatial F) := none
  trueVals : Option (List F) := none
  obsVals : Option (List F) := none
  prob : Option (List F) := none

/-- What the code of a sampler can see when it runs: its own data and the true
and observed values of its direct secondaries (documented access path
`self._secondary_sampler['name'].true_values`, auxiliary_sampler.py:297-302). -/
structure SView (F : Type) where
  params : Obj F
  isObserved : Bool
  luminosity : Option (List F)
  spatial : Option (Spatial F)
  trueVals : Option (List F)
  obsVals : Option (List F)
  secs : Dict (Option (List F) × Option (List F))

/-- Result of running sampler code: it may raise, set its true and observed
values, change its parameter storage (reading a parameter stores the default)
and consume random numbers. -/
structure SOut (F G : Type) where
  err : Option Err := none
  trueVals : Option (List F)
  obsVals : Option (List F)
  params : Obj F
  rng : G

/-- The overridable methods of a sampler class. -/
structure SamplerCode (F G : Type) where
  /-- `true_sampler(size)`, 708-711 -/
  trueSampler : SView F → Nat → G → SOut F G
  /-- `observation_sampler(size)`, 716-718 -/
  obsSampler : SView F → Nat → G → SOut F G
  /-- `_compute_probability()`, 403-404 -/
  prob : SView F → Except Err (Option (List F)) := fun _ => .ok none
  /-- `compute_luminosity()` of derived luminosity samplers, 752-755 -/
  luminosity : SView F → Except Err (List F) := fun _ => .error .runtime

/-- The heap of samplers and selectors, the random state, and a ghost trace of
the `true_sampler` calls with what they saw (not part of the Python program). -/
structure Heap (F G : Type) where
  samplers : Nat → Sampler F
  selectors : Nat → Selector F G
  rng : G
  trace : List (Nat × SView F) := []

/-- Everything external to the heap: selector primitives, literals, progress
setting, and the classes of the samplers. -/
structure World (F G : Type) where
  sel : SelEnv F G
  half : F
  ninety : F
  showProgress : Bool
  code : Nat → SamplerCode F G

variable {F G : Type}

/-- Update the sampler with id `i`. -/
def Heap.modSampler (h : Heap F G) (i : Nat) (f : Sampler F → Sampler F) : Heap F G :=
  { h with samplers := fun j => if j = i then f (h.samplers j) else h.samplers j }

/-- Update the selector with id `q`. -/
def Heap.modSelector (h : Heap F G) (q : Nat) (f : Selector F G → Selector F G) : Heap F G :=
  { h with selectors := fun j => if j = q then f (h.selectors j) else h.selectors j }

/-- What the code of sampler `i` sees now. -/
def Heap.view (h : Heap F G) (i : Nat) : SView F :=
  let s := h.samplers i
  { params := s.params, isObserved := s.isObserved, luminosity := s.luminosity,
    spatial := s.spatial, trueVals := s.trueVals, obsVals := s.obsVals,
    secs := s.secondaries.map fun p => (p.1, ((h.samplers p.2).trueVals, (h.samplers p.2).obsVals)) }

/-- Run a method of selector `q` (it shares numpy's random state). -/
def withSelector {α : Type} (q : Nat) (m : Py (SelSt F G) α) : Py (Heap F G) α := fun h =>
  match m { sel := h.selectors q, rng := h.rng } with
  | .ok a t => .ok a { h.modSelector q (fun _ => t.sel) with rng := t.rng }
  | .error e t => .error e { h.modSelector q (fun _ => t.sel) with rng := t.rng }

/-- Run sampler code on sampler `i`. -/
def runCode (c : SView F → Nat → G → SOut F G) (i n : Nat) : Py (Heap F G) Unit := fun h =>
  let o := c (h.view i) n h.rng
  let h' := { h.modSampler i (fun s =>
    { s with trueVals := o.trueVals, obsVals := o.obsVals, params := o.params }) with rng := o.rng }
  match o.err with
  | none => .ok () h'
  | some e => .error e h'

/-- Constructor, auxiliary_sampler.py:173-213: a new sampler with its own
`UnitySelection` stored at selector id `q`. -/
def newSampler (name cls : String) (observed usesDistance usesLuminosity : Bool) (q : Nat) :
    Sampler F :=
  { name, obsName := name ++ "_obs", cls, isObserved := observed,
    usesDistance, usesLuminosity, selector := q }

/-- `set_luminosity`, 246-254. -/
def setLuminosity (i : Nat) (l : List F) : Py (Heap F G) Unit :=
  modify fun h => h.modSampler i fun s => { s with luminosity := some l }

/-- `set_spatial_values`, 256-269. -/
def setSpatialValues (i : Nat) (v : Spatial F) : Py (Heap F G) Unit :=
  modify fun h => h.modSampler i fun s => { s with spatial := some v }

/-- `set_selection_probability`, 271-286 (the `isinstance` check is the type). -/
def setSelectionProbability (i q : Nat) : Py (Heap F G) Unit :=
  modify fun h => h.modSampler i fun s => { s with selector := q }

/-- `set_secondary_sampler`, 295-318 with `make_secondary`, 440-450: sampler `j`
becomes a secondary of `i`. -/
def setSecondarySampler (i j : Nat) : Py (Heap F G) Unit := do
  let h ← get
  let iname := (h.samplers i).name
  modify fun h => h.modSampler j fun s =>
    { s with isSecondary := true, parents := s.parents ++ [iname] }
  let h ← get
  let jname := (h.samplers j).name
  modify fun h => h.modSampler i fun s =>
    { s with secondaries := s.secondaries.set jname j, hasSecondary := true }

/-- Lines 336-338: hand the distance to the own selector. -/
def giveDistance (i : Nat) : Py (Heap F G) Unit := fun h =>
  if (h.samplers i).usesDistance then
    match (h.samplers i).spatial with
    | none => .error .attribute h
    | some sp => .ok () (h.modSelector (h.samplers i).selector fun c =>
        { c with data := { c.data with distance := some sp.distance } })
  else .ok () h

/-- Lines 340-348: hand the luminosity to the own selector, if there is one. -/
def giveLuminosity (i : Nat) : Py (Heap F G) Unit := fun h =>
  match (h.samplers i).luminosity with
  | none => .ok () h
  | some l => .ok () (h.modSelector (h.samplers i).selector fun c =>
      { c with data := { c.data with luminosity := some l } })

/-- Lines 336-348. -/
def giveSelector (i : Nat) : Py (Heap F G) Unit := do
  giveDistance i
  giveLuminosity i

/-- Lines 352-364: checks on and preparation of the secondary `j` of `i`. -/
def prepSecondary (i j : Nat) : Py (Heap F G) Unit := fun h =>
  if (h.samplers j).isSecondary then
    match (h.samplers i).spatial with
    | none => .error .attribute h
    | some sp => setSpatialValues j sp h
  else .error .runtime h

/-- Does the array exist and have length `n`? (386-391) -/
def lenIs (v : Option (List F)) (n : Nat) : Bool :=
  match v with
  | none => false
  | some l => l.length == n

section
variable [LE F] [DecidableLE F] [OfNat F 0] [OfNat F 1]

/-- `self._selector.draw(size)` (288-293). -/
def drawSelector (w : World F G) (q size : Nat) : Py (Heap F G) Unit :=
  withSelector q (selDraw w.sel w.half w.ninety w.showProgress size)

/-- Lines 373-381: observed values. -/
def observe (w : World F G) (i n : Nat) : Py (Heap F G) Unit := fun h =>
  if (h.samplers i).isObserved then
    runCode (w.code i).obsSampler i n h
  else
    .ok () (h.modSampler i fun s => { s with obsVals := s.trueVals })

/-- Lines 371-401: sample, check, mark, select, compute probability. -/
def finishDraw (w : World F G) (i n : Nat) : Py (Heap F G) Unit := do
  modify fun h => { h with trace := h.trace ++ [(i, h.view i)] }
  runCode (w.code i).trueSampler i n
  observe w i n
  modify fun h => h.modSelector (h.samplers i).selector fun c =>
    { c with data := { c.data with obsValue := (h.samplers i).obsVals } }
  let h ← get
  pyAssert (lenIs (h.samplers i).trueVals n)
  pyAssert (lenIs (h.samplers i).obsVals n)
  modify fun h => h.modSampler i fun s => { s with isSampled := true }
  drawSelector w (h.samplers i).selector n
  let h ← get
  let p ← liftE ((w.code i).prob (h.view i))
  modify fun h => h.modSampler i fun s => { s with prob := p }

/-- `AuxiliarySampler.draw(size)`, 320-401.  The first argument is the number of
Python stack frames left; running out is `RecursionError`. -/
def samplerDraw (w : World F G) : Nat → Nat → Nat → Py (Heap F G) Unit
  | 0, _, _ => raise .recursion
  | k + 1, i, n => do
    let h ← get
    if (h.samplers i).isSampled then pure ()
    else
      giveSelector i
      forEach (h.samplers i).secondaries fun p => do
        prepSecondary i p.2
        samplerDraw w k p.2 n
      finishDraw w i n

end

/-- Lines 422-434 of `reset`: the sampler itself and its selector. -/
def resetOne (i : Nat) (h : Heap F G) : Heap F G :=
  if (h.samplers i).isSampled then
    (h.modSampler i fun s =>
      { s with isSampled := false, obsVals := none, trueVals := none }).modSelector
        (h.samplers i).selector Selector.reset
  else h

/-- `AuxiliarySampler.reset`, 417-438. -/
def samplerReset : Nat → Nat → Py (Heap F G) Unit
  | 0, _ => raise .recursion
  | k + 1, i => do
    modify (resetOne i)
    let h ← get
    forEach (h.samplers i).secondaries fun p => samplerReset k p.2

/-! ### Collecting -/

/-- `SecondaryContainer`, 23-119.  `selection` is a reference to the selector. -/
structure SecC (F : Type) where
  name : String
  trueVals : Option (List F)
  obsVals : Option (List F)
  selection : Nat
  prob : List F

/-- The `probability` property, 406-415: `np.ones_like(None)` is a 0-d array,
modelled as a length-one list. -/
def Sampler.probability [OfNat F 1] (s : Sampler F) : List F :=
  match s.prob with
  | some p => p
  | none => match s.trueVals with
    | some t => t.map fun _ => 1
    | none => [1]

/-- `SecondaryStorage`, 122-160: a DotMap. -/
abbrev Storage (F : Type) := Dict (SecC F)

/-- `DotMap.empty()` is `not any(self)`: true iff no key is a non-empty string. -/
def Storage.isEmpty (a : Storage F) : Bool := a.all fun p => p.1 == ""

/-- `SecondaryStorage.__add__`, 145-160. -/
def Storage.add (a b : Storage F) : Storage F :=
  if Storage.isEmpty a then b
  else if Storage.isEmpty b then a
  else b.foldl (fun acc p => Dict.set acc p.1 p.2) a

/-- `get_secondary_properties()` without graph, 452-504. -/
def secProps [OfNat F 1] (h : Heap F G) : Nat → Nat → Except Err (Storage F)
  | 0, _ => .error .recursion
  | k + 1, i => do
    let s := h.samplers i
    let start : Storage F := []
    let acc ← if s.hasSecondary then
        s.secondaries.foldlM (fun acc p => do
          let r ← secProps h k p.2
          pure (Storage.add acc r)) start
      else pure start
    pure (Dict.set acc s.name
      { name := s.name, trueVals := s.trueVals, obsVals := s.obsVals,
        selection := s.selector, prob := s.probability })

end Popsynth
