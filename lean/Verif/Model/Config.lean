import Verif.Model.Param
import Verif.Model.Population

/-!
# `PopulationSynth.to_dict` and `PopulationSynth.from_dict`

`popsynth/population_synth.py:202-751`, `AuxiliarySampler.get_secondary_objects`
(auxiliary_sampler.py:506-550) and what they use of the registries
(utils/registry.py) and of the constructors.

A configuration is modelled by the data these functions read and write: seed,
distributions, selectors and auxiliary samplers with their parameter storage.  Samplers
are objects with identity (they may be shared as secondaries): they live in a table
`objs` under an address.  The classes are a parameter (`Registry`): which parameters a
class declares and which keyword arguments its constructor accepts.

Simplifications: selectors are values (the same selector attached twice is not
distinguished from two equal ones); the effect of extra constructor arguments
(`init variables`) on an object is not modelled, only whether they are accepted; keys of
a parameter dictionary that name a class attribute which is not a parameter are treated
like unknown keys (ignored); a constructor leaves the parameter storage empty.
-/

set_option autoImplicit false

namespace Popsynth

/-- `k in d` / `d[k]` on the value of a dictionary entry that should be a dictionary:
anything else has no `.keys()` / `.items()` / `.pop()`. -/
def PVal.items {F : Type} : PVal F → Except Err (Dict (PVal F))
  | .dict d => .ok d
  | _ => .error .attribute

/-- The conversions `float(v)` and `int(v)` of the number type. -/
structure Conv (F : Type) where
  ofInt : Int → F
  ofStr : String → Option F
  toInt : F → Int
  intOfStr : String → Option Int

/-- `float(v)`. -/
def Conv.float {F : Type} (C : Conv F) : PVal F → Except Err F
  | .num v => .ok v
  | .int i => .ok (C.ofInt i)
  | .bool b => .ok (C.ofInt (if b then 1 else 0))
  | .str s => match C.ofStr s with
    | some v => .ok v
    | none => .error .value
  | .arr [v] => .ok v
  | _ => .error .type

/-- `int(v)`. -/
def Conv.int {F : Type} (C : Conv F) : PVal F → Except Err Int
  | .num v => .ok (C.toInt v)
  | .int i => .ok i
  | .bool b => .ok (if b then 1 else 0)
  | .str s => match C.intOfStr s with
    | some v => .ok v
    | none => .error .value
  | .arr [v] => .ok (C.toInt v)
  | _ => .error .type

/-- A class registered in `distribution_registry`. -/
structure DistCls (F : Type) where
  /-- the parameters found along the `mro` -/
  params : Dict (ParamDecl F)
  /-- can be constructed without arguments -/
  ctorOk : Bool := true
  /-- subclass of `SpatialDistribution` / of `LuminosityDistribution` -/
  spatial : Bool
  luminosity : Bool
  /-- subclass of `CosmologicalDistribution` -/
  cosmo : Bool := false
  /-- `_is_rate` after construction -/
  rate0 : PVal F := .none

/-- Which property a selector looks at, selection_probability.py:58-61. -/
structure SelFlags where
  obs : Bool := false
  dist : Bool := false
  lum : Bool := false
  flux : Bool := false
  deriving DecidableEq, Repr

/-- A class registered in `selection_registry`. -/
structure SelCls (F : Type) where
  /-- the parameters found along the `mro` -/
  params : Dict (ParamDecl F)
  /-- the names among them that are in `cls.__dict__` itself -/
  own : List String
  ctorOk : Bool := true
  flags0 : SelFlags := {}
  /-- does `draw` look at the flags (generic_selectors.py:116-130, 179-193, 242-256, 308-322)
  or not (`UnitySelection`, `BernoulliSelection`, the spatial selections)?  Not used by the
  functions below. -/
  usesFlags : Bool := true

/-- A class registered in `auxiliary_parameter_registry`. -/
structure SamplerCls (F : Type) where
  params : Dict (ParamDecl F)
  /-- does the constructor accept (and need nothing beyond) these keyword arguments:
  `name`, `observed`, and the given further names?  Otherwise it raises `TypeError`. -/
  accepts : (name observed : Bool) → List String → Bool
  /-- the name and the flag of an object constructed without being given them -/
  name0 : String := ""
  observed0 : PVal F := .bool true
  /-- subclass of `DerivedLumAuxSampler` -/
  derived : Bool := false

/-- The registries, utils/registry.py:3-7. -/
structure Registry (F : Type) where
  dists : Dict (DistCls F)
  sels : Dict (SelCls F)
  samplers : Dict (SamplerCls F)

/-- A distribution object. -/
structure CDist (F : Type) where
  cls : String
  obj : Obj F := {}
  isRate : PVal F := .none

/-- A selector object. -/
structure CSel (F : Type) where
  cls : String
  obj : Obj F := {}
  flags : SelFlags := {}

/-- A sampler object; `secs` maps the name of a secondary to its address. -/
structure CSampler (F : Type) where
  cls : String
  name : String
  obsName : String
  observed : PVal F
  obj : Obj F := {}
  sel : CSel F := { cls := "UnitySelection" }
  secs : Dict String := []
  isSecondary : Bool := false
  parents : List String := []

/-- A `PopulationSynth` as far as `to_dict` / `from_dict` are concerned.  A selector that
has not been set is `none`. -/
structure CSynth (F : Type) where
  seed : Int
  spatial : CDist F
  lum : Option (CDist F) := none
  fluxSel : Option (CSel F) := none
  distSel : Option (CSel F) := none
  spatSel : Option (CSel F) := none
  objs : Dict (CSampler F) := []
  aux : Dict String := []
  derived : Option String := none

variable {F : Type}

/-! ### `to_dict` -/

/-- `truth` / `parameters` as a dictionary of numbers. -/
def pvTruth (o : Obj F) : Dict (PVal F) :=
  (truthOf o).map fun p => (p.1, PVal.num p.2)

/-- `{selector._selection_name: selector.parameters}`, population_synth.py:245-273 and
290-291. -/
def selDict (s : CSel F) : PVal F := .dict [(s.cls, .dict (pvTruth s.obj))]

/-- The entry of a sampler, 279-293 and auxiliary_sampler.py:530-547, with the given
value of `type`. -/
def entryOf (c : CSampler F) (type : String) : PVal F :=
  let tmp : Dict (PVal F) := [("type", .str type), ("observed", c.observed)]
  let tmp := (pvTruth c.obj).foldl (fun d p => Dict.set d p.1 p.2) tmp
  let tmp := Dict.set tmp "secondary" (.list (c.secs.map fun p => PVal.str p.1))
  let tmp := Dict.set tmp "selection" (selDict c.sel)
  .dict tmp

/-- `get_secondary_objects`, auxiliary_sampler.py:506-550, of the sampler at address `i`.
The recursion over cyclic secondaries never ends: `RecursionError`. -/
def secObjects (objs : Dict (CSampler F)) :
    Nat → String → Dict (PVal F) → Except Err (Dict (PVal F))
  | 0, _, _ => .error .recursion
  | k + 1, i, d => match Dict.get? objs i with
    | none => .error .attribute
    | some c => do
      let d ← c.secs.foldlM (fun d p => secObjects objs k p.2 d) d
      pure (Dict.set d c.name (entryOf c c.cls))

/-- Lines 277-299 for one attached sampler and 301-331 for the derived luminosity sampler:
the entry under `key` with the given type, then the secondaries. -/
def addEntry (fuel : Nat) (objs : Dict (CSampler F)) (d : Dict (PVal F)) (i : String)
    (key type : CSampler F → String) : Except Err (Dict (PVal F)) :=
  match Dict.get? objs i with
  | none => .error .attribute
  | some c =>
    let d := Dict.set d (key c) (entryOf c (type c))
    if c.secs.isEmpty then .ok d else secObjects objs fuel i d

/-- Lines 275-331: the dictionary `aux_samplers`. -/
def auxDict (fuel : Nat) (y : CSynth F) : Except Err (Dict (PVal F)) := do
  let d ← y.aux.foldlM (fun d p => addEntry fuel y.objs d p.2 (fun _ => p.1) (·.cls)) []
  match y.derived with
  | none => pure d
  | some i => addEntry fuel y.objs d i (·.name) (·.name)

/-- `{dist._distribution_name: dist.truth}`. -/
def distDict (c : CDist F) : Dict (PVal F) := [(c.cls, .dict (pvTruth c.obj))]

/-- An optional section. -/
def optSection (key : String) (v : Option (PVal F)) : Dict (PVal F) :=
  match v with
  | none => []
  | some v => [(key, v)]

/-- Is the class with this name cosmological (`isinstance`, 224)? -/
def Registry.cosmo (R : Registry F) (cls : String) : Bool :=
  match Dict.get? R.dists cls with
  | none => false
  | some c => c.cosmo

/-- Lines 214-230: the section of the spatial distribution. -/
def spatialDict (R : Registry F) (c : CDist F) : Dict (PVal F) :=
  if R.cosmo c.cls then Dict.set (distDict c) "is_rate" c.isRate else distDict c

/-- `to_dict`, population_synth.py:202-335. -/
def toDict (R : Registry F) (fuel : Nat) (y : CSynth F) : Except Err (Dict (PVal F)) := do
  let aux ← auxDict fuel y
  pure ([("seed", PVal.int y.seed), ("spatial distribution", .dict (spatialDict R y.spatial))]
    ++ optSection "luminosity distribution" (y.lum.map fun c => .dict (distDict c))
    ++ optSection "flux selection" (y.fluxSel.map selDict)
    ++ optSection "distance selection" (y.distSel.map selDict)
    ++ optSection "spatial selection" (y.spatSel.map selDict)
    ++ [("auxiliary samplers", .dict aux)])

/-! ### `from_dict` -/

variable [LE F] [DecidableLE F]

/-- `list(d.keys())[0]` with its value. -/
def firstItem (d : Dict (PVal F)) : Except Err (String × PVal F) :=
  match d with
  | [] => .error .index
  | p :: _ => .ok p

/-- `setattr(obj, k, float(v))` for a declared parameter, meta.py:72-100. -/
def setParam (C : Conv F) (dc : ParamDecl F) (o : Obj F) (k : String) (v : PVal F) :
    Except Err (Obj F) := do
  let x ← C.float v
  match paramSet dc dc.free k (some x) o with
  | .ok _ o' => .ok o'
  | .error e _ => .error e

/-- The loops that set parameters, e.g. 368-378: keys found on the class (`ok`) are set,
other keys are ignored. -/
def setParams (C : Conv F) (ok : String → Option (ParamDecl F)) (o : Obj F) :
    Dict (PVal F) → Except Err (Obj F)
  | [] => .ok o
  | (k, v) :: rest => match ok k with
    | none => setParams C ok o rest
    | some dc => do
      let o ← setParam C dc o k v
      setParams C ok o rest

/-- A registry lookup: `RegistryKeyError` is a `KeyError`. -/
def lookup {α : Type} (d : Dict α) (k : String) : Except Err α :=
  match Dict.get? d k with
  | none => .error .key
  | some c => .ok c

/-- Lines 354-378 and 388-406: a distribution from its section. -/
def loadDist (R : Registry F) (C : Conv F) (v : PVal F) :
    Except Err (CDist F × DistCls F) := do
  let tmp ← v.items
  let (nm, ps) ← firstItem tmp
  let c ← lookup R.dists nm
  if !c.ctorOk then .error .type
  let ps ← ps.items
  let o ← setParams C (Dict.get? c.params) {} ps
  pure ({ cls := nm, obj := o, isRate := c.rate0 }, c)

/-- Lines 408-410. -/
def loadRate (v : PVal F) (dc : CDist F × DistCls F) : Except Err (CDist F) := do
  if dc.2.cosmo then
    let tmp ← v.items
    let r ← lookup tmp "is_rate"
    pure { dc.1 with isRate := r }
  else pure dc.1

/-- A parameter dictionary may be `None`. -/
def paramItems : PVal F → Except Err (Dict (PVal F))
  | .none => .ok []
  | v => v.items

/-- Lines 427-462, 466-502, 506-540 (`ownOnly = false`) and 669-697 (`ownOnly = true`): a
selector from its section; `flag` is the forced flag. -/
def loadSel (R : Registry F) (C : Conv F) (ownOnly : Bool) (flag : SelFlags → SelFlags)
    (v : PVal F) : Except Err (Option (CSel F)) :=
  match v with
  | .none => .ok none
  | v => do
    let tmp ← v.items
    let (nm, ps) ← firstItem tmp
    let c ← lookup R.sels nm
    if !c.ctorOk then .error .type
    let ps ← paramItems ps
    let o ← setParams C
      (fun k => if ownOnly && !(k ∈ c.own) then none else Dict.get? c.params k) {} ps
    pure (some { cls := nm, obj := o, flags := flag c.flags0 })

/-- A section that may be missing. -/
def loadOptSel (R : Registry F) (C : Conv F) (flag : SelFlags → SelFlags)
    (d : Dict (PVal F)) (key : String) : Except Err (Option (CSel F)) :=
  match Dict.get? d key with
  | none => .ok none
  | some v => loadSel R C false flag v

/-- Lines 348-384: the luminosity distribution, if there is one. -/
def loadLum (R : Registry F) (C : Conv F) (d : Dict (PVal F)) :
    Except Err (Option (CDist F × DistCls F)) :=
  match Dict.get? d "luminosity distribution" with
  | none => .ok none
  | some v => do
    let r ← loadDist R C v
    pure (some r)

/-- Lines 348-420: everything before the selections. -/
def loadDists (R : Registry F) (C : Conv F) (d : Dict (PVal F)) :
    Except Err (Int × CDist F × Option (CDist F)) := do
  let lum ← loadLum R C d
  let sv ← lookup d "spatial distribution"
  let sp ← loadDist R C sv
  let spd ← loadRate sv sp
  let seed ← lookup d "seed"
  -- `PopulationSynth.__init__`, 57-76
  let seed ← C.int seed
  if !sp.2.spatial then .error .runtime
  match lum with
  | none => pure (seed, spd, none)
  | some l =>
    if !l.2.luminosity then .error .runtime
    pure (seed, spd, some l.1)

/-- Lines 348-540: distributions and selections. -/
def loadHead (R : Registry F) (C : Conv F) (d : Dict (PVal F)) : Except Err (CSynth F) := do
  let (seed, sp, lum) ← loadDists R C d
  let fs ← loadOptSel R C (fun f => { f with flux := true }) d "flux selection"
  let ds ← loadOptSel R C (fun f => { f with dist := true }) d "distance selection"
  let ss ← loadOptSel R C id d "spatial selection"
  pure { seed, spatial := sp, lum, fluxSel := fs, distSel := ds, spatSel := ss }

/-- `v.pop(k)`. -/
def popKey (k : String) : Py (Dict (PVal F)) (PVal F) := fun v =>
  match Dict.get? v k with
  | none => .error .key v
  | some x => .ok x (Dict.erase v k)

/-- `if k in v: x = v.pop(k) else: x = None`. -/
def popOpt (k : String) : Py (Dict (PVal F)) (Option (PVal F)) := fun v =>
  match Dict.get? v k with
  | none => .ok none v
  | some x => .ok (some x) (Dict.erase v k)

/-- An element of the list of secondaries: a name or `None`; anything else is not a key of
the dictionary of samplers. -/
def secName : PVal F → Except Err (Option String)
  | .none => .ok none
  | .str s => .ok (some s)
  | _ => .error .key

/-- Lines 573-580: `list(np.atleast_1d(secondary))`, of the keys for a dictionary. -/
def secNames : PVal F → Except Err (List (Option String))
  | .dict d => .ok (d.map fun p => some p.1)
  | .list l => l.mapM secName
  | v => do
    let n ← secName v
    pure [n]

/-- Lines 588-597: the names of the extra constructor arguments. -/
def initNames : Option (PVal F) → Except Err (List String)
  | none => .ok []
  | some .none => .ok []
  | some (.dict d) => .ok (d.map (·.1))
  | some _ => .error .type

/-- Lines 606-649: constructing the sampler, with the three fallbacks. -/
def construct (R : Registry F) (cls obj : String) (observed : PVal F) (init : List String) :
    Except Err (CSampler F) := do
  let c ← lookup R.samplers cls
  if c.accepts true true init then
    pure { cls, name := obj, obsName := obj ++ "_obs", observed }
  else if c.accepts false true init then
    pure { cls, name := c.name0, obsName := c.name0 ++ "_obs", observed }
  else if c.accepts true false init then
    pure { cls, name := obj, obsName := obj ++ "_obs", observed := c.observed0 }
  else if c.accepts false false init then
    pure { cls, name := obj, obsName := c.name0 ++ "_obs", observed }
  else .error .type

/-- Lines 569-586, if there is a list of secondaries. -/
def secNamesOpt : Option (PVal F) → Except Err (Option (List (Option String)))
  | none => .ok none
  | some v => do
    let l ← secNames v
    pure (some l)

/-- A registry key is a string. -/
def className : PVal F → Except Err String
  | .str s => .ok s
  | _ => .error .key

/-- What is built from the values popped from an entry and the remaining parameters,
573-697. -/
def finishEntry (R : Registry F) (C : Conv F) (obj : String) (type observed : PVal F)
    (sel sec init : Option (PVal F)) (params : Dict (PVal F)) :
    Except Err (CSampler F × Option (List (Option String))) := do
  let sec ← secNamesOpt sec
  let init ← initNames init
  let cls ← className type
  let c ← construct R cls obj observed init
  let decls := match Dict.get? R.samplers cls with
    | none => []
    | some k => k.params
  let o ← setParams C (Dict.get? decls) {} params
  let c := { c with obj := o }
  match sel with
  | none => pure (c, sec)
  | some v => do
    let s ← loadSel R C true (fun f => { f with obs := true }) v
    match s with
    | none => pure (c, sec)
    | some s => pure ({ c with sel := s }, sec)

/-- Lines 554-697: one entry of `input["auxiliary samplers"]`; the entry itself (the
state) loses the keys that are popped. -/
def loadEntry (R : Registry F) (C : Conv F) (obj : String) :
    Py (Dict (PVal F)) (CSampler F × Option (List (Option String))) := do
  let type ← popKey "type"
  let observed ← popKey "observed"
  let sel ← popOpt "selection"
  let sec ← popOpt "secondary"
  let init ← popOpt "init variables"
  let params ← get
  liftE (finishEntry R C obj type observed sel sec init params)

/-- Run `loadEntry` on the value of an entry, which must be a dictionary; gives the result
and what is left of the value. -/
def onEntry (R : Registry F) (C : Conv F) (obj : String) (v : PVal F) :
    Except Err (CSampler F × Option (List (Option String))) × PVal F :=
  match v with
  | .dict d => match loadEntry R C obj d with
    | .ok r d' => (.ok r, .dict d')
    | .error e d' => (.error e, .dict d')
  | v => (.error .attribute, v)

/-- Lines 548-714: the loop over the entries.  Gives the samplers built, or the error, and
what is left of the entries. -/
def loadEntries (R : Registry F) (C : Conv F) :
    Dict (PVal F) →
    Except Err (Dict (CSampler F × Option (List (Option String)))) × Dict (PVal F)
  | [] => (.ok [], [])
  | (k, v) :: rest =>
    match onEntry R C k v with
    | (.error e, v') => (.error e, (k, v') :: rest)
    | (.ok r, v') => match loadEntries R C rest with
      | (.error e, rest') => (.error e, (k, v') :: rest')
      | (.ok rs, rest') => (.ok ((k, r) :: rs), (k, v') :: rest')

/-- `d[k] = f(d[k])` for an existing key. -/
def modAt {α : Type} (d : Dict α) (k : String) (f : α → α) : Dict α :=
  match Dict.get? d k with
  | none => d
  | some v => Dict.set d k (f v)

/-- `aux_samplers[p].set_secondary_sampler(aux_samplers[s])`, 730-732 with
auxiliary_sampler.py:310-317 and 440-450. -/
def link (objs : Dict (CSampler F)) (p s : String) : Except Err (Dict (CSampler F)) := do
  let cp ← lookup objs p
  let cs ← lookup objs s
  let objs := modAt objs s fun c =>
    { c with isSecondary := true, parents := c.parents ++ [cp.name] }
  pure (modAt objs p fun c => { c with secs := Dict.set c.secs cs.name s })

/-- Lines 723-732 for one primary: the loop stops at the first `None`. -/
def linkAll (p : String) :
    List (Option String) → Dict (CSampler F) → Except Err (Dict (CSampler F))
  | [], objs => .ok objs
  | none :: _, objs => .ok objs
  | some s :: rest, objs => do
    let objs ← link objs p s
    linkAll p rest objs

/-- Lines 721-732. -/
def linkEntries :
    List (String × List (Option String)) → Dict (CSampler F) → Except Err (Dict (CSampler F))
  | [], objs => .ok objs
  | (p, l) :: rest, objs => do
    let objs ← linkAll p l objs
    linkEntries rest objs

/-- Is the class of the sampler a derived luminosity sampler? -/
def Registry.derived (R : Registry F) (cls : String) : Bool :=
  match Dict.get? R.samplers cls with
  | none => false
  | some c => c.derived

/-- `add_observed_quantity`, 805-855, of the sampler at address `i`. -/
def attachOne (R : Registry F) (y : CSynth F) (i : String) : Except Err (CSynth F) := do
  let c ← lookup y.objs i
  if R.derived c.cls then pure { y with derived := some i }
  else if c.isSecondary then .error .runtime
  else if Dict.has y.aux c.name then .error .runtime
  else pure { y with aux := Dict.set y.aux c.name i }

/-- Lines 721-749: link the samplers, drop the secondaries from the list, attach the rest. -/
def attach (R : Registry F) (y : CSynth F)
    (rs : Dict (CSampler F × Option (List (Option String)))) : Except Err (CSynth F) := do
  let lists := rs.filterMap fun p => p.2.2.map fun l => (p.1, l)
  let objs ← linkEntries lists (rs.map fun p => (p.1, p.2.1))
  let dropped := (lists.flatMap (·.2)).filterMap id
  let roots := (rs.map (·.1)).filter fun k => !(k ∈ dropped)
  roots.foldlM (attachOne R) { y with objs := objs }

/-- `from_dict`, population_synth.py:337-751, acting on the dictionary it is given. -/
def fromDict (R : Registry F) (C : Conv F) : Py (Dict (PVal F)) (CSynth F) := do
  let d ← get
  let y ← liftE (loadHead R C d)
  match Dict.get? d "auxiliary samplers" with
  | none => pure y
  | some v => do
    let entries ← liftE v.items
    let r := loadEntries R C entries
    modify fun d => Dict.set d "auxiliary samplers" (.dict r.2)
    let rs ← liftE r.1
    liftE (attach R y rs)

end Popsynth
