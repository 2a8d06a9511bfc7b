import Verif.Model.Config

/-!
# The classes popsynth registers: `utils/meta.py:137-153`, `utils/registry.py`, and the class
statements of the distributions, selections and samplers

A class is the list of class bodies along its `mro` (every class here has one base), its own
body first.  Of a body we keep the attributes that matter for registration and for
configurations: the registry attribute, which methods it defines (abstract or not; only those
that are abstract somewhere), the parameters and the arguments of `__init__`.

`AutoRegister` is from the package class_registry (not in /repo): when a class statement is
executed and `inspect.isabstract(cls)` is false, which is the case exactly if
`cls.__abstractmethods__` is empty, `cls` is registered under `getattr(cls, attr_name)`, a class
already registered under that key is replaced, and `registry[key]` / `registry.get(key, ...)`
call the class.  The order of registration, which only shows in `list_available_*`
(registry.py:10-25), is the order of the lists below.
-/

set_option autoImplicit false

namespace Popsynth

/-- The arguments of a constructor besides `self`. -/
structure Sig where
  required : List String := []
  optional : List String := []

/-- A class body. -/
structure Body (F : Type) where
  cls : String
  /-- `_distribution_name`, `_selection_name` or `_auxiliary_sampler_name` -/
  tag : Option String := none
  /-- methods marked abstract, and methods defined without that mark -/
  abstract : List String := []
  defs : List String := []
  params : Dict (ParamDecl F) := []
  init : Sig
  /-- the name handed to the base class if it is not an argument -/
  fixedName : Option String := none

/-- A class: the bodies along `cls.__mro__` without `object`. -/
abbrev PyClass (F : Type) := List (Body F)

variable {F : Type}

/-- Is `getattr(cls, n)` an abstract method?  The first body that defines `n` decides. -/
def attrAbstract : PyClass F → String → Bool
  | [], _ => false
  | b :: rest, n =>
    if n ∈ b.abstract then true else if n ∈ b.defs then false else attrAbstract rest n

/-- `cls.__abstractmethods__`, meta.py:142-153. -/
def abstractMethods : PyClass F → List String
  | [] => []
  | b :: rest => b.abstract ++ (abstractMethods rest).filter (attrAbstract (b :: rest))

/-- `getattr(cls, attr_name)`: the first body that has it. -/
def classTag : PyClass F → Option String
  | [] => none
  | b :: rest => match b.tag with
    | some t => some t
    | none => classTag rest

/-- The parameters found along the `mro`; a body hides those of its bases. -/
def classParams : PyClass F → Dict (ParamDecl F)
  | [] => []
  | b :: rest => b.params ++ (classParams rest).filter fun p => !(p.1 ∈ b.params.keys)

/-- The names among them in `cls.__dict__`. -/
def ownParams : PyClass F → List String
  | [] => []
  | b :: _ => b.params.keys

/-- `issubclass(cls, <class called n>)`. -/
def subclassOf (c : PyClass F) (n : String) : Bool := c.any fun b => b.cls == n

/-- Does `cls(**given)` call `__init__` with what it needs and nothing it does not know?
Otherwise it raises `TypeError`. -/
def initAccepts (c : PyClass F) (given : List String) : Bool :=
  match c with
  | [] => false
  | b :: _ => b.init.required.all (· ∈ given) &&
      given.all (· ∈ b.init.required ++ b.init.optional)

/-- `AutoRegister`: executing the class statements in this order. -/
def register {α : Type} (mk : PyClass F → α) (cs : List (PyClass F)) : Dict α :=
  cs.foldl (fun d c =>
    if (abstractMethods c).isEmpty then
      match classTag c with
      | none => d
      | some t => Dict.set d t (mk c)
    else d) []

/-- What `from_dict` needs to know of a distribution class.  The constructors of the
cosmological ones set `_is_rate` to `is_rate`, whose default is `True`
(cosmological_distribution.py:43, 101, 167, uniform_distribution.py:62). -/
def asDist (c : PyClass F) : DistCls F where
  params := classParams c
  ctorOk := initAccepts c []
  spatial := subclassOf c "SpatialDistribution"
  luminosity := subclassOf c "LuminosityDistribution"
  cosmo := subclassOf c "CosmologicalDistribution"
  rate0 := if subclassOf c "CosmologicalDistribution" then .bool true else .none

/-- What `from_dict` needs to know of a selection class.  The flux selections hand
`use_flux=True` to their base (flux_selectors.py:18, 35); `draw` looks at the flags in the
bodies of generic_selectors.py:116-130, 179-193, 242-256, 308-322. -/
def asSel (c : PyClass F) : SelCls F where
  params := classParams c
  own := ownParams c
  ctorOk := initAccepts c []
  flags0 := if subclassOf c "HardFluxSelection" || subclassOf c "SoftFluxSelection"
    then { flux := true } else {}
  usesFlags := subclassOf c "BoxSelection" || subclassOf c "LowerBound" ||
    subclassOf c "UpperBound" || subclassOf c "SoftSelection"

/-- What `from_dict` needs to know of a sampler class.  An extra argument called `name` or
`observed` clashes with the one given by `from_dict` where it gives it (`TypeError`); that such
an extra argument can take the place of the one `from_dict` leaves out in a later attempt
(population_synth.py:619-646) is not modelled. -/
def asSampler (c : PyClass F) : SamplerCls F where
  params := classParams c
  accepts := fun name observed more => !("name" ∈ more) && !("observed" ∈ more) &&
    initAccepts c ((if name then ["name"] else []) ++ (if observed then ["observed"] else []) ++ more)
  name0 := match c with
    | [] => ""
    | b :: _ => b.fixedName.getD ""
  -- `observed=False` in auxiliary_sampler.py:731, 749; otherwise the default `True`
  observed0 := .bool (!(subclassOf c "NonObservedAuxSampler" || subclassOf c "DerivedLumAuxSampler"))
  derived := subclassOf c "DerivedLumAuxSampler"

/-! ### Distributions -/

section Dists
variable [∀ n, OfNat F n]

/-- distribution.py:27-32 -/
def bDistribution : Body F where
  cls := "Distribution"
  tag := some "Distribution"
  init := { required := ["name", "seed", "form"] }

/-- distribution.py:161-219 -/
def bSpatial : Body F where
  cls := "SpatialDistribution"
  tag := some "SpatialDistribution"
  abstract := ["differential_volume", "dNdV", "transform"]
  params := [("r_max", { default := some 10, vmin := some 0 })]
  init := { required := ["name", "seed"], optional := ["form"] }

/-- distribution.py:392-424; the registry attribute is misspelt there, which does not matter
because the class is abstract and every subclass has its own -/
def bLuminosity : Body F where
  cls := "LuminosityDistribution"
  tag := some "LuminosityDistribtuion"
  abstract := ["phi", "draw_luminosity"]
  init := { required := ["name", "seed"], optional := ["form"] }

/-- spherical_distribution.py:6-40 -/
def bSpherical : Body F where
  cls := "SphericalDistribution"
  tag := some "SphericalDistribution"
  defs := ["differential_volume", "transform"]
  init := { optional := ["seed", "name", "form"] }

/-- spherical_distribution.py:43-75 -/
def bConstantSpherical : Body F where
  cls := "ConstantSphericalDistribution"
  tag := some "ConstantSphericalDistribution"
  defs := ["dNdV"]
  params := [("Lambda", { default := some 1, vmin := some 0, isNorm := true })]
  init := { optional := ["seed", "name", "form"] }

/-- spherical_distribution.py:78-108 -/
def bZPowerSpherical : Body F where
  cls := "ZPowerSphericalDistribution"
  tag := some "ZPowerSphericalDistribution"
  defs := ["dNdV"]
  params := [("delta", { default := some 1 })]
  init := { optional := ["seed", "name"] }

/-- spiral_galaxy_distribution.py:7-61 -/
def bSpiralGalaxy : Body F where
  cls := "SpiralGalaxyDistribution"
  tag := some "SpiralGalaxyDistribution"
  defs := ["dNdV"]
  params := [("rho", { vmin := some 0 }), ("a", {}), ("b", {}), ("R1", {}), ("R0", {})]
  init := { optional := ["seed", "name", "form"] }

/-- flatland_distribution.py:4-38 -/
def bFlatland : Body F where
  cls := "FlatlandDistribution"
  tag := some "FlatlandDistribution"
  defs := ["differential_volume", "transform", "dNdV"]
  params := [("Lambda", { default := some 1, vmin := some 0 })]
  init := { optional := ["seed", "name", "form"] }

/-- cosmological_distribution.py:10-88 -/
def bCosmological : Body F where
  cls := "CosmologicalDistribution"
  tag := some "CosmologicalDistribution"
  defs := ["differential_volume", "transform"]
  init := { optional := ["seed", "name", "form", "truth", "is_rate"] }

/-- cosmological_distribution.py:91-146 -/
def bSFR : Body F where
  cls := "SFRDistribution"
  tag := some "SFRDistribution"
  defs := ["dNdV"]
  params := [("r0", { vmin := some 0, isNorm := true }), ("a", { vmin := some 0 }), ("rise", {}),
    ("decay", {}), ("peak", { vmin := some 0 })]
  init := { optional := ["seed", "name", "is_rate"] }

/-- cosmological_distribution.py:157-200 -/
def bZPowerCosmo : Body F where
  cls := "ZPowerCosmoDistribution"
  tag := some "ZPowerCosmoDistribution"
  defs := ["dNdV"]
  params := [("Lambda", { default := some 1, vmin := some 0, isNorm := true }), ("delta", {})]
  init := { optional := ["seed", "name", "is_rate"] }

/-- uniform_distribution.py:51-95 -/
def bUniformCosmo : Body F where
  cls := "UniformCosmoDistribution"
  tag := some "UniformCosmoDistribution"
  defs := ["dNdV"]
  params := [("r0", { vmin := some 0, isNorm := true }), ("zmin", { vmin := some 0 }),
    ("zmax", { vmin := some 0 })]
  init := { optional := ["seed", "name", "is_rate"] }

/-- bpl_distribution.py:8-64 -/
def bBPL : Body F where
  cls := "BPLDistribution"
  tag := some "BPLDistribution"
  defs := ["phi", "draw_luminosity"]
  params := [("Lmin", { vmin := some 0 }), ("alpha", {}), ("Lbreak", { vmin := some 0 }),
    ("beta", {}), ("Lmax", { vmin := some 0 })]
  init := { optional := ["seed", "name"] }

/-- log_normal_distribution.py:6-47 -/
def bLogNormal : Body F where
  cls := "LogNormalDistribution"
  tag := some "LogNormalDistribution"
  defs := ["phi", "draw_luminosity"]
  params := [("mu", {}), ("tau", { vmin := some 0 })]
  init := { optional := ["seed", "name"] }

/-- log10_normal_distribution.py:6-45 -/
def bLog10Normal : Body F where
  cls := "Log10NormalDistribution"
  tag := some "Log10NormalDistribution"
  defs := ["phi", "draw_luminosity"]
  params := [("mu", {}), ("tau", { vmin := some 0 })]
  init := { optional := ["seed", "name"] }

/-- pareto_distribution.py:6-47 -/
def bPareto : Body F where
  cls := "ParetoDistribution"
  tag := some "ParetoDistribution"
  defs := ["phi", "draw_luminosity"]
  params := [("Lmin", { default := some 1, vmin := some 0 }), ("alpha", { default := some 1 })]
  init := { optional := ["seed", "name"] }

/-- schechter_distribution.py:7-53 -/
def bSchechter : Body F where
  cls := "SchechterDistribution"
  tag := some "SchechterDistribution"
  defs := ["phi", "draw_luminosity"]
  params := [("Lmin", { default := some 1, vmin := some 0 }), ("alpha", { default := some 1 })]
  init := { optional := ["seed", "name"] }

/-- delta_distribution.py:6-58 -/
def bDelta : Body F where
  cls := "DeltaDistribution"
  tag := some "DeltaDistribution"
  defs := ["phi", "draw_luminosity"]
  params := [("Lp", { default := some 0, vmin := some 0 })]
  init := { optional := ["seed", "name"] }

/-- uniform_distribution.py:11-48 -/
def bLogUni : Body F where
  cls := "LogUniLuminiosityDistribution"
  tag := some "LogUniLuminiosityDistribution"
  defs := ["phi", "draw_luminosity"]
  params := [("Lmin", { vmin := some 0 }), ("Lmax", { vmin := some 0 })]
  init := { optional := ["seed", "name"] }

/-- The distribution classes that `import popsynth` creates (popsynth/__init__.py:9-14,
distributions/__init__.py:1-24). -/
def distClasses : List (PyClass F) :=
  let spatial : PyClass F := [bSpatial, bDistribution]
  let lum : PyClass F := [bLuminosity, bDistribution]
  let sphere := bSpherical :: spatial
  let cosmo := bCosmological :: spatial
  [[bDistribution], spatial, lum,
    bBPL :: lum, cosmo, bSFR :: cosmo, bZPowerCosmo :: cosmo, bDelta :: lum,
    bFlatland :: spatial, bLog10Normal :: lum, bLogNormal :: lum, bPareto :: lum,
    bSchechter :: lum, sphere, bConstantSpherical :: sphere,
    bZPowerSpherical :: bConstantSpherical :: sphere, bSpiralGalaxy :: sphere,
    bLogUni :: lum, bUniformCosmo :: cosmo]

/-! ### Selections -/

/-- selection_probability.py:18-28 and 109-112 -/
def bSelection : Body F where
  cls := "SelectionProbability"
  abstract := ["draw"]
  init := { optional := ["name", "use_obs_value", "use_distance", "use_luminosity", "use_flux"] }

/-- selection_probability.py:184-196 -/
def bDummy : Body F where
  cls := "DummySelection"
  tag := some "DummySelection"
  defs := ["draw"]
  init := {}

/-- generic_selectors.py:14-27 -/
def bUnity : Body F where
  cls := "UnitySelection"
  tag := some "UnitySelection"
  defs := ["draw"]
  init := { optional := ["name"] }

/-- generic_selectors.py:30-66; `half` is the literal 0.5 -/
def bBernoulli (half : F) : Body F where
  cls := "BernoulliSelection"
  tag := some "BernoulliSelection"
  defs := ["draw"]
  params := [("probability", { default := some half, vmin := some 0, vmax := some 1 })]
  init := {}

/-- generic_selectors.py:69-131 -/
def bBox : Body F where
  cls := "BoxSelection"
  tag := some "BoxSelection"
  defs := ["draw"]
  params := [("vmin", {}), ("vmax", {})]
  init := { optional := ["name", "use_obs_value", "use_distance", "use_luminosity", "use_flux"] }

/-- generic_selectors.py:134-194 -/
def bLower : Body F where
  cls := "LowerBound"
  tag := some "LowerBound"
  defs := ["draw"]
  params := [("boundary", {})]
  init := { optional := ["name", "use_obs_value", "use_distance", "use_luminosity", "use_flux"] }

/-- generic_selectors.py:197-257 -/
def bUpper : Body F where
  cls := "UpperBound"
  tag := some "UpperBound"
  defs := ["draw"]
  params := [("boundary", {})]
  init := { optional := ["name", "use_obs_value", "use_distance", "use_luminosity", "use_flux"] }

/-- generic_selectors.py:260-340 -/
def bSoft : Body F where
  cls := "SoftSelection"
  tag := some "SoftSelection"
  defs := ["draw"]
  params := [("boundary", {}), ("strength", { vmin := some 0 })]
  init := { optional := ["name", "use_obs_value", "use_distance", "use_luminosity", "use_flux"] }

/-- flux_selectors.py:8-22 -/
def bHardFlux : Body F where
  cls := "HardFluxSelection"
  tag := some "HardFluxSelection"
  defs := ["draw"]
  init := {}

/-- flux_selectors.py:25-42 -/
def bSoftFlux : Body F where
  cls := "SoftFluxSelection"
  tag := some "SoftFluxSelection"
  defs := ["draw"]
  init := {}

/-- spatial_selection.py:8-35 -/
def bSpatialSel : Body F where
  cls := "SpatialSelection"
  tag := some "SpatialSelection"
  init := { required := ["name"] }

/-- spatial_selection.py:38-67 -/
def bGalacticPlane : Body F where
  cls := "GalacticPlaneSelection"
  tag := some "GalacticPlaneSelection"
  defs := ["draw"]
  params := [("b_limit", { vmin := some 0, vmax := some 90 })]
  init := { optional := ["name"] }

/-- spatial_selection.py:73-96 -/
def bDistanceSel : Body F where
  cls := "DistanceSelection"
  tag := some "DistanceSelection"
  defs := ["draw"]
  params := [("min_distance", { vmin := some 0 }), ("max_distance", { vmin := some 0 })]
  init := { optional := ["name"] }

/-- The selection classes that `import popsynth` creates
(selection_probability/__init__.py:1-19). -/
def selClasses (half : F) : List (PyClass F) :=
  let base : PyClass F := [bSelection]
  [base, bDummy :: base, bUnity :: base, bBernoulli half :: base, bBox :: base,
    bLower :: base, bUpper :: base, bSoft :: base, bHardFlux :: bLower :: base,
    bSoftFlux :: bSoft :: base, bSpatialSel :: base, bGalacticPlane :: bSpatialSel :: base,
    bDistanceSel :: bSpatialSel :: base]

/-! ### Samplers -/

/-- auxiliary_sampler.py:167-180 and 708-711 -/
def bSampler : Body F where
  cls := "AuxiliarySampler"
  abstract := ["true_sampler"]
  init := { required := ["name"]
            optional := ["observed", "uses_distance", "uses_luminosity", "uses_sky_position"] }

/-- auxiliary_sampler.py:721-734 -/
def bNonObserved : Body F where
  cls := "NonObservedAuxSampler"
  init := { required := ["name"], optional := ["uses_distance", "uses_luminosity"] }

/-- auxiliary_sampler.py:737-755 -/
def bDerivedLum : Body F where
  cls := "DerivedLumAuxSampler"
  abstract := ["compute_luminosity"]
  init := { required := ["name"], optional := ["uses_distance"] }

/-- A class with `def __init__(self, name, observed=True)` and a `true_sampler`. -/
def bNamed (cls : String) (params : Dict (ParamDecl F)) : Body F where
  cls := cls
  tag := some cls
  defs := ["true_sampler"]
  params := params
  init := { required := ["name"], optional := ["observed"] }

/-- A class with `def __init__(self)` that hands the given name on. -/
def bUnnamed (cls name : String) (params : Dict (ParamDecl F)) : Body F where
  cls := cls
  tag := some cls
  defs := ["true_sampler"]
  params := params
  init := {}
  fixedName := some name

/-- delta_aux_sampler.py:7-50 -/
def bDeltaAux : Body F := bNamed "DeltaAuxSampler"
  [("xp", { default := some 0 }), ("sigma", { default := some 1, vmin := some 0 })]

/-- `mu`, `tau`, `sigma` -/
def normalParams : Dict (ParamDecl F) :=
  [("mu", { default := some 0 }), ("tau", { default := some 1, vmin := some 0 }),
    ("sigma", { default := some 1, vmin := some 0 })]

/-- lognormal_aux_sampler.py:7-51 -/
def bLogNormalAux : Body F := bNamed "LogNormalAuxSampler" normalParams

/-- lognormal_aux_sampler.py:54-102 -/
def bLog10NormalAux : Body F := bNamed "Log10NormalAuxSampler" normalParams

/-- normal_aux_sampler.py:6-52 -/
def bNormalAux : Body F := bNamed "NormalAuxSampler" normalParams

/-- trunc_normal_aux_sampler.py:7-80 -/
def bTruncNormalAux : Body F := bNamed "TruncatedNormalAuxSampler"
  [("mu", { default := some 0 }), ("tau", { default := some 1, vmin := some 0 }), ("lower", {}),
    ("upper", {}), ("sigma", { default := some 1, vmin := some 0 })]

/-- trunc_lognormal_aux_sampler.py:7-77 -/
def bTruncLogNormalAux : Body F := bNamed "TruncatedLogNormalAuxSampler"
  [("mu", { default := some 0 }), ("tau", { default := some 1, vmin := some 0 }),
    ("lower", { vmin := some 0 }), ("upper", { vmin := some 0 }),
    ("sigma", { default := some 1, vmin := some 0 })]

/-- trunc_lognormal_aux_sampler.py:80-153 -/
def bTruncLog10NormalAux : Body F := bNamed "TruncatedLog10NormalAuxSampler"
  [("mu", { default := some 0 }), ("tau", { default := some 1, vmin := some 0 }),
    ("sigma", { default := some 1, vmin := some 0 }), ("lower", { vmin := some 0 }),
    ("upper", { vmin := some 0 })]

/-- plaw_aux_sampler.py:9-52 -/
def bParetoAux : Body F := bNamed "ParetoAuxSampler"
  [("xmin", { default := some 1, vmin := some 0 }), ("alpha", { default := some 1, vmin := some 0 }),
    ("sigma", { default := some 1, vmin := some 0 })]

/-- plaw_aux_sampler.py:55-101 -/
def bPowerLawAux : Body F := bNamed "PowerLawAuxSampler"
  [("xmin", { default := some 1, vmin := some 0 }), ("xmax", { default := some 2, vmin := some 0 }),
    ("alpha", { default := some 1 }), ("sigma", { default := some 1, vmin := some 0 })]

/-- plaw_aux_sampler.py:104-157 -/
def bBrokenPowerLawAux : Body F := bNamed "BrokenPowerLawAuxSampler"
  [("xmin", { vmin := some 0 }), ("alpha", {}), ("xbreak", { vmin := some 0 }), ("beta", {}),
    ("xmax", { vmin := some 0 })]

/-- viewing_angle_sampler.py:6-45 -/
def bViewingAngle : Body F := bUnnamed "ViewingAngleSampler" "va"
  [("max_angle", { default := some 90, vmin := some 0, vmax := some 180 })]

/-- sky_sampler.py:50-64 -/
def bRA : Body F := bUnnamed "RASampler" "ra" []

/-- sky_sampler.py:67-83 -/
def bDec : Body F := bUnnamed "DecSampler" "dec" []

/-- The sampler classes that `import popsynth` creates (popsynth/__init__.py:2-8,
aux_samplers/__init__.py:1-11).  `sky_sampler.py` is imported by no module of the package. -/
def samplerClasses : List (PyClass F) :=
  let base : PyClass F := [bSampler]
  [base, bNonObserved :: base, bDerivedLum :: base,
    bDeltaAux :: base, bLogNormalAux :: base, bLog10NormalAux :: base, bNormalAux :: base,
    bParetoAux :: base, bPowerLawAux :: base, bBrokenPowerLawAux :: base,
    bTruncNormalAux :: base, bTruncLogNormalAux :: base, bTruncLog10NormalAux :: base,
    bViewingAngle :: bNonObserved :: base]

/-- The classes of sky_sampler.py that are samplers, 50-83 (`SkySampler` itself, 7-47, is a
plain class that holds one of each and is never registered). -/
def skyClasses : List (PyClass F) :=
  [[bRA, bNonObserved, bSampler], [bDec, bNonObserved, bSampler]]

/-- The registries after `import popsynth`. -/
def builtins (half : F) : Registry F where
  dists := register asDist distClasses
  sels := register asSel (selClasses half)
  samplers := register asSampler samplerClasses

/-- The registries if the user also imports `popsynth.aux_samplers.sky_sampler`. -/
def builtinsSky (half : F) : Registry F :=
  { builtins half with samplers := register asSampler (samplerClasses ++ skyClasses) }

end Dists

end Popsynth
