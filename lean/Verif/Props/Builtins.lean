import Verif.Model.Builtins
import Verif.Props.ConfigRead

/-!
# The registered classes and configurations (C64)
-/

set_option autoImplicit false
set_option linter.unusedSectionVars false

namespace Popsynth

variable {F : Type} [∀ n, OfNat F n] [LE F] [DecidableLE F]

namespace Spec

/-! ### The classes popsynth documents -/

def cosmoNames : List String :=
  ["SFRDistribution", "ZPowerCosmoDistribution", "UniformCosmoDistribution"]

def spatialNames : List String :=
  cosmoNames ++ ["ConstantSphericalDistribution", "ZPowerSphericalDistribution",
    "SpiralGalaxyDistribution", "FlatlandDistribution"]

def lumNames : List String :=
  ["BPLDistribution", "DeltaDistribution", "LogNormalDistribution", "Log10NormalDistribution",
    "ParetoDistribution", "SchechterDistribution", "LogUniLuminiosityDistribution"]

def selNames : List String :=
  ["UnitySelection", "BernoulliSelection", "BoxSelection", "LowerBound", "UpperBound",
    "SoftSelection", "HardFluxSelection", "SoftFluxSelection", "GalacticPlaneSelection",
    "DistanceSelection", "DummySelection"]

/-- Samplers whose users choose the name, and whether the value is observed. -/
def namedSamplers : List String :=
  ["DeltaAuxSampler", "LogNormalAuxSampler", "Log10NormalAuxSampler", "NormalAuxSampler",
    "ParetoAuxSampler", "PowerLawAuxSampler", "BrokenPowerLawAuxSampler",
    "TruncatedNormalAuxSampler", "TruncatedLogNormalAuxSampler", "TruncatedLog10NormalAuxSampler"]

/-- The numbers in the class statements are ordered like numbers. -/
structure Literals (half : F) : Prop where
  h0 : (0 : F) ≤ 0
  h1 : (0 : F) ≤ 1
  h2 : (0 : F) ≤ 2
  h10 : (0 : F) ≤ 10
  h90 : (0 : F) ≤ 90
  h180 : (90 : F) ≤ 180
  half0 : (0 : F) ≤ half
  half1 : half ≤ (1 : F)

/-- Which numbers make sense for a parameter. -/
inductive Range
  | any | nonneg | probability | latitude | angle

def Range.Has : Range → F → Prop
  | .any, _ => True
  | .nonneg, x => 0 ≤ x
  | .probability, x => 0 ≤ x ∧ x ≤ 1
  | .latitude, x => 0 ≤ x ∧ x ≤ 90
  | .angle, x => 0 ≤ x ∧ x ≤ 180

/-- The documented parameters: name, sensible values, value used if none is given. -/
abbrev Doc (F : Type) := List (String × Range × Option F)

def distDoc : List (String × Doc F) :=
  [("Distribution", []),
   ("ConstantSphericalDistribution", [("r_max", .nonneg, some 10), ("Lambda", .nonneg, some 1)]),
   ("ZPowerSphericalDistribution",
     [("r_max", .nonneg, some 10), ("Lambda", .nonneg, some 1), ("delta", .any, some 1)]),
   ("SpiralGalaxyDistribution", [("r_max", .nonneg, some 10), ("rho", .nonneg, none),
     ("a", .any, none), ("b", .any, none), ("R0", .any, none), ("R1", .any, none)]),
   ("FlatlandDistribution", [("r_max", .nonneg, some 10), ("Lambda", .nonneg, some 1)]),
   ("SFRDistribution", [("r_max", .nonneg, some 10), ("r0", .nonneg, none), ("a", .nonneg, none),
     ("rise", .any, none), ("decay", .any, none), ("peak", .nonneg, none)]),
   ("ZPowerCosmoDistribution",
     [("r_max", .nonneg, some 10), ("Lambda", .nonneg, some 1), ("delta", .any, none)]),
   ("UniformCosmoDistribution", [("r_max", .nonneg, some 10), ("r0", .nonneg, none),
     ("zmin", .nonneg, none), ("zmax", .nonneg, none)]),
   ("BPLDistribution", [("Lmin", .nonneg, none), ("Lbreak", .nonneg, none),
     ("Lmax", .nonneg, none), ("alpha", .any, none), ("beta", .any, none)]),
   ("LogNormalDistribution", [("mu", .any, none), ("tau", .nonneg, none)]),
   ("Log10NormalDistribution", [("mu", .any, none), ("tau", .nonneg, none)]),
   ("ParetoDistribution", [("Lmin", .nonneg, some 1), ("alpha", .any, some 1)]),
   ("SchechterDistribution", [("Lmin", .nonneg, some 1), ("alpha", .any, some 1)]),
   ("DeltaDistribution", [("Lp", .nonneg, some 0)]),
   ("LogUniLuminiosityDistribution", [("Lmin", .nonneg, none), ("Lmax", .nonneg, none)])]

def selDoc (half : F) : List (String × Doc F) :=
  [("DummySelection", []), ("UnitySelection", []),
   ("BernoulliSelection", [("probability", .probability, some half)]),
   ("BoxSelection", [("vmin", .any, none), ("vmax", .any, none)]),
   ("LowerBound", [("boundary", .any, none)]), ("UpperBound", [("boundary", .any, none)]),
   ("HardFluxSelection", [("boundary", .any, none)]),
   ("SoftSelection", [("boundary", .any, none), ("strength", .nonneg, none)]),
   ("SoftFluxSelection", [("boundary", .any, none), ("strength", .nonneg, none)]),
   ("GalacticPlaneSelection", [("b_limit", .latitude, none)]),
   ("DistanceSelection", [("min_distance", .nonneg, none), ("max_distance", .nonneg, none)])]

def samplerDoc : List (String × Doc F) :=
  [("DeltaAuxSampler", [("xp", .any, some 0), ("sigma", .nonneg, some 1)]),
   ("NormalAuxSampler", [("mu", .any, some 0), ("tau", .nonneg, some 1), ("sigma", .nonneg, some 1)]),
   ("LogNormalAuxSampler",
     [("mu", .any, some 0), ("tau", .nonneg, some 1), ("sigma", .nonneg, some 1)]),
   ("Log10NormalAuxSampler",
     [("mu", .any, some 0), ("tau", .nonneg, some 1), ("sigma", .nonneg, some 1)]),
   ("TruncatedNormalAuxSampler", [("mu", .any, some 0), ("tau", .nonneg, some 1),
     ("lower", .any, none), ("upper", .any, none), ("sigma", .nonneg, some 1)]),
   ("TruncatedLogNormalAuxSampler", [("mu", .any, some 0), ("tau", .nonneg, some 1),
     ("lower", .nonneg, none), ("upper", .nonneg, none), ("sigma", .nonneg, some 1)]),
   ("TruncatedLog10NormalAuxSampler", [("mu", .any, some 0), ("tau", .nonneg, some 1),
     ("lower", .nonneg, none), ("upper", .nonneg, none), ("sigma", .nonneg, some 1)]),
   ("ParetoAuxSampler",
     [("xmin", .nonneg, some 1), ("alpha", .nonneg, some 1), ("sigma", .nonneg, some 1)]),
   ("PowerLawAuxSampler", [("xmin", .nonneg, some 1), ("xmax", .nonneg, some 2),
     ("alpha", .any, some 1), ("sigma", .nonneg, some 1)]),
   ("BrokenPowerLawAuxSampler", [("xmin", .nonneg, none), ("xbreak", .nonneg, none),
     ("xmax", .nonneg, none), ("alpha", .any, none), ("beta", .any, none)]),
   ("ViewingAngleSampler", [("max_angle", .angle, some 90)])]

/-- The declared parameters are the documented ones. -/
def AsDocumented (decls : Dict (ParamDecl F)) (doc : Doc F) : Prop :=
  (∀ n, n ∈ Dict.keys decls ↔ n ∈ Dict.keys doc) ∧
  ∀ p ∈ doc, ∃ d, Dict.get? decls p.1 = some d ∧ d.default = p.2.2 ∧
    ∀ x : F, Admits d x ↔ p.2.1.Has x

/-- The object's parameters after a newly made object has been used in any way: every
assignment to and reading of declared parameters, whether or not it raised an exception. -/
inductive Made (decls : Dict (ParamDecl F)) : Obj F → Prop
  | new : Made decls {}
  | assign {o : Obj F} {n : String} {d : ParamDecl F} (v : Option F) : Made decls o →
      Dict.get? decls n = some d → Made decls (endState (paramSet d d.free n v o))
  | read {o : Obj F} {n : String} {d : ParamDecl F} : Made decls o →
      Dict.get? decls n = some d → Made decls (endState (paramGet d n o))

/-- An object of the distribution class with that name. -/
def MadeDist (half : F) (c : CDist F) : Prop :=
  ∃ k, Dict.get? (builtins half).dists c.cls = some k ∧ Made k.params c.obj

/-- An object of a selection class; if its `draw` looks at the flags they are those of a new
object changed by `flag`. -/
def MadeSel (half : F) (flag : SelFlags → SelFlags) (s : CSel F) : Prop :=
  s.cls ∈ selNames ∧ ∃ k, Dict.get? (builtins half).sels s.cls = some k ∧ Made k.params s.obj ∧
    (k.usesFlags = true → s.flags = flag k.flags0)

/-- An object of a sampler class with any selection of its observed value, but no flux
selection that has been given parameters. -/
def MadeSampler (half : F) (c : CSampler F) : Prop :=
  ((c.cls ∈ namedSamplers ∧ c.obsName = c.name ++ "_obs") ∨
    (c.cls = "ViewingAngleSampler" ∧ c.obsName = "va_obs")) ∧
  (∃ k, Dict.get? (builtins half).samplers c.cls = some k ∧ Made k.params c.obj) ∧
  MadeSel half (fun f => { f with obs := true }) c.sel ∧
  (c.sel.cls = "HardFluxSelection" ∨ c.sel.cls = "SoftFluxSelection" → truthOf c.sel.obj = []) ∧
  (Dict.keys c.secs).Nodup

/-- A synth put together from objects of registered classes. -/
structure BuiltSynth (half : F) (rank : String → Nat) (y : CSynth F) : Prop where
  spatial : y.spatial.cls ∈ spatialNames ∧ MadeDist half y.spatial
  rate : y.spatial.cls ∉ cosmoNames → y.spatial.isRate = .none
  lum : ∀ c, y.lum = some c → c.cls ∈ lumNames ∧ MadeDist half c ∧ c.isRate = .none
  flux : ∀ s, y.fluxSel = some s → MadeSel half (fun f => { f with flux := true }) s
  dist : ∀ s, y.distSel = some s → MadeSel half (fun f => { f with dist := true }) s
  spat : ∀ s, y.spatSel = some s → MadeSel half id s
  /-- all samplers are of registered classes -/
  sampler : ∀ i, Used y i → ∃ c, Dict.get? y.objs i = some c ∧ MadeSampler half c
  /-- different samplers have different names, and are filed under them -/
  names : ∀ i j c c', Used y i → Used y j → Dict.get? y.objs i = some c →
    Dict.get? y.objs j = some c' → c.name = c'.name → i = j
  auxKey : ∀ k i c, (k, i) ∈ y.aux → Dict.get? y.objs i = some c → k = c.name
  secKey : ∀ i c k j c', Used y i → Dict.get? y.objs i = some c → (k, j) ∈ c.secs →
    Dict.get? y.objs j = some c' → k = c'.name
  auxNodup : (Dict.keys y.aux).Nodup
  /-- no attached sampler is a secondary, and secondaries are not circular -/
  root : ∀ i c k j, Used y i → Dict.get? y.objs i = some c → (k, j) ∈ c.secs → ¬ Root y j
  acyclic : ∀ i c k j, Used y i → Dict.get? y.objs i = some c → (k, j) ∈ c.secs →
    rank j < rank i
  /-- no registered class is a derived luminosity sampler -/
  derived : y.derived = none

end Spec

open Spec

/-! ### The registries, class by class -/

theorem builtins_dists (half : F) : (builtins half).dists =
    let spatial : PyClass F := [bSpatial, bDistribution]
    let lum : PyClass F := [bLuminosity, bDistribution]
    let sphere := bSpherical :: spatial
    let cosmo := bCosmological :: spatial
    [("Distribution", asDist [bDistribution]),
     ("BPLDistribution", asDist (bBPL :: lum)),
     ("SFRDistribution", asDist (bSFR :: cosmo)),
     ("ZPowerCosmoDistribution", asDist (bZPowerCosmo :: cosmo)),
     ("DeltaDistribution", asDist (bDelta :: lum)),
     ("FlatlandDistribution", asDist (bFlatland :: spatial)),
     ("Log10NormalDistribution", asDist (bLog10Normal :: lum)),
     ("LogNormalDistribution", asDist (bLogNormal :: lum)),
     ("ParetoDistribution", asDist (bPareto :: lum)),
     ("SchechterDistribution", asDist (bSchechter :: lum)),
     ("ConstantSphericalDistribution", asDist (bConstantSpherical :: sphere)),
     ("ZPowerSphericalDistribution", asDist (bZPowerSpherical :: bConstantSpherical :: sphere)),
     ("SpiralGalaxyDistribution", asDist (bSpiralGalaxy :: sphere)),
     ("LogUniLuminiosityDistribution", asDist (bLogUni :: lum)),
     ("UniformCosmoDistribution", asDist (bUniformCosmo :: cosmo))] := by
  simp [builtins, register, distClasses, abstractMethods, attrAbstract, classTag, bDistribution,
    bSpatial, bLuminosity, bSpherical, bConstantSpherical, bZPowerSpherical, bSpiralGalaxy,
    bFlatland, bCosmological, bSFR, bZPowerCosmo, bUniformCosmo, bBPL, bLogNormal, bLog10Normal,
    bPareto, bSchechter, bDelta, bLogUni, Dict.set]

theorem builtins_sels (half : F) : (builtins half).sels =
    let base : PyClass F := [bSelection]
    [("DummySelection", asSel (bDummy :: base)),
     ("UnitySelection", asSel (bUnity :: base)),
     ("BernoulliSelection", asSel (bBernoulli half :: base)),
     ("BoxSelection", asSel (bBox :: base)),
     ("LowerBound", asSel (bLower :: base)),
     ("UpperBound", asSel (bUpper :: base)),
     ("SoftSelection", asSel (bSoft :: base)),
     ("HardFluxSelection", asSel (bHardFlux :: bLower :: base)),
     ("SoftFluxSelection", asSel (bSoftFlux :: bSoft :: base)),
     ("GalacticPlaneSelection", asSel (bGalacticPlane :: bSpatialSel :: base)),
     ("DistanceSelection", asSel (bDistanceSel :: bSpatialSel :: base))] := by
  simp [builtins, register, selClasses, abstractMethods, attrAbstract, classTag, bSelection, bDummy,
    bUnity, bBernoulli, bBox, bLower, bUpper, bSoft, bHardFlux, bSoftFlux, bSpatialSel,
    bGalacticPlane, bDistanceSel, Dict.set]

theorem builtins_samplers (half : F) : (builtins half).samplers =
    let base : PyClass F := [bSampler]
    [("DeltaAuxSampler", asSampler (bDeltaAux :: base)),
     ("LogNormalAuxSampler", asSampler (bLogNormalAux :: base)),
     ("Log10NormalAuxSampler", asSampler (bLog10NormalAux :: base)),
     ("NormalAuxSampler", asSampler (bNormalAux :: base)),
     ("ParetoAuxSampler", asSampler (bParetoAux :: base)),
     ("PowerLawAuxSampler", asSampler (bPowerLawAux :: base)),
     ("BrokenPowerLawAuxSampler", asSampler (bBrokenPowerLawAux :: base)),
     ("TruncatedNormalAuxSampler", asSampler (bTruncNormalAux :: base)),
     ("TruncatedLogNormalAuxSampler", asSampler (bTruncLogNormalAux :: base)),
     ("TruncatedLog10NormalAuxSampler", asSampler (bTruncLog10NormalAux :: base)),
     ("ViewingAngleSampler", asSampler (bViewingAngle :: bNonObserved :: base))] := by
  simp [builtins, register, samplerClasses, abstractMethods, attrAbstract, classTag, bSampler,
    bNonObserved, bDerivedLum, bDeltaAux, bLogNormalAux, bLog10NormalAux, bNormalAux, bParetoAux,
    bPowerLawAux, bBrokenPowerLawAux, bTruncNormalAux, bTruncLogNormalAux, bTruncLog10NormalAux,
    bViewingAngle, bNamed, bUnnamed, Dict.set]

/-! ### Which classes can be named -/

/-- **C64 (names of distributions).**  After `import popsynth` the names under which a
distribution can be asked for are exactly those of the documented classes and of the base class
`Distribution`; each of the documented ones is constructed without arguments and is of the
documented kind. -/
theorem C64_distributions (half : F) :
    (Dict.keys (builtins half).dists).Nodup ∧
    (∀ c, c ∈ Dict.keys (builtins half).dists ↔
      c = "Distribution" ∨ c ∈ spatialNames ∨ c ∈ lumNames) ∧
    ∀ c k, Dict.get? (builtins half).dists c = some k →
      (k.ctorOk = true ↔ c ≠ "Distribution") ∧ (k.spatial = true ↔ c ∈ spatialNames) ∧
      (k.luminosity = true ↔ c ∈ lumNames) ∧ (k.cosmo = true ↔ c ∈ cosmoNames) := by
  rw [builtins_dists]
  refine ⟨by simp [Dict.keys], fun c => by simp [Dict.keys, spatialNames, lumNames, cosmoNames]; grind, ?_⟩
  intro c k h
  have h := Dict.mem_of_get? h
  simp only [List.mem_cons, List.not_mem_nil, or_false, Prod.mk.injEq] at h
  rcases h with ⟨rfl, rfl⟩ | ⟨rfl, rfl⟩ | ⟨rfl, rfl⟩ | ⟨rfl, rfl⟩ | ⟨rfl, rfl⟩ | ⟨rfl, rfl⟩ |
    ⟨rfl, rfl⟩ | ⟨rfl, rfl⟩ | ⟨rfl, rfl⟩ | ⟨rfl, rfl⟩ | ⟨rfl, rfl⟩ | ⟨rfl, rfl⟩ | ⟨rfl, rfl⟩ |
    ⟨rfl, rfl⟩ | ⟨rfl, rfl⟩ <;>
  simp [asDist, initAccepts, subclassOf, spatialNames, lumNames, cosmoNames, bDistribution,
    bSpatial, bLuminosity, bSpherical, bConstantSpherical, bZPowerSpherical, bSpiralGalaxy,
    bFlatland, bCosmological, bSFR, bZPowerCosmo, bUniformCosmo, bBPL, bLogNormal, bLog10Normal,
    bPareto, bSchechter, bDelta, bLogUni]

/-- **C64 (names of selections).** -/
theorem C64_selections (half : F) :
    (Dict.keys (builtins half).sels).Nodup ∧
    (∀ c, c ∈ Dict.keys (builtins half).sels ↔ c ∈ selNames) ∧
    ∀ c k, Dict.get? (builtins half).sels c = some k → k.ctorOk = true := by
  rw [builtins_sels]
  refine ⟨by simp [Dict.keys], fun c => by simp [Dict.keys, selNames]; grind, ?_⟩
  intro c k h
  have h := Dict.mem_of_get? h
  simp only [List.mem_cons, List.not_mem_nil, or_false, Prod.mk.injEq] at h
  rcases h with ⟨rfl, rfl⟩ | ⟨rfl, rfl⟩ | ⟨rfl, rfl⟩ | ⟨rfl, rfl⟩ | ⟨rfl, rfl⟩ | ⟨rfl, rfl⟩ |
    ⟨rfl, rfl⟩ | ⟨rfl, rfl⟩ | ⟨rfl, rfl⟩ | ⟨rfl, rfl⟩ | ⟨rfl, rfl⟩ <;>
  simp [asSel, initAccepts, bSelection, bDummy, bUnity, bBernoulli, bBox, bLower, bUpper, bSoft,
    bHardFlux, bSoftFlux, bSpatialSel, bGalacticPlane, bDistanceSel]

/-- **C64 (what selections look at).** A new flux selection looks at the flux and a new object of
any other class at nothing in particular; only bounds, boxes and soft selections look at the
flags at all. -/
theorem C64_selection_flags (half : F) (c : String) (k : SelCls F)
    (h : Dict.get? (builtins half).sels c = some k) :
    (k.flags0.flux = true ↔ c = "HardFluxSelection" ∨ c = "SoftFluxSelection") ∧
    k.flags0.obs = false ∧ k.flags0.dist = false ∧ k.flags0.lum = false ∧
    (k.usesFlags = true ↔ c ∈ ["BoxSelection", "LowerBound", "UpperBound", "SoftSelection",
      "HardFluxSelection", "SoftFluxSelection"]) := by
  rw [builtins_sels] at h
  have h := Dict.mem_of_get? h
  simp only [List.mem_cons, List.not_mem_nil, or_false, Prod.mk.injEq] at h
  rcases h with ⟨rfl, rfl⟩ | ⟨rfl, rfl⟩ | ⟨rfl, rfl⟩ | ⟨rfl, rfl⟩ | ⟨rfl, rfl⟩ | ⟨rfl, rfl⟩ |
    ⟨rfl, rfl⟩ | ⟨rfl, rfl⟩ | ⟨rfl, rfl⟩ | ⟨rfl, rfl⟩ | ⟨rfl, rfl⟩ <;>
  simp [asSel, subclassOf, bSelection, bDummy, bUnity, bBernoulli, bBox, bLower, bUpper, bSoft,
    bHardFlux, bSoftFlux, bSpatialSel, bGalacticPlane, bDistanceSel]

/-- **C64 (names of samplers).**  All but `ViewingAngleSampler` take a name and, if wanted,
whether they are observed; that one takes no argument. -/
theorem C64_samplers (half : F) :
    (Dict.keys (builtins half).samplers).Nodup ∧
    (∀ c, c ∈ Dict.keys (builtins half).samplers ↔
      c ∈ namedSamplers ∨ c = "ViewingAngleSampler") ∧
    ∀ c k, Dict.get? (builtins half).samplers c = some k → k.derived = false ∧
      (c ∈ namedSamplers → ∀ n o, k.accepts n o [] = true ↔ n = true) ∧
      (c = "ViewingAngleSampler" → k.name0 = "va" ∧
        ∀ n o, k.accepts n o [] = true ↔ n = false ∧ o = false) := by
  rw [builtins_samplers]
  refine ⟨by simp [Dict.keys], fun c => by simp [Dict.keys, namedSamplers]; grind, ?_⟩
  intro c k h
  have h := Dict.mem_of_get? h
  simp only [List.mem_cons, List.not_mem_nil, or_false, Prod.mk.injEq] at h
  rcases h with ⟨rfl, rfl⟩ | ⟨rfl, rfl⟩ | ⟨rfl, rfl⟩ | ⟨rfl, rfl⟩ | ⟨rfl, rfl⟩ | ⟨rfl, rfl⟩ |
    ⟨rfl, rfl⟩ | ⟨rfl, rfl⟩ | ⟨rfl, rfl⟩ | ⟨rfl, rfl⟩ | ⟨rfl, rfl⟩ <;>
  simp [asSampler, initAccepts, subclassOf, namedSamplers, bSampler, bNonObserved, bDerivedLum, bDeltaAux, bLogNormalAux,
    bLog10NormalAux, bNormalAux, bParetoAux, bPowerLawAux, bBrokenPowerLawAux, bTruncNormalAux,
    bTruncLogNormalAux, bTruncLog10NormalAux, bViewingAngle, bNamed, bUnnamed, normalParams]

/-- **C64 (base classes of samplers).**  `AuxiliarySampler`, `NonObservedAuxSampler` and
`DerivedLumAuxSampler` want a name; only the first lets the caller say whether the property is
observed, and for the other two it is not. -/
theorem C64_bases (given : List String) :
    (initAccepts ([bSampler] : PyClass F) given = true ↔ "name" ∈ given ∧ ∀ x ∈ given,
      x = "name" ∨ x = "observed" ∨ x = "uses_distance" ∨ x = "uses_luminosity" ∨ x = "uses_sky_position") ∧
    (initAccepts ([bNonObserved, bSampler] : PyClass F) given = true ↔ "name" ∈ given ∧ ∀ x ∈ given,
      x = "name" ∨ x = "uses_distance" ∨ x = "uses_luminosity") ∧
    (initAccepts ([bDerivedLum, bSampler] : PyClass F) given = true ↔ "name" ∈ given ∧ ∀ x ∈ given,
      x = "name" ∨ x = "uses_distance") ∧
    (asSampler ([bSampler] : PyClass F)).observed0 = .bool true ∧
    (asSampler ([bNonObserved, bSampler] : PyClass F)).observed0 = .bool false ∧
    (asSampler ([bDerivedLum, bSampler] : PyClass F)).observed0 = .bool false := by
  refine ⟨?_, ?_, ?_, ?_, ?_, ?_⟩ <;>
  simp [initAccepts, asSampler, subclassOf, bSampler, bNonObserved, bDerivedLum]

/-- A class of latent properties does not take `observed`. -/
example : initAccepts ([bNonObserved, bSampler] : PyClass Int) ["name", "observed"] = false ∧
    initAccepts ([bNonObserved, bSampler] : PyClass Int) ["name", "uses_luminosity"] = true := by decide

/-! ### Defaults and parameters -/

/-- **C64 (defaults).**  Every default of a registered class is a value that can be assigned. -/
theorem C64_defaults (half : F) (hl : Literals half) (cls n : String) (d : ParamDecl F) (x : F)
    (hd : d.default = some x) :
    (∀ k, Dict.get? (builtins half).dists cls = some k → Dict.get? k.params n = some d →
      Admits d x) ∧
    (∀ k, Dict.get? (builtins half).sels cls = some k → Dict.get? k.params n = some d →
      Admits d x) ∧
    (∀ k, Dict.get? (builtins half).samplers cls = some k → Dict.get? k.params n = some d →
      Admits d x) := by
  obtain ⟨h0, h1, h2, h10, h90, h180, hh0, hh1⟩ := hl
  refine ⟨?_, ?_, ?_⟩ <;> intro k h hp <;> have h := Dict.mem_of_get? h <;>
    have hp := Dict.mem_of_get? hp
  · simp only [builtins_dists, List.mem_cons, List.not_mem_nil, or_false, Prod.mk.injEq] at h
    rcases h with ⟨rfl, rfl⟩ | ⟨rfl, rfl⟩ | ⟨rfl, rfl⟩ | ⟨rfl, rfl⟩ | ⟨rfl, rfl⟩ | ⟨rfl, rfl⟩ |
    ⟨rfl, rfl⟩ | ⟨rfl, rfl⟩ | ⟨rfl, rfl⟩ | ⟨rfl, rfl⟩ | ⟨rfl, rfl⟩ | ⟨rfl, rfl⟩ | ⟨rfl, rfl⟩ |
    ⟨rfl, rfl⟩ | ⟨rfl, rfl⟩ <;>
    simp [asDist, classParams, Dict.keys, bDistribution, bSpatial, bLuminosity, bSpherical, bConstantSpherical, bZPowerSpherical,
    bSpiralGalaxy, bFlatland, bCosmological, bSFR, bZPowerCosmo, bUniformCosmo, bBPL, bLogNormal,
    bLog10Normal, bPareto, bSchechter, bDelta, bLogUni] at hp <;>
    grind [Admits]
  · simp only [builtins_sels, List.mem_cons, List.not_mem_nil, or_false, Prod.mk.injEq] at h
    rcases h with ⟨rfl, rfl⟩ | ⟨rfl, rfl⟩ | ⟨rfl, rfl⟩ | ⟨rfl, rfl⟩ | ⟨rfl, rfl⟩ | ⟨rfl, rfl⟩ |
    ⟨rfl, rfl⟩ | ⟨rfl, rfl⟩ | ⟨rfl, rfl⟩ | ⟨rfl, rfl⟩ | ⟨rfl, rfl⟩ <;>
    simp [asSel, classParams, Dict.keys, bSelection, bDummy, bUnity, bBernoulli, bBox, bLower, bUpper, bSoft,
    bHardFlux, bSoftFlux, bSpatialSel, bGalacticPlane, bDistanceSel] at hp <;>
    grind [Admits]
  · simp only [builtins_samplers, List.mem_cons, List.not_mem_nil, or_false, Prod.mk.injEq] at h
    rcases h with ⟨rfl, rfl⟩ | ⟨rfl, rfl⟩ | ⟨rfl, rfl⟩ | ⟨rfl, rfl⟩ | ⟨rfl, rfl⟩ | ⟨rfl, rfl⟩ |
    ⟨rfl, rfl⟩ | ⟨rfl, rfl⟩ | ⟨rfl, rfl⟩ | ⟨rfl, rfl⟩ | ⟨rfl, rfl⟩ <;>
    simp [asSampler, classParams, Dict.keys, bSampler, bNonObserved, bDerivedLum, bDeltaAux, bLogNormalAux,
    bLog10NormalAux, bNormalAux, bParetoAux, bPowerLawAux, bBrokenPowerLawAux, bTruncNormalAux,
    bTruncLogNormalAux, bTruncLog10NormalAux, bViewingAngle, bNamed, bUnnamed, normalParams] at hp <;>
    grind [Admits]

/-- **C64 (parameters).**  The parameters that can be given to a registered class, the values
accepted for them and the values used without them are the documented ones. -/
theorem C64_parameters (half : F) (cls : String) :
    (∀ k, Dict.get? (builtins half).dists cls = some k → ∃ doc, (cls, doc) ∈ distDoc ∧
      AsDocumented k.params doc) ∧
    (∀ k, Dict.get? (builtins half).sels cls = some k → ∃ doc, (cls, doc) ∈ selDoc half ∧
      AsDocumented k.params doc) ∧
    (∀ k, Dict.get? (builtins half).samplers cls = some k → ∃ doc, (cls, doc) ∈ samplerDoc ∧
      AsDocumented k.params doc) := by
  refine ⟨?_, ?_, ?_⟩ <;> intro k h <;> have h := Dict.mem_of_get? h
  · simp only [builtins_dists, List.mem_cons, List.not_mem_nil, or_false, Prod.mk.injEq] at h
    rcases h with ⟨rfl, rfl⟩ | ⟨rfl, rfl⟩ | ⟨rfl, rfl⟩ | ⟨rfl, rfl⟩ | ⟨rfl, rfl⟩ | ⟨rfl, rfl⟩ |
    ⟨rfl, rfl⟩ | ⟨rfl, rfl⟩ | ⟨rfl, rfl⟩ | ⟨rfl, rfl⟩ | ⟨rfl, rfl⟩ | ⟨rfl, rfl⟩ |
    ⟨rfl, rfl⟩ | ⟨rfl, rfl⟩ | ⟨rfl, rfl⟩ <;>
    (refine ⟨_, by
        simp only [distDoc, List.mem_cons, Prod.mk.injEq, String.reduceEq, false_and, true_and,
          false_or, or_false]
        first
          | rfl
          | exact .inl rfl, ?_, ?_⟩
     · intro n
       simp [asDist, classParams, Dict.keys, bDistribution, bSpatial, bLuminosity, bSpherical,
         bConstantSpherical, bZPowerSpherical, bSpiralGalaxy, bFlatland, bCosmological, bSFR,
         bZPowerCosmo, bUniformCosmo, bBPL, bLogNormal, bLog10Normal, bPareto, bSchechter, bDelta,
         bLogUni] <;>
       grind
     · simp [asDist, classParams, Dict.get?, Dict.keys, Admits, Range.Has,
         bDistribution, bSpatial, bLuminosity, bSpherical,
         bConstantSpherical, bZPowerSpherical, bSpiralGalaxy, bFlatland, bCosmological, bSFR,
         bZPowerCosmo, bUniformCosmo, bBPL, bLogNormal, bLog10Normal, bPareto, bSchechter, bDelta,
         bLogUni])
  · simp only [builtins_sels, List.mem_cons, List.not_mem_nil, or_false, Prod.mk.injEq] at h
    rcases h with ⟨rfl, rfl⟩ | ⟨rfl, rfl⟩ | ⟨rfl, rfl⟩ | ⟨rfl, rfl⟩ | ⟨rfl, rfl⟩ | ⟨rfl, rfl⟩ |
    ⟨rfl, rfl⟩ | ⟨rfl, rfl⟩ | ⟨rfl, rfl⟩ | ⟨rfl, rfl⟩ | ⟨rfl, rfl⟩ <;>
    (refine ⟨_, by
        simp only [selDoc, List.mem_cons, Prod.mk.injEq, String.reduceEq, false_and, true_and,
          false_or, or_false]
        first
          | rfl
          | exact .inl rfl, ?_, ?_⟩
     · intro n
       simp [asSel, classParams, Dict.keys, bSelection, bDummy, bUnity, bBernoulli, bBox, bLower, bUpper,
         bSoft, bHardFlux, bSoftFlux, bSpatialSel, bGalacticPlane, bDistanceSel] <;>
       grind
     · simp [asSel, classParams, Dict.get?, Dict.keys, Admits, Range.Has,
         bSelection, bDummy, bUnity, bBernoulli, bBox, bLower, bUpper,
         bSoft, bHardFlux, bSoftFlux, bSpatialSel, bGalacticPlane, bDistanceSel])
  · simp only [builtins_samplers, List.mem_cons, List.not_mem_nil, or_false, Prod.mk.injEq] at h
    rcases h with ⟨rfl, rfl⟩ | ⟨rfl, rfl⟩ | ⟨rfl, rfl⟩ | ⟨rfl, rfl⟩ | ⟨rfl, rfl⟩ | ⟨rfl, rfl⟩ |
    ⟨rfl, rfl⟩ | ⟨rfl, rfl⟩ | ⟨rfl, rfl⟩ | ⟨rfl, rfl⟩ | ⟨rfl, rfl⟩ <;>
    (refine ⟨_, by
        simp only [samplerDoc, List.mem_cons, Prod.mk.injEq, String.reduceEq, false_and, true_and,
          false_or, or_false]
        first
          | rfl
          | exact .inl rfl, ?_, ?_⟩
     · intro n
       simp [asSampler, classParams, Dict.keys, bSampler, bNonObserved, bDerivedLum, bDeltaAux,
         bLogNormalAux, bLog10NormalAux, bNormalAux, bParetoAux, bPowerLawAux, bBrokenPowerLawAux,
         bTruncNormalAux, bTruncLogNormalAux, bTruncLog10NormalAux, bViewingAngle, bNamed, bUnnamed,
         normalParams] <;>
       grind
     · simp [asSampler, classParams, Dict.get?, Dict.keys, Admits, Range.Has,
         bSampler, bNonObserved, bDerivedLum, bDeltaAux,
         bLogNormalAux, bLog10NormalAux, bNormalAux, bParetoAux, bPowerLawAux, bBrokenPowerLawAux,
         bTruncNormalAux, bTruncLogNormalAux, bTruncLog10NormalAux, bViewingAngle, bNamed, bUnnamed,
         normalParams])

/-- What an object holds after any use. -/
theorem Spec.Made.holds {decls : Dict (ParamDecl F)} {o : Obj F} (h : Made decls o)
    (hd : ∀ n d x, Dict.get? decls n = some d → d.default = some x → Admits d x) :
    (Dict.keys o.storage).Nodup ∧ (∀ n, Dict.get? decls n = none → Dict.get? o.storage n = none) ∧
    ∀ n x, Dict.get? o.storage n = some (some x) → ∃ d, Dict.get? decls n = some d ∧ Admits d x := by
  classical
  induction h with
  | new => exact ⟨by simp [Dict.keys], fun _ _ => rfl, fun n x h => by cases h⟩
  | @assign o m d v _ hm ih =>
    obtain ⟨i1, i2, i3⟩ := ih
    refine ⟨nodup_paramSet _ _ _ _ _ i1, ?_, ?_⟩
    · intro n hn
      rw [storage_after_set, if_neg, i2 n hn]
      rintro ⟨rfl, _⟩
      rw [hm] at hn; cases hn
    · intro n x hx
      rw [storage_after_set] at hx
      split at hx
      · rename_i hc
        obtain ⟨rfl, hf, hb⟩ := hc
        cases hx
        exact ⟨d, hm, hf, hb.1, hb.2⟩
      · exact i3 n x hx
  | @read o m d _ hm ih =>
    obtain ⟨i1, i2, i3⟩ := ih
    refine ⟨nodup_paramGet _ _ _ i1, ?_, ?_⟩
    · intro n hn
      rw [storage_after_get, if_neg, i2 n hn]
      rintro ⟨rfl, _⟩
      rw [hm] at hn; cases hn
    · intro n x hx
      rw [storage_after_get] at hx
      split at hx
      · rename_i hc
        obtain ⟨rfl, _⟩ := hc
        exact ⟨d, hm, hd _ _ _ hm (Option.some.inj hx)⟩
      · exact i3 n x hx

theorem Spec.Made.paramsOk {decls : Dict (ParamDecl F)} {o : Obj F} (h : Made decls o)
    (hd : ∀ n d x, Dict.get? decls n = some d → d.default = some x → Admits d x) :
    ParamsOk decls o := by
  obtain ⟨h1, _, h3⟩ := h.holds hd
  refine ⟨h1, fun k v hm => h3 k v ?_⟩
  have := Dict.get?_of_mem (nodup_truthOf o h1) hm
  rw [truthOf_get? o h1] at this
  cases hg : Dict.get? o.storage k with
  | none => rw [hg] at this; cases this
  | some w => rw [hg] at this; exact congrArg some this

/-- No parameter of a sampler is called like one of the other keys of its entry. -/
theorem builtins_reserved (half : F) (cls n : String) (k : SamplerCls F)
    (h : Dict.get? (builtins half).samplers cls = some k) (hn : n ∈ reserved) :
    Dict.get? k.params n = none := by
  have h := Dict.mem_of_get? h
  simp only [builtins_samplers, List.mem_cons, List.not_mem_nil, or_false, Prod.mk.injEq] at h
  simp only [reserved, List.mem_cons, List.not_mem_nil, or_false] at hn
  rcases h with ⟨rfl, rfl⟩ | ⟨rfl, rfl⟩ | ⟨rfl, rfl⟩ | ⟨rfl, rfl⟩ | ⟨rfl, rfl⟩ | ⟨rfl, rfl⟩ |
    ⟨rfl, rfl⟩ | ⟨rfl, rfl⟩ | ⟨rfl, rfl⟩ | ⟨rfl, rfl⟩ | ⟨rfl, rfl⟩ <;>
  rcases hn with rfl | rfl | rfl | rfl | rfl <;>
  simp [asSampler, classParams, Dict.keys, Dict.get?, bSampler, bNonObserved, bDerivedLum, bDeltaAux, bLogNormalAux,
    bLog10NormalAux, bNormalAux, bParetoAux, bPowerLawAux, bBrokenPowerLawAux, bTruncNormalAux,
    bTruncLogNormalAux, bTruncLog10NormalAux, bViewingAngle, bNamed, bUnnamed, normalParams]

/-- Only the flux selections inherit parameters. -/
theorem builtins_own (half : F) (cls n : String) (k : SelCls F) (d : ParamDecl F)
    (h : Dict.get? (builtins half).sels cls = some k) (hn : Dict.get? k.params n = some d) :
    n ∈ k.own ∨ cls = "HardFluxSelection" ∨ cls = "SoftFluxSelection" := by
  have h := Dict.mem_of_get? h
  have hn := Dict.mem_of_get? hn
  simp only [builtins_sels, List.mem_cons, List.not_mem_nil, or_false, Prod.mk.injEq] at h
  rcases h with ⟨rfl, rfl⟩ | ⟨rfl, rfl⟩ | ⟨rfl, rfl⟩ | ⟨rfl, rfl⟩ | ⟨rfl, rfl⟩ | ⟨rfl, rfl⟩ |
    ⟨rfl, rfl⟩ | ⟨rfl, rfl⟩ | ⟨rfl, rfl⟩ | ⟨rfl, rfl⟩ | ⟨rfl, rfl⟩ <;>
  simp [asSel, classParams, ownParams, Dict.keys, bSelection, bDummy, bUnity, bBernoulli, bBox, bLower, bUpper, bSoft,
    bHardFlux, bSoftFlux, bSpatialSel, bGalacticPlane, bDistanceSel] at hn ⊢ <;>
  grind

theorem madeDist_ok (half : F) (hl : Literals half) (kind : DistCls F → Bool) (c : CDist F)
    (h : MadeDist half c) (hb : c.cls ≠ "Distribution")
    (hk : ∀ k, Dict.get? (builtins half).dists c.cls = some k → kind k = true) :
    DistOk (builtins half) kind c := by
  obtain ⟨k, h1, h2⟩ := h
  refine ⟨k, h1, (((C64_distributions half).2.2 _ _ h1).1).2 hb, hk k h1, h2.paramsOk ?_⟩
  exact fun n d x e1 e2 => (C64_defaults half hl c.cls n d x e2).1 k h1 e1

theorem madeSel_ok (half : F) (hl : Literals half) (flag : SelFlags → SelFlags) (s : CSel F)
    (h : MadeSel half flag s) : SelOk (builtins half) flag s := by
  obtain ⟨_, k, h1, h2, h3⟩ := h
  refine ⟨k, h1, (C64_selections half).2.2 _ _ h1, h2.paramsOk ?_, h3⟩
  exact fun n d x e1 e2 => (C64_defaults half hl s.cls n d x e2).2.1 k h1 e1

theorem madeSampler_ok (half : F) (hl : Literals half) (c : CSampler F)
    (h : MadeSampler half c) : SamplerOk (builtins half) c := by
  obtain ⟨h1, ⟨k, h2, h3⟩, h4, h5, h6⟩ := h
  have hdef : ∀ n d x, Dict.get? k.params n = some d → d.default = some x → Admits d x :=
    fun n d x e1 e2 => (C64_defaults half hl c.cls n d x e2).2.2 k h2 e1
  obtain ⟨_, a1, a2⟩ := (C64_samplers half).2.2 _ _ h2
  refine ⟨k, h2, ?_, h3.paramsOk hdef, ?_, madeSel_ok half hl _ _ h4, ?_, h6⟩
  · rcases h1 with ⟨e1, e2⟩ | ⟨e1, e2⟩
    · exact .inl ⟨(a1 e1 _ _).2 rfl, e2⟩
    · obtain ⟨b1, b2⟩ := a2 e1
      refine .inr (.inr (.inr ⟨?_, ?_, ?_, (b2 _ _).2 ⟨rfl, rfl⟩, ?_⟩))
      · have := b2 true true; simpa using this
      · have := b2 false true; simpa using this
      · have := b2 true false; simpa using this
      · rw [b1, e2]; rfl
  · intro n hn hm
    have := (h3.holds hdef).2.1 n (builtins_reserved half _ _ _ h2 hn)
    rw [← Dict.get?_isSome_iff, this] at hm
    cases hm
  · intro k' hk' n v hm
    obtain ⟨_, k2, g1, g2, _⟩ := h4
    rw [g1] at hk'; cases hk'
    obtain ⟨_, p2⟩ := g2.paramsOk
      (fun n d x e1 e2 => (C64_defaults half hl c.sel.cls n d x e2).2.1 _ g1 e1)
    obtain ⟨d, q1, _⟩ := p2 n v hm
    rcases builtins_own half _ _ _ _ g1 q1 with h | h
    · exact h
    · rw [h5 h] at hm; cases hm

theorem rate0_builtin (half : F) (cls : String) (k : DistCls F)
    (h : Dict.get? (builtins half).dists cls = some k) :
    k.rate0 = if k.cosmo then .bool true else .none := by
  have h := Dict.mem_of_get? h
  simp only [builtins_dists, List.mem_cons, List.not_mem_nil, or_false, Prod.mk.injEq] at h
  rcases h with ⟨rfl, rfl⟩ | ⟨rfl, rfl⟩ | ⟨rfl, rfl⟩ | ⟨rfl, rfl⟩ | ⟨rfl, rfl⟩ | ⟨rfl, rfl⟩ |
    ⟨rfl, rfl⟩ | ⟨rfl, rfl⟩ | ⟨rfl, rfl⟩ | ⟨rfl, rfl⟩ | ⟨rfl, rfl⟩ | ⟨rfl, rfl⟩ | ⟨rfl, rfl⟩ |
    ⟨rfl, rfl⟩ | ⟨rfl, rfl⟩ <;> rfl

theorem built_config (half : F) (hl : Literals half) (rank : String → Nat) (y : CSynth F)
    (h : BuiltSynth half rank y) : Config (builtins half) rank y where
  spatial := by
    refine madeDist_ok half hl _ _ h.spatial.2 ?_ ?_
    · have := h.spatial.1
      intro e; rw [e] at this
      simp [spatialNames, cosmoNames] at this
    · intro k hk
      exact ((C64_distributions half).2.2 _ _ hk).2.1.2 h.spatial.1
  rate := by
    intro hc k hk
    have hk' : k.cosmo = false := by
      unfold Registry.cosmo at hc; rw [hk] at hc; exact hc
    rw [rate0_builtin half _ _ hk, hk']
    refine h.rate fun hm => ?_
    have := ((C64_distributions half).2.2 _ _ hk).2.2.2.2 hm
    rw [hk'] at this; cases this
  notRate := by
    have := h.spatial.1
    intro e; rw [e] at this
    simp [spatialNames, cosmoNames] at this
  lum := by
    intro c hc
    obtain ⟨h1, h2, h3⟩ := h.lum c hc
    refine ⟨madeDist_ok half hl _ _ h2 ?_ ?_, ?_⟩
    · intro e; rw [e] at h1
      simp [lumNames] at h1
    · intro k hk
      exact ((C64_distributions half).2.2 _ _ hk).2.2.1.2 h1
    · intro k hk
      have : k.cosmo = false := by
        cases hc : k.cosmo with
        | false => rfl
        | true =>
          have := ((C64_distributions half).2.2 _ _ hk).2.2.2.1 hc
          simp only [lumNames, List.mem_cons, List.not_mem_nil, or_false] at h1
          rcases h1 with e | e | e | e | e | e | e <;> rw [e] at this <;> simp [cosmoNames] at this
      rw [rate0_builtin half _ _ hk, this, h3]; rfl
  flux := fun s hs => madeSel_ok half hl _ _ (h.flux s hs)
  dist := fun s hs => madeSel_ok half hl _ _ (h.dist s hs)
  spat := fun s hs => madeSel_ok half hl _ _ (h.spat s hs)
  sampler := by
    intro i hi
    obtain ⟨c, h1, h2⟩ := h.sampler i hi
    exact ⟨c, h1, madeSampler_ok half hl c h2⟩
  names := h.names
  auxKey := h.auxKey
  secKey := h.secKey
  auxNodup := h.auxNodup
  root := h.root
  attached := by
    intro k i c hm hc
    obtain ⟨c', h1, _, ⟨k', h2, _⟩, _⟩ := h.sampler i (.root (.inl ⟨k, hm⟩))
    rw [hc] at h1; cases h1
    unfold Registry.derived
    rw [h2]
    exact ((C64_samplers half).2.2 _ _ h2).1
  acyclic := h.acyclic
  derived := by intro i c hi; rw [h.derived] at hi; cases hi

/-- **C64 (round trip).**  A synth put together from objects of any registered classes, used in
any way, is described completely by `to_dict`, and `from_dict` rebuilds it.  Missing for the full
claim, and false there: samplers with a flux selection that has parameters
(`C64_violated_flux_roundtrip`), the sky samplers (`C64_violated_sky`) and circular secondaries
(`C64_violated_circle`); classes written by users, hence derived luminosity samplers, are only
covered by `C41_roundtrip_partial`. -/
theorem C64_roundtrip_partial (half : F) (hl : Literals half) (C : Conv F) (rank : String → Nat)
    (fuel : Nat) (y : CSynth F) (hy : BuiltSynth half rank y) (hf : ∀ i, Root y i → rank i < fuel) :
    ∃ d y' d', toDict (builtins half) fuel y = .ok d ∧ fromDict (builtins half) C d = .ok y' d' ∧
      SameConfig (builtins half) y y' :=
  C41_roundtrip_partial (builtins half) C rank fuel y (built_config half hl rank y hy) hf

/-! ### What has been read can be written and read again -/

/-- No registered sampler takes extra arguments. -/
theorem builtins_extra (half : F) (cls : String) (k : SamplerCls F) (n o : Bool) (l : List String)
    (h : Dict.get? (builtins half).samplers cls = some k) (ha : k.accepts n o l = true) : l = [] := by
  have h := Dict.mem_of_get? h
  simp only [builtins_samplers, List.mem_cons, List.not_mem_nil, or_false, Prod.mk.injEq] at h
  cases l with
  | nil => rfl
  | cons a l =>
    exfalso
    rcases h with ⟨rfl, rfl⟩ | ⟨rfl, rfl⟩ | ⟨rfl, rfl⟩ | ⟨rfl, rfl⟩ | ⟨rfl, rfl⟩ | ⟨rfl, rfl⟩ |
    ⟨rfl, rfl⟩ | ⟨rfl, rfl⟩ | ⟨rfl, rfl⟩ | ⟨rfl, rfl⟩ | ⟨rfl, rfl⟩ <;>
    revert ha <;> cases n <;> cases o <;>
    simp [asSampler, initAccepts, bSampler, bNonObserved, bDerivedLum, bDeltaAux, bLogNormalAux,
    bLog10NormalAux, bNormalAux, bParetoAux, bPowerLawAux, bBrokenPowerLawAux, bTruncNormalAux,
    bTruncLogNormalAux, bTruncLog10NormalAux, bViewingAngle, bNamed, bUnnamed] <;>
    grind

theorem Spec.ParamsRead.ok {C : Conv F} {decls : Dict (ParamDecl F)}
    {decl : String → Option (ParamDecl F)} {ps : Dict (PVal F)} {o : Obj F}
    (hd : ∀ n d, decl n = some d → Dict.get? decls n = some d) (h : ParamsRead C decl ps o) :
    ParamsOk decls o ∧ ∀ n v, (n, v) ∈ truthOf o → decl n ≠ none := by
  have key : ∀ n v, (n, v) ∈ truthOf o → ∃ dc, decl n = some dc ∧ Admits dc v := by
    intro n v hm
    have hg := Dict.get?_of_mem (nodup_truthOf o h.once) hm
    rw [truthOf_get? o h.once] at hg
    cases hp : Dict.get? ps n with
    | none => rw [h.unset n (.inl hp)] at hg; cases hg
    | some w =>
      cases hdn : decl n with
      | none => rw [h.unset n (.inr hdn)] at hg; cases hg
      | some dc =>
        obtain ⟨x, _, h2, h3⟩ := h.given n w dc hp hdn
        rw [h3] at hg
        cases hg
        exact ⟨dc, rfl, h2⟩
  refine ⟨⟨h.once, fun n v hm => ?_⟩, fun n v hm e => ?_⟩
  · obtain ⟨dc, h1, h2⟩ := key n v hm
    exact ⟨dc, hd n dc h1, h2⟩
  · obtain ⟨dc, h1, _⟩ := key n v hm
    rw [e] at h1; cases h1

theorem Spec.SelSection.ok {R : Registry F} {C : Conv F} {names : SelCls F → String → Bool}
    {look : SelFlags → SelFlags} {v : PVal F} {s : CSel F}
    (h : SelSection R C names look v s) :
    SelOk R look s ∧ ∀ k, Dict.get? R.sels s.cls = some k → ∀ n v, (n, v) ∈ truthOf s.obj →
      names k n = true := by
  obtain ⟨p, ps, rest, K, _, _, h3, h4, h5, h6⟩ := h
  obtain ⟨a1, a2⟩ := h6.ok (decls := K.params) (by
    intro n d hn
    split at hn
    · exact hn
    · cases hn)
  refine ⟨⟨K, h3, h4, a1, fun _ => h5⟩, ?_⟩
  intro k hk n v hm
  rw [h3] at hk; cases hk
  have := a2 n v hm
  split at this
  · assumption
  · exact absurd rfl this

theorem mem_upToNone {l : List (Option String)} {s : String} (h : s ∈ upToNone l) : some s ∈ l := by
  unfold upToNone at h
  rw [List.mem_filterMap] at h
  obtain ⟨a, h1, h2⟩ := h
  cases h2
  exact (List.takeWhile_sublist _).subset h1

/-- What `from_dict` builds with the registered classes is a configuration that `to_dict` can
describe, unless secondaries go round in a circle. -/
theorem read_config (half : F) (C : Conv F) (d e : Dict (PVal F)) (y : CSynth F)
    (hd : Proper (.dict d)) (h : fromDict (builtins half) C d = .ok y e) (rank : String → Nat)
    (hac : ∀ i c k j, Used y i → Dict.get? y.objs i = some c → (k, j) ∈ c.secs → rank j < rank i) :
    Config (builtins half) rank y := by
  have hD := C63_reads (builtins half) C d e y hd h
  -- the samplers
  have hder : ∀ cls, (builtins half).derived cls = false := by
    intro cls
    unfold Registry.derived
    split
    · rfl
    · rename_i k hk; exact ((C64_samplers half).2.2 _ _ hk).1
  have hS : y.derived = none ∧ (∀ i, Used y i → ∃ c, Dict.get? y.objs i = some c) ∧
      (∀ i c, Dict.get? y.objs i = some c → c.name = i ∧ SamplerOk (builtins half) c) ∧
      (∀ k i, (k, i) ∈ y.aux → k = nameAt y.objs i) ∧ (Dict.keys y.aux).Nodup ∧
      (∀ i c k j, Dict.get? y.objs i = some c → (k, j) ∈ c.secs →
        k = nameAt y.objs j ∧ ¬ Root y j) := by
    rcases hD.samplers with ⟨_, h1, h2, h3⟩ | ⟨E, sec, _, hs⟩
    · refine ⟨h3, ?_, ?_, ?_, ?_, ?_⟩
      · intro i hi
        induction hi with
        | root hr =>
          rcases hr with ⟨k, hm⟩ | hm
          · rw [h2] at hm; cases hm
          · rw [h3] at hm; cases hm
        | sec _ hg => rw [h1] at hg; cases hg
      · intro i c hg; rw [h1] at hg; cases hg
      · intro k i hm; rw [h2] at hm; cases hm
      · rw [h2]; simp [Dict.keys]
      · intro i c k j hg; rw [h1] at hg; cases hg
    · have hdn : y.derived = none := by
        rw [hs.derived]
        have : ∀ k, derivedAt (builtins half) y.objs k = false := by
          intro k; unfold derivedAt
          cases Dict.get? y.objs k with
          | none => rfl
          | some c => exact hder c.cls
        simp [this]
      have hin : ∀ k ∈ Dict.keys E, ∃ c, Dict.get? y.objs k = some c := by
        intro k hk
        rw [← hs.keys, ← Dict.get?_isSome_iff] at hk
        exact Option.isSome_iff_exists.1 hk
      have hsec : ∀ i c k j, Dict.get? y.objs i = some c → (k, j) ∈ c.secs →
          j ∈ upToNone (sec i) ∧ nameAt y.objs j = k := by
        intro i c k j hg hm
        have hn : (Dict.keys c.secs).Nodup := by rw [hs.order i c hg]; exact nodup_firsts _
        have := Dict.get?_of_mem hn hm
        rw [hs.secs i c hg] at this
        have := List.mem_of_getLast? this
        rw [List.mem_filter] at this
        exact ⟨this.1, of_decide_eq_true this.2⟩
      have hkey : ∀ i c, Dict.get? y.objs i = some c → i ∈ Dict.keys E := by
        intro i c hg
        rw [← hs.keys, ← Dict.get?_isSome_iff, hg]; rfl
      have haux : ∀ k i, (k, i) ∈ y.aux → i ∈ Dict.keys E ∧ k = nameAt y.objs i ∧
          ∀ p ∈ Dict.keys E, some i ∉ sec p := by
        intro k i hm
        rw [hs.attached, List.mem_map] at hm
        obtain ⟨a, h1, h2⟩ := hm
        cases h2
        rw [List.mem_filter] at h1
        simp only [Bool.and_eq_true, decide_eq_true_eq] at h1
        exact ⟨h1.1, rfl, h1.2.2⟩
      refine ⟨hdn, ?_, ?_, fun k i hm => (haux k i hm).2.1, hs.distinct, ?_⟩
      · intro i hi
        cases hi with
        | root hr =>
          rcases hr with ⟨k, hm⟩ | hm
          · exact hin _ (haux k i hm).1
          · rw [hdn] at hm; cases hm
        | @sec i' _ k c hu hg hm =>
          exact hin _ (hs.known i' (hkey _ _ hg) _ (hsec _ _ _ _ hg hm).1)
      · intro i c hg
        have hi := hkey i c hg
        rw [← Dict.get?_isSome_iff] at hi
        obtain ⟨ev, hev⟩ := Option.isSome_iff_exists.1 hi
        obtain ⟨c', g1, items, K, obs, extra, sel, _, _, e3, _, _, e6, e7, e8, e9, _⟩ :=
          hs.entry i ev hev
        rw [hg] at g1; cases g1
        obtain ⟨p1, p2⟩ := e7.ok (decls := K.params) (by
          intro n dc hn
          split at hn
          · cases hn
          · exact hn)
        obtain ⟨_, a1, a2⟩ := (C64_samplers half).2.2 _ _ e3
        have hc : c.name = i ∧ CtorOk K c := by
          have hcls := ((C64_samplers half).2.1 c.cls).1 (by
            rw [← Dict.get?_isSome_iff, e3]; rfl)
          cases e6 with
          | both q1 q2 q3 _ =>
            have := builtins_extra half _ _ _ _ _ e3 q1
            subst this
            exact ⟨q2, .inl ⟨q1, by rw [q2]; exact q3⟩⟩
          | noName q1 q2 _ _ _ =>
            have := builtins_extra half _ _ _ _ _ e3 q2
            subst this
            rcases hcls with hcls | hcls
            · have := (a1 hcls _ _).1 q2; cases this
            · have := ((a2 hcls).2 _ _).1 q2; cases this.2
          | noObserved q1 q2 q3 _ _ _ =>
            have := builtins_extra half _ _ _ _ _ e3 q3
            subst this
            rcases hcls with hcls | hcls
            · have := (a1 hcls true true).2 rfl
              rw [this] at q1; cases q1
            · have := ((a2 hcls).2 _ _).1 q3; cases this.1
          | neither q1 q2 q3 q4 q5 q6 _ =>
            have := builtins_extra half _ _ _ _ _ e3 q4
            subst this
            exact ⟨q5, .inr (.inr (.inr ⟨q1, q2, q3, q4, q6⟩))⟩
        refine ⟨hc.1, K, e3, hc.2, p1, ?_, ?_, ?_, ?_⟩
        · intro n hn hm
          have := e7.unset n (.inr (by rw [if_pos hn]))
          rw [← Dict.get?_isSome_iff, this] at hm
          cases hm
        · rcases e8 with ⟨_, rfl⟩ | ⟨v', s', _, rfl, hs'⟩
          · rw [e9]
            refine ⟨asSel [bUnity, bSelection], ?_, rfl, ⟨by simp [Dict.keys], ?_⟩, ?_⟩
            · rw [builtins_sels]; rfl
            · intro n v hm; cases hm
            · intro hu
              simp [asSel, subclassOf, bUnity, bSelection] at hu
          · rw [e9]; exact hs'.ok.1
        · rcases e8 with ⟨_, rfl⟩ | ⟨v', s', _, rfl, hs'⟩
          · rw [e9]
            intro k _ n v hm; cases hm
          · rw [e9]
            intro k hk n v hm
            exact of_decide_eq_true (hs'.ok.2 k hk n v hm)
        · rw [hs.order i c hg]; exact nodup_firsts _
      · intro i c k j hg hm
        obtain ⟨h1, h2⟩ := hsec i c k j hg hm
        refine ⟨h2.symm, ?_⟩
        rintro (⟨k', hr⟩ | hr)
        · exact (haux _ _ hr).2.2 i (hkey _ _ hg) (mem_upToNone h1)
        · rw [hdn] at hr; cases hr
  obtain ⟨s1, s2, s3, s4, s5, s6⟩ := hS
  have hname : ∀ i c, Dict.get? y.objs i = some c → nameAt y.objs i = c.name := by
    intro i c hg; simp [nameAt, hg]
  have hsel : ∀ look v s s', SelRead (builtins half) C (fun _ _ => true) look v s → s = some s' →
      SelOk (builtins half) look s' := by
    intro look v s s' hr hs'
    rcases hr with ⟨_, rfl⟩ | ⟨v', s2, _, rfl, hr⟩
    · cases hs'
    · cases hs'; exact hr.ok.1
  have hsp := hD.spatial
  obtain ⟨v, K, _, ⟨ps, rest, _, g1, g2, g3⟩, g4, _, g6⟩ := hsp
  refine
    { spatial := ⟨K, g1, g2, g4, (g3.ok fun _ _ hh => hh).1⟩
      rate := ?_
      notRate := ?_
      lum := ?_
      flux := fun s hs => hsel _ _ _ _ hD.flux hs
      dist := fun s hs => hsel _ _ _ _ hD.dist hs
      spat := fun s hs => hsel _ _ _ _ hD.spat hs
      sampler := ?_
      names := ?_
      auxKey := ?_
      secKey := ?_
      auxNodup := s5
      root := fun i c k j _ hg hm => (s6 i c k j hg hm).2
      attached := fun _ _ _ _ _ => hder _
      acyclic := hac
      derived := fun i c hi => by rw [s1] at hi; cases hi }
  · intro hc k hk
    rw [g1] at hk; cases hk
    refine g6 ?_
    unfold Registry.cosmo at hc; rw [g1] at hc; exact hc
  · intro e
    have := ((C64_distributions half).2.1 y.spatial.cls).1 (by
      rw [← Dict.get?_isSome_iff, g1]; rfl)
    rw [e] at this
    simp [spatialNames, cosmoNames, lumNames] at this
  · intro c hc
    rcases hD.lum with ⟨_, hl⟩ | ⟨v, c', K', _, hl, ⟨ps', rest', _, l1, l2, l3⟩, l4, l5⟩
    · rw [hl] at hc; cases hc
    · rw [hl] at hc; cases hc
      refine ⟨⟨K', l1, l2, l4, (l3.ok fun _ _ hh => hh).1⟩, ?_⟩
      intro k hk
      rw [l1] at hk; cases hk
      exact l5
  · intro i hi
    obtain ⟨c, hg⟩ := s2 i hi
    exact ⟨c, hg, (s3 i c hg).2⟩
  · intro i j c c' _ _ hi hj e
    rw [(s3 i c hi).1, (s3 j c' hj).1] at e; exact e
  · intro k i c hm hg
    rw [← hname i c hg]; exact s4 k i hm
  · intro i c k j c' _ hg hm hg'
    rw [← hname j c' hg']; exact (s6 i c k j hg hm).1

/-- **C64 (reading again).**  Whatever `from_dict` builds with the registered classes, `to_dict`
describes it completely and `from_dict` rebuilds it from that, unless secondaries go round in a
circle. -/
theorem C64_reread (half : F) (C : Conv F) (d e : Dict (PVal F)) (y : CSynth F)
    (hd : Proper (.dict d)) (h : fromDict (builtins half) C d = .ok y e) (rank : String → Nat)
    (hac : ∀ i c k j, Used y i → Dict.get? y.objs i = some c → (k, j) ∈ c.secs → rank j < rank i)
    (fuel : Nat) (hf : ∀ i, Root y i → rank i < fuel) :
    ∃ d' y' e', toDict (builtins half) fuel y = .ok d' ∧ fromDict (builtins half) C d' = .ok y' e' ∧
      SameConfig (builtins half) y y' :=
  C41_roundtrip_partial (builtins half) C rank fuel y (read_config half C d e y hd h rank hac) hf

/-! ### What `to_dict` writes has no key twice -/

/-- Every parameter is stored once, and flags are not dictionaries. -/
structure Spec.Once (y : CSynth F) : Prop where
  spatial : (Dict.keys y.spatial.obj.storage).Nodup ∧ ∀ d, y.spatial.isRate ≠ .dict d
  lum : ∀ c, y.lum = some c → (Dict.keys c.obj.storage).Nodup
  sels : ∀ s, y.fluxSel = some s ∨ y.distSel = some s ∨ y.spatSel = some s →
    (Dict.keys s.obj.storage).Nodup
  samplers : ∀ i c, Dict.get? y.objs i = some c → (Dict.keys c.obj.storage).Nodup ∧
    (Dict.keys c.sel.obj.storage).Nodup ∧ ∀ d, c.observed ≠ .dict d

theorem mem_setDict {α : Type} {d : Dict α} {k : String} {v : α} {p : String × α}
    (h : p ∈ Dict.set d k v) : p = (k, v) ∨ p ∈ d := by
  induction d with
  | nil => simp [Dict.set] at h; exact .inl h
  | cons q t ih =>
    simp only [Dict.set] at h
    grind

theorem Spec.Proper.set {d : Dict (PVal F)} (h : Proper (.dict d)) (k : String) {v : PVal F}
    (hv : Proper v) : Proper (.dict (Dict.set d k v)) := by
  refine .dict _ (Dict.nodup_keys_set _ _ _ h.nodup) fun k' v' hm => ?_
  rcases mem_setDict hm with e | hm
  · cases e; exact hv
  · exact h.value hm

theorem Spec.Proper.leaf {v : PVal F} (h : ∀ d, v ≠ .dict d) : Proper v := .other v h

theorem Spec.Proper.one {k : String} {v : PVal F} (hv : Proper v) : Proper (.dict [(k, v)]) := by
  refine .dict _ (by simp [Dict.keys]) fun k' v' hm => ?_
  cases List.mem_singleton.1 hm; exact hv

theorem proper_truth {o : Obj F} (h : (Dict.keys o.storage).Nodup) :
    Proper (.dict (pvTruth o)) := by
  refine .dict _ ?_ fun k v hm => ?_
  · rw [keys_pvTruth]; exact nodup_truthOf _ h
  · obtain ⟨p, _, e⟩ := List.mem_map.1 hm
    cases e; exact .leaf (by simp)

theorem proper_sel {s : CSel F} (h : (Dict.keys s.obj.storage).Nodup) : Proper (selDict s) :=
  .one (proper_truth h)

theorem proper_entry {c : CSampler F} (type : String) (h : (Dict.keys c.obj.storage).Nodup ∧
    (Dict.keys c.sel.obj.storage).Nodup ∧ ∀ d, c.observed ≠ .dict d) :
    Proper (entryOf c type) := by
  unfold entryOf
  refine Spec.Proper.set (Spec.Proper.set ?_ _ (.leaf (by simp))) _ (proper_sel h.2.1)
  have h0 : Proper (.dict [("type", .str type), ("observed", c.observed)]) := by
    refine .dict _ (by simp [Dict.keys]) fun k v hm => ?_
    simp only [List.mem_cons, List.not_mem_nil, or_false, Prod.mk.injEq] at hm
    rcases hm with ⟨_, rfl⟩ | ⟨_, rfl⟩
    · exact .leaf (by simp)
    · exact .leaf h.2.2
  have hp : ∀ p ∈ pvTruth c.obj, Proper p.2 := fun p hp => (proper_truth h.1).value hp
  revert h0 hp
  generalize [("type", PVal.str type), ("observed", c.observed)] = a
  generalize pvTruth c.obj = l
  intro h0 hp
  induction l generalizing a with
  | nil => exact h0
  | cons p t ih =>
    exact ih _ (h0.set _ (hp p (List.mem_cons_self ..)))
      fun q hq => hp q (List.mem_cons_of_mem _ hq)

theorem proper_secObjects {y : CSynth F} (h : Once y) (fuel : Nat) : ∀ i d d',
    Proper (.dict d) → secObjects y.objs fuel i d = .ok d' → Proper (.dict d') := by
  induction fuel with
  | zero => intro i d d' _ e; cases e
  | succ n ih =>
    intro i d d' hd e
    simp only [secObjects] at e
    split at e
    · cases e
    · rename_i c hc
      have hf : ∀ (l : Dict String) d d', Proper (.dict d) →
          l.foldlM (fun d p => secObjects y.objs n p.2 d) d = .ok d' → Proper (.dict d') := by
        intro l
        induction l with
        | nil => intro d d' hd e; cases e; exact hd
        | cons p t iht =>
          intro d d' hd e
          rw [List.foldlM_cons] at e
          cases e1 : secObjects y.objs n p.2 d with
          | error x => rw [e1] at e; cases e
          | ok d1 => rw [e1] at e; exact iht d1 d' (ih _ _ _ hd e1) e
      cases e1 : c.secs.foldlM (fun d p => secObjects y.objs n p.2 d) d with
      | error x => rw [e1] at e; cases e
      | ok d1 =>
        rw [e1] at e
        cases e
        exact (hf _ _ _ hd e1).set _ (proper_entry _ (h.samplers _ _ hc))

theorem proper_addEntry {y : CSynth F} (h : Once y) (fuel : Nat) (i : String)
    (key type : CSampler F → String) (d d' : Dict (PVal F)) (hd : Proper (.dict d))
    (e : addEntry fuel y.objs d i key type = .ok d') : Proper (.dict d') := by
  unfold addEntry at e
  split at e
  · cases e
  · rename_i c hc
    have hs := hd.set (key c) (proper_entry (type c) (h.samplers _ _ hc))
    simp only at e
    split at e
    · cases e; exact hs
    · exact proper_secObjects h _ _ _ _ hs e

theorem proper_auxDict {y : CSynth F} (h : Once y) (fuel : Nat) (d : Dict (PVal F))
    (e : auxDict fuel y = .ok d) : Proper (.dict d) := by
  have hf : ∀ (l : Dict String) d d', Proper (.dict d) →
      l.foldlM (fun d p => addEntry fuel y.objs d p.2 (fun _ => p.1) (·.cls)) d = .ok d' →
      Proper (.dict d') := by
    intro l
    induction l with
    | nil => intro d d' hd e; cases e; exact hd
    | cons p t iht =>
      intro d d' hd e
      rw [List.foldlM_cons] at e
      cases e1 : addEntry fuel y.objs d p.2 (fun _ => p.1) (·.cls) with
      | error x => rw [e1] at e; cases e
      | ok d1 => rw [e1] at e; exact iht d1 d' (proper_addEntry h _ _ _ _ _ _ hd e1) e
  unfold auxDict at e
  cases e1 : y.aux.foldlM (fun d p => addEntry fuel y.objs d p.2 (fun _ => p.1) (·.cls))
      ([] : Dict (PVal F)) with
  | error x => rw [e1] at e; cases e
  | ok d1 =>
    rw [e1] at e
    have h1 := hf _ _ _ (.dict [] (by simp [Dict.keys]) (by simp)) e1
    cases hy : y.derived with
    | none => rw [hy] at e; cases e; exact h1
    | some i => rw [hy] at e; exact proper_addEntry h _ _ _ _ _ _ h1 e

/-- **C64 (proper dictionaries).**  What `to_dict` returns is a dictionary as a YAML file
describes it: no key occurs twice, at any depth. -/
theorem C64_proper (R : Registry F) (fuel : Nat) (y : CSynth F) (d : Dict (PVal F))
    (h : Once y) (hd : toDict R fuel y = .ok d) : Proper (.dict d) := by
  cases ha : auxDict fuel y with
  | error x =>
    unfold toDict at hd
    rw [ha] at hd; cases hd
  | ok aux =>
    obtain rfl : d = _ := Except.ok.inj (hd.symm.trans (toDict_eq R fuel y aux ha))
    have haux := proper_auxDict h _ _ ha
    have hsp : Proper (.dict (spatialDict R y.spatial)) := by
      unfold spatialDict
      split
      · exact Spec.Proper.set (.one (proper_truth h.spatial.1)) _ (.leaf h.spatial.2)
      · exact .one (proper_truth h.spatial.1)
    have hlum : ∀ v, y.lum.map (fun c => PVal.dict (distDict c)) = some v → Proper v := by
      intro v hv
      obtain ⟨c, hc, rfl⟩ := Option.map_eq_some_iff.1 hv
      exact .one (proper_truth (h.lum c hc))
    have hsel : ∀ o v, (∀ s, o = some s → (Dict.keys s.obj.storage).Nodup) →
        o.map selDict = some v → Proper (v : PVal F) := by
      intro o v ho hv
      obtain ⟨c, hc, rfl⟩ := Option.map_eq_some_iff.1 hv
      exact proper_sel (ho c hc)
    have hopt : ∀ key (v : Option (PVal F)), optSection key v = v.toList.map fun w => (key, w) := by
      intro key v; cases v <;> rfl
    have hfs := hsel y.fluxSel
    have hds := hsel y.distSel
    have hss := hsel y.spatSel
    unfold written
    refine .dict _ ?_ ?_
    · simp only [hopt]
      cases y.lum <;> cases y.fluxSel <;> cases y.distSel <;> cases y.spatSel <;>
        simp [Dict.keys]
    · intro k v hm
      simp only [hopt, List.mem_append, List.mem_cons, List.not_mem_nil, or_false, Prod.mk.injEq,
        List.mem_map, Option.mem_toList] at hm
      rcases hm with (((((⟨_, rfl⟩ | ⟨_, rfl⟩) | ⟨w, hw, _, rfl⟩) | ⟨w, hw, _, rfl⟩) |
        ⟨w, hw, _, rfl⟩) | ⟨w, hw, _, rfl⟩) | ⟨_, rfl⟩
      · exact .leaf (by simp)
      · exact hsp
      · exact hlum _ hw
      · exact hfs _ (fun s e => h.sels s (.inl e)) hw
      · exact hds _ (fun s e => h.sels s (.inr (.inl e))) hw
      · exact hss _ (fun s e => h.sels s (.inr (.inr e))) hw
      · exact haux

/-! ### What cannot be read back -/

theorem builtinsSky_samplers (half : F) : (builtinsSky half).samplers = (builtins half).samplers ++
    [("RASampler", asSampler [bRA, bNonObserved, bSampler]),
     ("DecSampler", asSampler [bDec, bNonObserved, bSampler])] := by
  rw [builtins_samplers]
  simp [builtinsSky, register, samplerClasses, skyClasses, abstractMethods, attrAbstract, classTag,
    bSampler, bNonObserved, bDerivedLum, bDeltaAux, bLogNormalAux, bLog10NormalAux, bNormalAux,
    bParetoAux, bPowerLawAux, bBrokenPowerLawAux, bTruncNormalAux, bTruncLogNormalAux,
    bTruncLog10NormalAux, bViewingAngle, bRA, bDec, bNamed, bUnnamed, Dict.set]

/-- **C64 (only registered classes).**  No dictionary with a sampler entry of another class is
read. -/
theorem C64_unregistered (half : F) (C : Conv F) (d E items e : Dict (PVal F)) (y : CSynth F)
    (k cls : String) (hd : Proper (.dict d))
    (haux : Dict.get? d "auxiliary samplers" = some (.dict E))
    (hk : Dict.get? E k = some (.dict items)) (ht : Dict.get? items "type" = some (.str cls))
    (h : fromDict (builtins half) C d = .ok y e) :
    cls ∈ namedSamplers ∨ cls = "ViewingAngleSampler" := by
  rcases (C63_reads (builtins half) C d e y hd h).samplers with ⟨g, _⟩ | ⟨E', sec, g, hs⟩
  · rw [haux] at g; cases g
  · rw [haux] at g; cases g
    obtain ⟨c, _, items', K, _, _, _, h1, h2, h3, _⟩ := hs.entry k _ hk
    cases h1
    rw [ht] at h2; cases h2
    refine ((C64_samplers half).2.1 c.cls).1 ?_
    rw [← Dict.get?_isSome_iff, h3]; rfl

/-- A synth with a sky sampler, whose name is fixed by its class. -/
def skySynth (cls name : String) : CSynth F where
  seed := 1
  spatial := { cls := "ConstantSphericalDistribution" }
  objs := [("0", { cls, name, obsName := name ++ "_obs", observed := .bool false })]
  aux := [(name, "0")]

theorem sky_config (R : Registry F) (cls name : String) (b : Body F)
    (hsp : Dict.get? R.dists "ConstantSphericalDistribution" =
      some (asDist [bConstantSpherical, bSpherical, bSpatial, bDistribution]))
    (hsel : Dict.get? R.sels "UnitySelection" = some (asSel [bUnity, bSelection]))
    (hs : Dict.get? R.samplers cls = some (asSampler [b, bNonObserved, bSampler]))
    (hb : b = bRA ∧ name = "ra" ∨ b = bDec ∧ name = "dec") :
    Config R (fun _ => 0) (skySynth cls name) := by
  have hu : ∀ i, Used (skySynth (F := F) cls name) i → i = "0" := by
    intro i hi
    induction hi with
    | root hr =>
      rcases hr with ⟨k, hm⟩ | hm
      · simp [skySynth] at hm; exact hm.2
      · cases hm
    | sec _ hg hm ih =>
      subst ih
      cases hg
      cases hm
  have hok : SamplerOk R
      { cls, name, obsName := name ++ "_obs", observed := .bool false : CSampler F } := by
    refine ⟨_, hs, .inr (.inr (.inr ?_)), ⟨by simp [Dict.keys], fun n v hm => by cases hm⟩,
      by simp [Dict.keys], ?_, ?_, by simp [Dict.keys]⟩
    · rcases hb with ⟨rfl, rfl⟩ | ⟨rfl, rfl⟩ <;>
      simp [asSampler, initAccepts, bRA, bDec, bUnnamed]
    · refine ⟨asSel [bUnity, bSelection], hsel, rfl, ⟨by simp [Dict.keys], ?_⟩, ?_⟩
      · intro n v hm; cases hm
      · intro hu
        simp [asSel, subclassOf, bUnity, bSelection] at hu
    · intro k _ n v hm; cases hm
  exact
    { spatial := ⟨_, hsp, rfl, by simp [asDist, subclassOf, bSpatial], by simp [Dict.keys, skySynth],
        fun n v hm => by cases hm⟩
      rate := by
        intro _ k' hk'
        have : k' = _ := Option.some.inj (hk'.symm.trans hsp)
        subst this
        simp [asDist, subclassOf, bConstantSpherical, bSpherical, bSpatial, bDistribution, skySynth]
      notRate := by simp [skySynth]
      lum := fun c hc => by cases hc
      flux := fun c hc => by cases hc
      dist := fun c hc => by cases hc
      spat := fun c hc => by cases hc
      sampler := fun i hi => by
        have := hu i hi; subst this
        exact ⟨_, rfl, hok⟩
      names := fun i j _ _ hi hj _ _ _ => (hu i hi).trans (hu j hj).symm
      auxKey := fun k' i c hm hg => by
        simp only [skySynth, List.mem_singleton, Prod.mk.injEq] at hm
        obtain ⟨rfl, rfl⟩ := hm
        cases hg; rfl
      secKey := fun i c k' j c' hi hg hm _ => by
        have := hu i hi; subst this
        cases hg; cases hm
      auxNodup := by simp [skySynth, Dict.keys]
      root := fun i c k' j hi hg hm => by
        have := hu i hi; subst this
        cases hg; cases hm
      attached := fun k' i c hm hg => by
        simp only [skySynth, List.mem_singleton, Prod.mk.injEq] at hm
        obtain ⟨rfl, rfl⟩ := hm
        cases hg
        show R.derived cls = false
        unfold Registry.derived
        rw [hs]
        rcases hb with ⟨rfl, _⟩ | ⟨rfl, _⟩ <;>
        simp [asSampler, subclassOf, bRA, bDec, bUnnamed, bNonObserved, bSampler]
      acyclic := fun i c k' j hi hg hm => by
        have := hu i hi; subst this
        cases hg; cases hm
      derived := fun i c hi => by cases hi }

/-- **C64 is violated** by the sky samplers: `to_dict` describes a synth that has one, but
`from_dict` refuses that description unless the user has imported their module, which
`import popsynth` does not do. -/
theorem C64_violated_sky (half : F) (C : Conv F) (cls name : String)
    (h : cls = "RASampler" ∧ name = "ra" ∨ cls = "DecSampler" ∧ name = "dec") :
    ∃ d, toDict (builtinsSky half) 1 (skySynth cls name) = .ok d ∧
      (∀ y e, fromDict (builtins half) C d ≠ .ok y e) ∧
      ∃ y e, fromDict (builtinsSky half) C d = .ok y e ∧
        SameConfig (builtinsSky half) (skySynth cls name) y := by
  obtain ⟨b, hs, hb⟩ : ∃ b, Dict.get? (builtinsSky half).samplers cls =
      some (asSampler [b, bNonObserved, bSampler]) ∧
      (b = bRA ∧ name = "ra" ∨ b = bDec ∧ name = "dec") := by
    rw [builtinsSky_samplers, builtins_samplers]
    rcases h with ⟨rfl, rfl⟩ | ⟨rfl, rfl⟩
    · exact ⟨_, by simp [Dict.get?], .inl ⟨rfl, rfl⟩⟩
    · exact ⟨_, by simp [Dict.get?], .inr ⟨rfl, rfl⟩⟩
  have hd : (builtinsSky half).dists = (builtins half).dists := by rw [builtinsSky]
  have hl : (builtinsSky half).sels = (builtins half).sels := by rw [builtinsSky]
  have hsp : Dict.get? (builtinsSky half).dists "ConstantSphericalDistribution" =
      some (asDist [bConstantSpherical, bSpherical, bSpatial, bDistribution]) := by
    rw [hd, builtins_dists]; simp [Dict.get?]
  have hsel : Dict.get? (builtinsSky half).sels "UnitySelection" =
      some (asSel [bUnity, bSelection]) := by
    rw [hl, builtins_sels]; simp [Dict.get?]
  generalize builtinsSky half = R at hs hsp hsel
  obtain ⟨d, y, e, h1, h2, h3⟩ := C41_roundtrip_partial R C (fun _ => 0) 1
    (skySynth cls name) (sky_config R cls name b hsp hsel hs hb) (fun _ _ => Nat.one_pos)
  refine ⟨d, h1, ?_, y, e, h2, h3⟩
  intro y' e' h4
  have hpr : Proper (.dict d) := by
    refine C64_proper R 1 (skySynth cls name) d ⟨⟨by simp [skySynth, Dict.keys], by simp [skySynth]⟩,
      fun c hc => (nomatch hc), ?_, ?_⟩ h1
    · intro c hc
      rcases hc with hc | hc | hc <;> cases hc
    intro i c hc
    have := Dict.mem_of_get? hc
    simp only [skySynth, List.mem_singleton, Prod.mk.injEq] at this
    obtain ⟨_, rfl⟩ := this
    simp [Dict.keys]
  have ha : auxDict 1 (skySynth (F := F) cls name) = .ok [(name, .dict
      [("type", .str cls), ("observed", .bool false), ("secondary", .list []),
       ("selection", .dict [("UnitySelection", .dict [])])])] := by
    simp [auxDict, skySynth, addEntry, Dict.get?, Dict.set, entryOf, pvTruth, truthOf, selDict]
  obtain rfl : d = _ := Except.ok.inj (h1.symm.trans (toDict_eq R 1 (skySynth cls name) _ ha))
  have := C64_unregistered half C _ _ [("type", .str cls), ("observed", .bool false),
    ("secondary", .list []), ("selection", .dict [("UnitySelection", .dict [])])] _ _ name cls hpr
    (get?_written R (skySynth cls name) _).2.2.2.2.2.2 (by simp [Dict.get?]) rfl h4
  rcases h with ⟨rfl, rfl⟩ | ⟨rfl, rfl⟩ <;> simp [namedSamplers] at this

/-- **C64 is violated** by base classes with abstract methods, which are not registered although
they have a registry name, and by `Distribution`, which is registered but cannot be made. -/
theorem C64_violated_base (half : F) (C : Conv F) (d ps rest : Dict (PVal F)) (cls : String)
    (hl : Dict.get? d "luminosity distribution" = none)
    (hs : Dict.get? d "spatial distribution" = some (.dict ((cls, .dict ps) :: rest))) :
    (cls ∈ ["SpatialDistribution", "SphericalDistribution", "CosmologicalDistribution",
        "LuminosityDistribution", "LuminosityDistribtuion"] →
      outcome (fromDict (builtins half) C d) = .error .key) ∧
    (cls = "Distribution" → outcome (fromDict (builtins half) C d) = .error .type) := by
  have key : ∀ x, loadDist (builtins half) C (.dict ((cls, .dict ps) :: rest)) = .error x →
      outcome (fromDict (builtins half) C d) = .error x := by
    intro x hx
    have : loadHead (builtins half) C d = .error x := by
      unfold loadHead loadDists
      rw [show loadLum (builtins half) C d = .ok none by unfold loadLum; rw [hl],
        show lookup d "spatial distribution" = .ok (.dict ((cls, .dict ps) :: rest)) by
          unfold lookup; rw [hs]]
      simp only [bind, Except.bind]
      rw [hx]
    rw [fromDict_eq]
    unfold fromDictD
    rw [this]; rfl
  constructor
  · intro hc
    apply key
    have : Dict.get? (builtins half).dists cls = none := by
      rw [Dict.get?_eq_none_iff, (C64_distributions half).2.1 cls]
      simp only [List.mem_cons, List.not_mem_nil, or_false] at hc
      rcases hc with rfl | rfl | rfl | rfl | rfl <;> simp [spatialNames, cosmoNames, lumNames]
    simp only [loadDist, PVal.items, firstItem, bind, Except.bind, lookup, this]
  · rintro rfl
    apply key
    obtain ⟨k, hk⟩ : ∃ k, Dict.get? (builtins half).dists "Distribution" = some k := by
      rw [← Option.isSome_iff_exists, Dict.get?_isSome_iff, (C64_distributions half).2.1]
      exact .inl rfl
    have hc : k.ctorOk = false := by
      have := ((C64_distributions half).2.2 _ _ hk).1
      simpa using this
    simp [loadDist, PVal.items, firstItem, bind, Except.bind, lookup, hk, hc]

/-- **C64 is violated** by the flux selections: whatever the dictionary says, a sampler that is
read and has one of them has no value for `boundary` or `strength`. -/
theorem C64_violated_flux (half : F) (C : Conv F) (d e : Dict (PVal F)) (y : CSynth F)
    (hd : Proper (.dict d)) (h : fromDict (builtins half) C d = .ok y e) (k : String)
    (c : CSampler F) (hc : Dict.get? y.objs k = some c)
    (hs : c.sel.cls = "HardFluxSelection" ∨ c.sel.cls = "SoftFluxSelection") :
    truthOf c.sel.obj = [] := by
  rcases (C63_reads (builtins half) C d e y hd h).samplers with ⟨_, g, _⟩ | ⟨E, sec, _, hS⟩
  · rw [g] at hc; cases hc
  · have hk : k ∈ Dict.keys E := by
      rw [← hS.keys, ← Dict.get?_isSome_iff, hc]; rfl
    rw [← Dict.get?_isSome_iff, Option.isSome_iff_exists] at hk
    obtain ⟨x, hx⟩ := hk
    obtain ⟨c', h1, _, _, _, _, sel, _, _, _, _, _, _, _, h8, h9, _⟩ := hS.entry k x hx
    rw [hc] at h1; cases h1
    rcases h8 with ⟨_, rfl⟩ | ⟨v, s, _, rfl, hss⟩
    · rw [h9] at hs; simp at hs
    · obtain rfl : c.sel = s := h9
      have hK : ∀ K, Dict.get? (builtins half).sels c.sel.cls = some K → K.own = [] := by
        intro K hK
        have hm := Dict.mem_of_get? hK
        simp only [builtins_sels, List.mem_cons, List.not_mem_nil, or_false, Prod.mk.injEq] at hm
        rcases hs with hs | hs <;> rw [hs] at hm <;> simp at hm <;> subst hm <;>
        simp [asSel, ownParams, bHardFlux, bSoftFlux, Dict.keys]
      obtain ⟨K, g1, _⟩ := hss.ok.1
      cases ht : truthOf c.sel.obj with
      | nil => rfl
      | cons p t =>
        have := hss.ok.2 K g1 p.1 p.2 (by rw [ht]; exact List.mem_cons_self ..)
        simp [hK K g1] at this

/-- So no synth with such a sampler survives being written and read. -/
theorem C64_violated_flux_roundtrip (half : F) (C : Conv F) (fuel : Nat) (y y' : CSynth F)
    (d e : Dict (PVal F)) (hy : Once y) (hd : toDict (builtins half) fuel y = .ok d)
    (h : fromDict (builtins half) C d = .ok y' e) (i : String) (c : CSampler F) (hu : Used y i)
    (hc : Dict.get? y.objs i = some c)
    (hs : c.sel.cls = "HardFluxSelection" ∨ c.sel.cls = "SoftFluxSelection")
    (hp : truthOf c.sel.obj ≠ []) : ¬ SameConfig (builtins half) y y' := by
  intro hS
  obtain ⟨c', h1, h2, _⟩ := hS.sampler i c hu hc
  obtain ⟨_, _, _, _, _, ⟨h3, h4, _⟩, _⟩ := h2
  have := C64_violated_flux half C d e y' (C64_proper _ _ _ _ hy hd) h _ _ h1 (by rw [h3]; exact hs)
  exact hp (h4.symm.trans this)

theorem secObjects_circle (objs : Dict (CSampler F)) (S : String → Prop)
    (hS : ∀ i, S i → ∀ c, Dict.get? objs i = some c → ∃ p ∈ c.secs, S p.2) (fuel : Nat) :
    ∀ i, S i → ∀ d d', secObjects objs fuel i d ≠ .ok d' := by
  induction fuel with
  | zero => intro i _ d d' h; cases h
  | succ n ih =>
    intro i hi d d' h
    simp only [secObjects] at h
    split at h
    · cases h
    · rename_i c hc
      obtain ⟨p, hp, hpS⟩ := hS i hi c hc
      have hf : ∀ (l : Dict String), p ∈ l → ∀ d d',
          l.foldlM (fun d p => secObjects objs n p.2 d) d ≠ .ok d' := by
        intro l
        induction l with
        | nil => intro hm; cases hm
        | cons q t iht =>
          intro hm d d' e
          rw [List.foldlM_cons] at e
          cases e1 : secObjects objs n q.2 d with
          | error x => rw [e1] at e; cases e
          | ok d1 =>
            rw [e1] at e
            rcases List.mem_cons.1 hm with rfl | hm
            · exact ih _ hpS _ _ e1
            · exact iht hm _ _ e
      cases e1 : c.secs.foldlM (fun d p => secObjects objs n p.2 d) d with
      | error x => rw [e1] at h; cases h
      | ok d1 => exact hf _ hp _ _ e1

/-- **C64 is violated** by circular secondaries: if an attached sampler leads to a circle,
`to_dict` never returns, however deep the recursion may go. -/
theorem C64_violated_circle (R : Registry F) (fuel : Nat) (y : CSynth F) (S : String → Prop)
    (hS : ∀ i, S i → ∀ c, Dict.get? y.objs i = some c → ∃ p ∈ c.secs, S p.2)
    (k i : String) (hi : (k, i) ∈ y.aux) (hr : S i) (d : Dict (PVal F)) :
    toDict R fuel y ≠ .ok d := by
  have hadd : ∀ d d', addEntry fuel y.objs d i (fun _ => k) (·.cls) ≠ .ok d' := by
    intro d d' h
    unfold addEntry at h
    split at h
    · cases h
    · rename_i c hc
      obtain ⟨p, hp, _⟩ := hS i hr c hc
      have : c.secs.isEmpty = false := by
        cases hsec : c.secs with
        | nil => rw [hsec] at hp; cases hp
        | cons => rfl
      simp only [this] at h
      exact secObjects_circle y.objs S hS fuel i hr _ _ h
  have hf : ∀ (l : Dict String), (k, i) ∈ l → ∀ d d',
      l.foldlM (fun d p => addEntry fuel y.objs d p.2 (fun _ => p.1) (·.cls)) d ≠ .ok d' := by
    intro l
    induction l with
    | nil => intro hm; cases hm
    | cons q t iht =>
      intro hm d d' e
      rw [List.foldlM_cons] at e
      cases e1 : addEntry fuel y.objs d q.2 (fun _ => q.1) (·.cls) with
      | error x => rw [e1] at e; cases e
      | ok d1 =>
        rw [e1] at e
        rcases List.mem_cons.1 hm with rfl | hm
        · exact hadd _ _ e1
        · exact iht hm _ _ e
  intro h
  unfold toDict at h
  cases ha : auxDict fuel y with
  | error x => rw [ha] at h; cases h
  | ok aux =>
    unfold auxDict at ha
    cases e1 : y.aux.foldlM (fun d p => addEntry fuel y.objs d p.2 (fun _ => p.1) (·.cls))
        ([] : Dict (PVal F)) with
    | error x => rw [e1] at ha; cases ha
    | ok d1 => exact hf _ hi _ _ e1

/-! ### Examples -/

namespace BuiltinExample
open ConfigExample

/-- The sampler `x` depends on `b`, which depends on `c`, which depends on `b`. -/
def circle : Dict (PVal Int) :=
  let entry (s : String) : PVal Int := .dict [("type", .str "NormalAuxSampler"),
    ("observed", .bool true), ("mu", .num 3), ("secondary", .str s)]
  [("seed", .int 1),
   ("spatial distribution", .dict [("FlatlandDistribution", .dict [("Lambda", .num 2)])]),
   ("auxiliary samplers", .dict [("x", entry "b"), ("b", entry "c"), ("c", entry "b")])]

/-- `from_dict` reads it, and `to_dict` then never returns. -/
example : ∃ y e, fromDict (builtins 0) conv circle = .ok y e ∧ y.aux = [("x", "x")] ∧
    ∀ fuel d, toDict (builtins 0) fuel y ≠ .ok d := by
  refine ⟨_, _, rfl, rfl, fun fuel d => ?_⟩
  refine C64_violated_circle _ fuel _ (fun i => i = "x" ∨ i = "b" ∨ i = "c") ?_ "x" "x"
    (List.mem_cons_self ..) (.inl rfl) d
  rintro i (rfl | rfl | rfl) c hc <;> cases hc
  · exact ⟨("b", "b"), List.mem_cons_self .., by simp⟩
  · exact ⟨("c", "c"), List.mem_cons_self .., by simp⟩
  · exact ⟨("b", "b"), List.mem_cons_self .., by simp⟩

/-- `x`, with a flux limit of 7, as `to_dict` describes it. -/
def limited : Dict (PVal Int) :=
  [("seed", .int 1),
   ("spatial distribution", .dict [("FlatlandDistribution", .dict [("Lambda", .num 2)])]),
   ("auxiliary samplers", .dict [("x", .dict [("type", .str "NormalAuxSampler"),
     ("observed", .bool true), ("secondary", .list []),
     ("selection", .dict [("HardFluxSelection", .dict [("boundary", .num 7)])])])])]

example : ∃ y e c, fromDict (builtins 0) conv limited = .ok y e ∧
    Dict.get? y.objs "x" = some c ∧ c.sel.cls = "HardFluxSelection" ∧ truthOf c.sel.obj = [] :=
  ⟨_, _, _, rfl, rfl, rfl, rfl⟩

/-- The same limit on the flux of the survey is kept. -/
example : ∃ y e s, fromDict (builtins 0) conv [("seed", .int 1),
      ("spatial distribution", .dict [("FlatlandDistribution", .dict [("Lambda", .num 2)])]),
      ("flux selection", .dict [("HardFluxSelection", .dict [("boundary", .num 7)])])] = .ok y e ∧
    y.fluxSel = some s ∧ truthOf s.obj = [("boundary", 7)] :=
  ⟨_, _, _, rfl, rfl, rfl⟩

example : Literals (F := Int) 0 := by constructor <;> decide

/-- Reading one's own mistakes: a class name that is not registered, one that cannot be made. -/
example : outcome (fromDict (builtins 0) conv [("seed", .int 1),
      ("spatial distribution", .dict [("SphericalDistribution", .dict [])])]) = .error .key ∧
    outcome (fromDict (builtins 0) conv [("seed", .int 1),
      ("spatial distribution", .dict [("Distribution", .dict [])])]) = .error .type := ⟨rfl, rfl⟩

/-- A synth as a user builds it: the sampler `x` has been given `mu`, its default `tau` has been
read. -/
def user : CSynth Int where
  seed := 7
  spatial := { cls := "SFRDistribution", obj := { storage := [("a", some 3)] }, isRate := .bool true }
  fluxSel := some { cls := "HardFluxSelection", obj := { storage := [("boundary", some 1)] }, flags := { flux := true } }
  objs := [("0", { cls := "NormalAuxSampler", name := "x", obsName := "x_obs", observed := .bool true, obj := { storage := [("mu", some 4), ("tau", some 1)] } })]
  aux := [("x", "0")]

theorem user_used {i : String} (h : Used user i) : i = "0" := by
  induction h with
  | root h =>
    rcases h with ⟨k, hm⟩ | h
    · simp [user] at hm; exact hm.2
    · cases h
  | sec _ hg hm ih =>
    subst ih
    cases hg
    cases hm

theorem user_built : BuiltSynth (F := Int) 0 (fun _ => 0) user where
  spatial := ⟨by simp [user, spatialNames, cosmoNames], asDist [bSFR, bCosmological, bSpatial, bDistribution],
    rfl, Made.assign (decls := (asDist (F := Int) [bSFR, bCosmological, bSpatial, bDistribution]).params)
      (n := "a") (d := { vmin := some 0 }) (some 3) .new rfl⟩
  rate := by simp [user, cosmoNames]
  lum := fun c hc => by cases hc
  flux := fun s hs => by
    cases hs
    refine ⟨by simp [selNames], asSel [bHardFlux, bLower, bSelection], rfl, ?_, fun _ => rfl⟩
    exact Made.assign (n := "boundary") (d := {}) (some 1) .new rfl
  dist := fun c hc => by cases hc
  spat := fun c hc => by cases hc
  sampler := fun i hi => by
    obtain rfl := user_used hi
    refine ⟨_, rfl, .inl ⟨by simp [namedSamplers], rfl⟩, ⟨asSampler [bNormalAux, bSampler], rfl, ?_⟩,
      ⟨by simp [selNames], asSel [bUnity, bSelection], rfl, .new, ?_⟩, ?_, by simp [Dict.keys]⟩
    · have h1 : Made (asSampler (F := Int) [bNormalAux, bSampler]).params
          { storage := [("mu", some 4)] } :=
        Made.assign (decls := (asSampler (F := Int) [bNormalAux, bSampler]).params) (n := "mu")
          (d := ({ default := some 0 } : ParamDecl Int)) (some 4) .new rfl
      exact Made.read (decls := (asSampler (F := Int) [bNormalAux, bSampler]).params) (n := "tau")
        (d := ({ default := some 1, vmin := some 0 } : ParamDecl Int)) h1 rfl
    · intro h; cases h
    · intro _; rfl
  names := fun i j _ _ hi hj _ _ _ => (user_used hi).trans (user_used hj).symm
  auxKey := fun k i c hm hg => by
    simp only [user, List.mem_singleton, Prod.mk.injEq] at hm
    obtain ⟨rfl, rfl⟩ := hm
    cases hg; rfl
  secKey := fun i c k j c' hi hg hm _ => by
    obtain rfl := user_used hi
    cases hg; cases hm
  auxNodup := by simp [user, Dict.keys]
  root := fun i c k j hi hg hm => by
    obtain rfl := user_used hi
    cases hg; cases hm
  acyclic := fun i c k j hi hg hm => by
    obtain rfl := user_used hi
    cases hg; cases hm
  derived := rfl

/-- It survives being written and read. -/
example (C : Conv Int) : ∃ d y e, toDict (builtins 0) 1 user = .ok d ∧
    fromDict (builtins 0) C d = .ok y e ∧ SameConfig (builtins 0) user y :=
  C64_roundtrip_partial 0 (by constructor <;> decide) C _ 1 user user_built fun _ _ => Nat.one_pos

end BuiltinExample

end Popsynth
