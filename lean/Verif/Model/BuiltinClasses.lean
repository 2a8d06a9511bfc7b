import Verif.Model.Build
import Verif.Model.SpatialClasses
import Verif.Model.LumClasses
import Verif.Model.AuxSamplers
import Verif.Model.Cosmology

/-!
# The classes a configuration can name

`Verif/Model/Build.lean` leaves open what the classes named in a configuration do.  Here: the
classes that `import popsynth` registers, over the real numbers, put together from
`SpatialClasses` (densities), `Cosmology` (fluxes), `LumClasses`, `Selection` and `AuxSamplers`.

Simplifications: a flux that is not a finite number (an object at redshift 0) is the number 0
here; the formulas that distributions carry for display and `draw_sky_positions` of the spiral
galaxy (`Verif/Model/Sky.lean` has it for one object) are parameters; a numpy array with several elements has no truth value in Python (`ValueError`), here it is true.
-/

set_option autoImplicit false

namespace Popsynth

noncomputable section

variable {G : Type}

/-- Random numbers and numerical routines of NumPy and SciPy, the cosmology, and whether progress
bars are shown. -/
structure Machine (G : Type) where
  dist : DistEnv ℝ G
  lum : LumEnv G
  aux : AuxEnv ℝ G
  cosmo : Cosmo
  showProgress : Bool
  galB : List ℝ → List ℝ → List ℝ
  spiralSky : Nat → Py (SpSt ℝ G) Unit
  form : String → String

/-- How Python reads a value as a condition. -/
def pyTruth : PVal ℝ → Bool
  | .none => false
  | .other => true
  | .bytes b => !b.isEmpty
  | .bool b => b
  | .int i => i != 0
  | .num x => open Classical in decide (x ≠ 0)
  | .str s => s != ""
  | .arr [x] => open Classical in decide (x ≠ 0)
  | .arr l => !l.isEmpty
  | .list l => !l.isEmpty
  | .dict d => !d.isEmpty

/-- The comoving volume element, cosmological_distribution.py:44-55. -/
def Machine.volume (M : Machine G) (z : ℝ) : ℝ := (M.cosmo.differentialComovingVolume z).getD 0

/-- The density of a spatial class: spherical_distribution.py:43-108,
cosmological_distribution.py:91-200, uniform_distribution.py:51-95,
flatland_distribution.py:4-38, spiral_galaxy_distribution.py:7-61. -/
def Machine.spClass (M : Machine G) (isRate : Bool) : List (String × SpClass ℝ) :=
  [("ConstantSphericalDistribution", constantSpherical),
   ("ZPowerSphericalDistribution", zpowerSpherical), ("SFRDistribution", sfr M.volume isRate),
   ("ZPowerCosmoDistribution", zpowerCosmo M.volume isRate),
   ("UniformCosmoDistribution", uniformCosmo M.volume isRate), ("FlatlandDistribution", flatland),
   ("SpiralGalaxyDistribution", spiralGalaxy)]

/-- Which flux the objects of a spatial class have: spherical_distribution.py:36-40,
cosmological_distribution.py:57-70, flatland_distribution.py:33-35. -/
def Machine.flux (M : Machine G) : List (String × (ℝ → ℝ → Option ℝ)) :=
  [("ConstantSphericalDistribution", sphericalFlux),
   ("ZPowerSphericalDistribution", sphericalFlux), ("SFRDistribution", cosmologicalFlux M.cosmo),
   ("ZPowerCosmoDistribution", cosmologicalFlux M.cosmo),
   ("UniformCosmoDistribution", cosmologicalFlux M.cosmo), ("FlatlandDistribution", flatlandFlux),
   ("SpiralGalaxyDistribution", sphericalFlux)]

/-- `transform` of a spatial class, object by object. -/
def Machine.transform (M : Machine G) (cls : String) (ls ds : List ℝ) : Except Err (List ℝ) :=
  .ok (List.zipWith (fun l d => (((Dict.get? M.flux cls).getD flatlandFlux) l d).getD 0) ls ds)

/-- A spatial class: the methods of the base class (distribution.py:221-389) with the density
and `transform` of the class; the spiral galaxy has its own positions in the sky
(spiral_galaxy_distribution.py:63-105). -/
def Machine.spatial (M : Machine G) (cls : String) (isRate : PVal ℝ) : SpatialCode ℝ G :=
  let base := SpatialCode.base M.dist
    ((Dict.get? (M.spClass (pyTruth isRate)) cls).getD flatland).code M.showProgress
    (M.transform cls) M.galB
  if cls = "SpiralGalaxyDistribution" then { base with drawSky := M.spiralSky } else base

/-- The luminosity classes: bpl_distribution.py:8-64, log_normal_distribution.py:6-47,
log10_normal_distribution.py:6-45, pareto_distribution.py:6-47, schechter_distribution.py:7-53,
delta_distribution.py:6-58, uniform_distribution.py:11-48. -/
def Machine.lums (M : Machine G) : List (String × LumCode ℝ G) :=
  [("BPLDistribution", bplLum M.lum), ("LogNormalDistribution", logNormalLum M.lum),
   ("Log10NormalDistribution", log10NormalLum M.lum), ("ParetoDistribution", paretoLum M.lum),
   ("SchechterDistribution", schechterLum M.lum), ("DeltaDistribution", deltaLum),
   ("LogUniLuminiosityDistribution", logUniLum M.lum)]

/-- The sampler classes: normal_aux_sampler.py:6-51, lognormal_aux_sampler.py:7-51, 54-100,
delta_aux_sampler.py:7-49, trunc_normal_aux_sampler.py:7-71, trunc_lognormal_aux_sampler.py:7-77,
80-152, plaw_aux_sampler.py:9-52, 55-101, 104-182, viewing_angle_sampler.py:6-44,
sky_sampler.py:50-64, 67-83. -/
def samplerKinds : List (String × AuxKind) :=
  [("NormalAuxSampler", .normal), ("LogNormalAuxSampler", .logNormal),
   ("Log10NormalAuxSampler", .log10Normal), ("DeltaAuxSampler", .delta),
   ("TruncatedNormalAuxSampler", .truncNormal), ("TruncatedLogNormalAuxSampler", .truncLogNormal),
   ("TruncatedLog10NormalAuxSampler", .truncLog10Normal), ("ParetoAuxSampler", .pareto),
   ("PowerLawAuxSampler", .powerLaw), ("BrokenPowerLawAuxSampler", .brokenPowerLaw),
   ("ViewingAngleSampler", .viewingAngle), ("RASampler", .ra), ("DecSampler", .dec)]

/-- The names of distribution objects that are given none: bpl_distribution.py:17,
cosmological_distribution.py:101, 166, delta_distribution.py:12, flatland_distribution.py:10,
log10_normal_distribution.py:12, log_normal_distribution.py:12, pareto_distribution.py:12,
schechter_distribution.py:13, spherical_distribution.py:51, 83, spiral_galaxy_distribution.py:19,
uniform_distribution.py:18, 61. -/
def distNames : List (String × String) :=
  [("ConstantSphericalDistribution", "cons_sphere"), ("ZPowerSphericalDistribution", "zpow_sphere"),
   ("SFRDistribution", "sfr"), ("ZPowerCosmoDistribution", "zpow_cosmo"),
   ("UniformCosmoDistribution", "uniform_cosmo"), ("FlatlandDistribution", "flatland"),
   ("SpiralGalaxyDistribution", "spiral_galaxy"), ("BPLDistribution", "bpl"),
   ("LogNormalDistribution", "lognorm"), ("Log10NormalDistribution", "log10norm"),
   ("ParetoDistribution", "pareto"), ("SchechterDistribution", "schechter"),
   ("DeltaDistribution", "delta"), ("LogUniLuminiosityDistribution", "logunilum")]

/-- The normalization parameters: spherical_distribution.py:46, cosmological_distribution.py:94,
160, uniform_distribution.py:54. -/
def normParam : List (String × String) :=
  [("ConstantSphericalDistribution", "Lambda"), ("ZPowerSphericalDistribution", "Lambda"),
   ("SFRDistribution", "r0"), ("ZPowerCosmoDistribution", "Lambda"),
   ("UniformCosmoDistribution", "r0")]

/-- A new object to which these values, all of them admissible, have been assigned
(meta.py:72-100): they are stored, and a normalization parameter among them is recorded. -/
def assignedNew (cls : String) (l : Dict ℝ) : Obj ℝ where
  storage := l.map fun p => (p.1, some p.2)
  norm := (Dict.get? normParam cls).bind fun n => if n ∈ Dict.keys l then some n else none

/-- The classes after `import popsynth`. -/
def Machine.classes (M : Machine G) : Classes ℝ G where
  spatial := M.spatial
  lum cls := (Dict.get? M.lums cls).getD deltaLum
  smp cls := auxCode M.aux ((Dict.get? samplerKinds cls).getD .delta)
  usesDistance _ := false
  usesLuminosity _ := false
  kind cls := (Dict.get? builtinKind cls).getD .dummy
  distName cls := (Dict.get? distNames cls).getD ""
  distForm := M.form
  assigned := assignedNew
  truthy := pyTruth

end
end Popsynth
