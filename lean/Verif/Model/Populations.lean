import Verif.Model.Param

/-!
# `popsynth/populations`: the ready-made populations

Distribution objects carry the parameter state of `Verif/Model/Param.lean`; the flags of the
descriptors that fix parameters (class-level state) are a parameter `free`.  Arguments for
parameters are numbers (not `None`).  What `PopulationSynth.__init__` sets besides the two
distributions, the name, the seed and the parameters does not depend on its arguments and is left
out.
-/

set_option autoImplicit false

namespace Popsynth

/-- What the constructors test with `isinstance`. -/
inductive DistKind
  | spatial
  | luminosity
  deriving DecidableEq

/-- A distribution object: its class (`_distribution_name`), kind, `_name`, `_seed`, `_is_rate`
(cosmological distributions only, cosmological_distribution.py:42) and parameters. -/
structure DistObj (F : Type) where
  cls : String
  kind : DistKind
  name : String
  seed : Int
  isRate : Option Bool := none
  obj : Obj F := {}

/-- The descriptor flags `_free`, by class and parameter. -/
abbrev FreeFlags := String → String → Bool

section
variable {F : Type} [∀ n, OfNat F n]

/-- The parameters declared by each class with those inherited: distribution.py:164,
spherical_distribution.py:46 and 81, cosmological_distribution.py:94-98 and 160-161,
spiral_galaxy_distribution.py:10-14, bpl_distribution.py:11-15, log_normal_distribution.py:9-10,
log10_normal_distribution.py:9-10, pareto_distribution.py:9-10, schechter_distribution.py:10-11. -/
def distDecls (cls : String) : Dict (ParamDecl F) :=
  let rMax : String × ParamDecl F := ("r_max", { default := some 10, vmin := some 0 })
  match cls with
  | "ConstantSphericalDistribution" =>
    [rMax, ("Lambda", { default := some 1, vmin := some 0, isNorm := true })]
  | "ZPowerSphericalDistribution" =>
    [rMax, ("Lambda", { default := some 1, vmin := some 0, isNorm := true }),
      ("delta", { default := some 1 })]
  | "ZPowerCosmoDistribution" =>
    [rMax, ("Lambda", { default := some 1, vmin := some 0, isNorm := true }), ("delta", {})]
  | "SFRDistribution" =>
    [rMax, ("r0", { vmin := some 0, isNorm := true }), ("a", { vmin := some 0 }), ("rise", {}),
      ("decay", {}), ("peak", { vmin := some 0 })]
  | "SpiralGalaxyDistribution" =>
    [rMax, ("rho", { vmin := some 0 }), ("a", {}), ("b", {}), ("R1", {}), ("R0", {})]
  | "BPLDistribution" =>
    [("Lmin", { vmin := some 0 }), ("alpha", {}), ("Lbreak", { vmin := some 0 }), ("beta", {}),
      ("Lmax", { vmin := some 0 })]
  | "LogNormalDistribution" => [("mu", {}), ("tau", { vmin := some 0 })]
  | "Log10NormalDistribution" => [("mu", {}), ("tau", { vmin := some 0 })]
  | "ParetoDistribution" =>
    [("Lmin", { default := some 1, vmin := some 0 }), ("alpha", { default := some 1 })]
  | "SchechterDistribution" =>
    [("Lmin", { default := some 1, vmin := some 0 }), ("alpha", { default := some 1 })]
  | _ => []

variable [LE F] [DecidableLE F]

/-- `distribution.n = v`: `Parameter.__set__` for a declared parameter; any other name becomes a
plain attribute, which nothing here reads. -/
def DistObj.assign (free : FreeFlags) (d : DistObj F) (n : String) (v : F) :
    Except Err (DistObj F) :=
  match (distDecls (F := F) d.cls).get? n with
  | none => .ok d
  | some decl =>
    match paramSet decl (free d.cls n) n (some v) d.obj with
    | .ok _ o => .ok { d with obj := o }
    | .error e _ => .error e

/-- `distribution.n` for a declared parameter. -/
def DistObj.read (d : DistObj F) (n : String) : Except Err F :=
  match (distDecls (F := F) d.cls).get? n with
  | none => .error .attribute
  | some decl => outcome (paramGet decl n d.obj)

/-- `ConstantSphericalDistribution(seed=seed)`, spherical_distribution.py:48-69. -/
def newConstantSpherical (seed : Int) : DistObj F :=
  { cls := "ConstantSphericalDistribution", kind := .spatial, name := "cons_sphere", seed }

/-- `ZPowerSphericalDistribution(seed=seed)`, spherical_distribution.py:83-104. -/
def newZPowerSpherical (seed : Int) : DistObj F :=
  { cls := "ZPowerSphericalDistribution", kind := .spatial, name := "zpow_sphere", seed }

/-- `ZPowerCosmoDistribution(seed=seed, is_rate=is_rate)`, cosmological_distribution.py:163-195. -/
def newZPowerCosmo (seed : Int) (isRate : Bool) : DistObj F :=
  { cls := "ZPowerCosmoDistribution", kind := .spatial, name := "zpow_cosmo", seed,
    isRate := some isRate }

/-- `SFRDistribution(seed=seed, is_rate=is_rate)`, cosmological_distribution.py:100-134. -/
def newSFR (seed : Int) (isRate : Bool) : DistObj F :=
  { cls := "SFRDistribution", kind := .spatial, name := "sfr", seed, isRate := some isRate }

/-- `SpiralGalaxyDistribution(seed=seed)`, spiral_galaxy_distribution.py:16-49. -/
def newSpiralGalaxy (seed : Int) : DistObj F :=
  { cls := "SpiralGalaxyDistribution", kind := .spatial, name := "spiral_galaxy", seed }

/-- `BPLDistribution(seed=seed)`, bpl_distribution.py:17-45. -/
def newBPL (seed : Int) : DistObj F :=
  { cls := "BPLDistribution", kind := .luminosity, name := "bpl", seed }

/-- `LogNormalDistribution(seed=seed)`, log_normal_distribution.py:12-33. -/
def newLogNormal (seed : Int) : DistObj F :=
  { cls := "LogNormalDistribution", kind := .luminosity, name := "lognorm", seed }

/-- `Log10NormalDistribution(seed=seed)`, log10_normal_distribution.py:12-31. -/
def newLog10Normal (seed : Int) : DistObj F :=
  { cls := "Log10NormalDistribution", kind := .luminosity, name := "log10norm", seed }

/-- `ParetoDistribution(seed=seed)`, pareto_distribution.py:12-31. -/
def newPareto (seed : Int) : DistObj F :=
  { cls := "ParetoDistribution", kind := .luminosity, name := "pareto", seed }

/-- `SchechterDistribution(seed=seed)`, schechter_distribution.py:13-36. -/
def newSchechter (seed : Int) : DistObj F :=
  { cls := "SchechterDistribution", kind := .luminosity, name := "schechter", seed }

/-- A `PopulationSynth` as its constructor leaves it. -/
structure NewSynth (F : Type) where
  seed : Int
  name : String
  spatial : DistObj F
  luminosity : Option (DistObj F)
  params : Dict (Option F)

/-- `for k, v in params.items(): self._params[k] = v`, population_synth.py:113-120. -/
def copyParams (into : Dict (Option F)) (ps : Dict (Option F)) : Dict (Option F) :=
  ps.foldl (fun d p => d.set p.1 p.2) into

/-- `PopulationSynth.__init__`, population_synth.py:39-122. -/
def newSynth (spatial : DistObj F) (luminosity : Option (DistObj F)) (seed : Int) :
    Except Err (NewSynth F) :=
  -- 68-72
  if spatial.kind ≠ .spatial then .error .runtime
  else match luminosity with
    | none =>
      .ok { seed, name := spatial.name, spatial, luminosity := none,
            params := copyParams [] spatial.obj.storage }
    | some l =>
      -- 76-84
      if l.kind ≠ .luminosity then .error .runtime
      else
        .ok { seed, name := spatial.name ++ "_" ++ l.name, spatial, luminosity := some l,
              params := copyParams (copyParams [] spatial.obj.storage) l.obj.storage }

/-! ### spatial_populations.py -/

/-- `SphericalPopulation.__init__`, spatial_populations.py:22-51. -/
def sphericalPopulation (free : FreeFlags) (Lambda r_max : F) (seed : Int)
    (luminosity : Option (DistObj F)) : Except Err (NewSynth F) := do
  let sp := newConstantSpherical seed
  let sp ← sp.assign free "Lambda" Lambda
  let sp ← sp.assign free "r_max" r_max
  newSynth sp luminosity seed

/-- `ZPowerSphericalPopulation.__init__`, spatial_populations.py:55-90. -/
def zpowerSphericalPopulation (free : FreeFlags) (Lambda delta r_max : F) (seed : Int)
    (luminosity : Option (DistObj F)) : Except Err (NewSynth F) := do
  let sp := newZPowerSpherical seed
  let sp ← sp.assign free "Lambda" Lambda
  let sp ← sp.assign free "r_max" r_max
  let sp ← sp.assign free "delta" delta
  newSynth sp luminosity seed

/-- `ZPowerCosmoPopulation.__init__`, spatial_populations.py:94-138. -/
def zpowerCosmoPopulation (free : FreeFlags) (Lambda delta r_max : F) (seed : Int)
    (luminosity : Option (DistObj F)) (is_rate : Bool) : Except Err (NewSynth F) := do
  let sp := newZPowerCosmo seed is_rate
  let sp ← sp.assign free "Lambda" Lambda
  let sp ← sp.assign free "r_max" r_max
  let sp ← sp.assign free "delta" delta
  newSynth sp luminosity seed

/-- `SFRPopulation.__init__`, spatial_populations.py:142-195. -/
def sfrPopulation (free : FreeFlags) (r0 a rise decay peak r_max : F) (seed : Int)
    (luminosity : Option (DistObj F)) (is_rate : Bool) : Except Err (NewSynth F) := do
  let sp := newSFR seed is_rate
  let sp ← sp.assign free "r0" r0
  let sp ← sp.assign free "a" a
  let sp ← sp.assign free "rise" rise
  let sp ← sp.assign free "decay" decay
  let sp ← sp.assign free "peak" peak
  let sp ← sp.assign free "r_max" r_max
  newSynth sp luminosity seed

/-- `MWRadialPopulation.__init__`, spatial_populations.py:199-250. -/
def mwRadialPopulation (free : FreeFlags) (rho a b R1 R0 r_max : F) (seed : Int)
    (luminosity : Option (DistObj F)) : Except Err (NewSynth F) := do
  let sp := newSpiralGalaxy seed
  let sp ← sp.assign free "rho" rho
  let sp ← sp.assign free "a" a
  let sp ← sp.assign free "b" b
  let sp ← sp.assign free "R1" R1
  let sp ← sp.assign free "R0" R0
  let sp ← sp.assign free "r_max" r_max
  newSynth sp luminosity seed

/-! ### bpl_population.py -/

/-- `BPLHomogeneousSphericalPopulation.__init__`, bpl_population.py:11-56. -/
def bplHomogeneousSphericalPopulation (free : FreeFlags) (Lambda Lmin alpha Lbreak beta Lmax r_max : F)
    (seed : Int) : Except Err (NewSynth F) := do
  let lum := newBPL seed
  let lum ← lum.assign free "Lmin" Lmin
  let lum ← lum.assign free "alpha" alpha
  let lum ← lum.assign free "Lbreak" Lbreak
  let lum ← lum.assign free "beta" beta
  let lum ← lum.assign free "Lmax" Lmax
  sphericalPopulation free Lambda r_max seed (some lum)

/-- `BPLZPowerSphericalPopulation.__init__`, bpl_population.py:60-109. -/
def bplZPowerSphericalPopulation (free : FreeFlags) (Lambda delta Lmin alpha Lbreak beta Lmax r_max : F)
    (seed : Int) : Except Err (NewSynth F) := do
  let lum := newBPL seed
  let lum ← lum.assign free "Lmin" Lmin
  let lum ← lum.assign free "alpha" alpha
  let lum ← lum.assign free "Lbreak" Lbreak
  let lum ← lum.assign free "beta" beta
  let lum ← lum.assign free "Lmax" Lmax
  zpowerSphericalPopulation free Lambda delta r_max seed (some lum)

/-- `BPLZPowerCosmoPopulation.__init__`, bpl_population.py:113-165. -/
def bplZPowerCosmoPopulation (free : FreeFlags) (Lambda delta Lmin alpha Lbreak beta Lmax r_max : F)
    (seed : Int) (is_rate : Bool) : Except Err (NewSynth F) := do
  let lum := newBPL seed
  let lum ← lum.assign free "Lmin" Lmin
  let lum ← lum.assign free "alpha" alpha
  let lum ← lum.assign free "Lbreak" Lbreak
  let lum ← lum.assign free "beta" beta
  let lum ← lum.assign free "Lmax" Lmax
  zpowerCosmoPopulation free Lambda delta r_max seed (some lum) is_rate

/-- `BPLSFRPopulation.__init__`, bpl_population.py:169-233. -/
def bplSFRPopulation (free : FreeFlags) (r0 a rise decay peak Lmin alpha Lbreak beta Lmax r_max : F)
    (seed : Int) (is_rate : Bool) : Except Err (NewSynth F) := do
  let lum := newBPL seed
  let lum ← lum.assign free "Lmin" Lmin
  let lum ← lum.assign free "alpha" alpha
  let lum ← lum.assign free "Lbreak" Lbreak
  let lum ← lum.assign free "beta" beta
  let lum ← lum.assign free "Lmax" Lmax
  sfrPopulation free r0 a rise decay peak r_max seed (some lum) is_rate

/-! ### lognormal_population.py -/

/-- `LogNormalHomogeneousSphericalPopulation.__init__`, lognormal_population.py:14-48. -/
def logNormalHomogeneousSphericalPopulation (free : FreeFlags) (Lambda mu tau r_max : F)
    (seed : Int) : Except Err (NewSynth F) := do
  let lum := newLogNormal seed
  let lum ← lum.assign free "mu" mu
  let lum ← lum.assign free "tau" tau
  sphericalPopulation free Lambda r_max seed (some lum)

/-- `LogNormalZPowerSphericalPopulation.__init__`, lognormal_population.py:52-90. -/
def logNormalZPowerSphericalPopulation (free : FreeFlags) (Lambda delta mu tau r_max : F)
    (seed : Int) : Except Err (NewSynth F) := do
  let lum := newLogNormal seed
  let lum ← lum.assign free "mu" mu
  let lum ← lum.assign free "tau" tau
  zpowerSphericalPopulation free Lambda delta r_max seed (some lum)

/-- `LogNormalZPowerCosmoPopulation.__init__`, lognormal_population.py:94-139. -/
def logNormalZPowerCosmoPopulation (free : FreeFlags) (Lambda delta mu tau r_max : F)
    (seed : Int) (is_rate : Bool) : Except Err (NewSynth F) := do
  let lum := newLogNormal seed
  let lum ← lum.assign free "mu" mu
  let lum ← lum.assign free "tau" tau
  zpowerCosmoPopulation free Lambda delta r_max seed (some lum) is_rate

/-- `LogNormalSFRPopulation.__init__`, lognormal_population.py:143-200. -/
def logNormalSFRPopulation (free : FreeFlags) (r0 a rise decay peak mu tau r_max : F)
    (seed : Int) (is_rate : Bool) : Except Err (NewSynth F) := do
  let lum := newLogNormal seed
  let lum ← lum.assign free "mu" mu
  let lum ← lum.assign free "tau" tau
  sfrPopulation free r0 a rise decay peak r_max seed (some lum) is_rate

/-- `Log10NormalHomogeneousSphericalPopulation.__init__`, lognormal_population.py:204-238. -/
def log10NormalHomogeneousSphericalPopulation (free : FreeFlags) (Lambda mu tau r_max : F)
    (seed : Int) : Except Err (NewSynth F) := do
  let lum := newLog10Normal seed
  let lum ← lum.assign free "mu" mu
  let lum ← lum.assign free "tau" tau
  sphericalPopulation free Lambda r_max seed (some lum)

/-- `Log10NormalZPowerSphericalPopulation.__init__`, lognormal_population.py:242-280. -/
def log10NormalZPowerSphericalPopulation (free : FreeFlags) (Lambda delta mu tau r_max : F)
    (seed : Int) : Except Err (NewSynth F) := do
  let lum := newLog10Normal seed
  let lum ← lum.assign free "mu" mu
  let lum ← lum.assign free "tau" tau
  zpowerSphericalPopulation free Lambda delta r_max seed (some lum)

/-- `Log10NormalZPowerCosmoPopulation.__init__`, lognormal_population.py:284-329. -/
def log10NormalZPowerCosmoPopulation (free : FreeFlags) (Lambda delta mu tau r_max : F)
    (seed : Int) (is_rate : Bool) : Except Err (NewSynth F) := do
  let lum := newLog10Normal seed
  let lum ← lum.assign free "mu" mu
  let lum ← lum.assign free "tau" tau
  zpowerCosmoPopulation free Lambda delta r_max seed (some lum) is_rate

/-- `Log10NormalSFRPopulation.__init__`, lognormal_population.py:333-390. -/
def log10NormalSFRPopulation (free : FreeFlags) (r0 a rise decay peak mu tau r_max : F)
    (seed : Int) (is_rate : Bool) : Except Err (NewSynth F) := do
  let lum := newLog10Normal seed
  let lum ← lum.assign free "mu" mu
  let lum ← lum.assign free "tau" tau
  sfrPopulation free r0 a rise decay peak r_max seed (some lum) is_rate

/-! ### pareto_populations.py -/

/-- `ParetoHomogeneousSphericalPopulation.__init__`, pareto_populations.py:11-45. -/
def paretoHomogeneousSphericalPopulation (free : FreeFlags) (Lambda Lmin alpha r_max : F)
    (seed : Int) : Except Err (NewSynth F) := do
  let lum := newPareto seed
  let lum ← lum.assign free "Lmin" Lmin
  let lum ← lum.assign free "alpha" alpha
  sphericalPopulation free Lambda r_max seed (some lum)

/-- `ParetoZPowerSphericalPopulation.__init__`, pareto_populations.py:49-87. -/
def paretoZPowerSphericalPopulation (free : FreeFlags) (Lambda delta Lmin alpha r_max : F)
    (seed : Int) : Except Err (NewSynth F) := do
  let lum := newPareto seed
  let lum ← lum.assign free "Lmin" Lmin
  let lum ← lum.assign free "alpha" alpha
  zpowerSphericalPopulation free Lambda delta r_max seed (some lum)

/-- `ParetoZPowerCosmoPopulation.__init__`, pareto_populations.py:91-136. -/
def paretoZPowerCosmoPopulation (free : FreeFlags) (Lambda delta Lmin alpha r_max : F)
    (seed : Int) (is_rate : Bool) : Except Err (NewSynth F) := do
  let lum := newPareto seed
  let lum ← lum.assign free "Lmin" Lmin
  let lum ← lum.assign free "alpha" alpha
  zpowerCosmoPopulation free Lambda delta r_max seed (some lum) is_rate

/-- `ParetoSFRPopulation.__init__`, pareto_populations.py:140-197. -/
def paretoSFRPopulation (free : FreeFlags) (r0 a rise decay peak Lmin alpha r_max : F)
    (seed : Int) (is_rate : Bool) : Except Err (NewSynth F) := do
  let lum := newPareto seed
  let lum ← lum.assign free "Lmin" Lmin
  let lum ← lum.assign free "alpha" alpha
  sfrPopulation free r0 a rise decay peak r_max seed (some lum) is_rate

/-! ### schechter_populations.py -/

/-- `SchechterHomogeneousSphericalPopulation.__init__`, schechter_populations.py:11-45. -/
def schechterHomogeneousSphericalPopulation (free : FreeFlags) (Lambda Lmin alpha r_max : F)
    (seed : Int) : Except Err (NewSynth F) := do
  let lum := newSchechter seed
  let lum ← lum.assign free "Lmin" Lmin
  let lum ← lum.assign free "alpha" alpha
  sphericalPopulation free Lambda r_max seed (some lum)

/-- `SchechterZPowerSphericalPopulation.__init__`, schechter_populations.py:49-88. -/
def schechterZPowerSphericalPopulation (free : FreeFlags) (Lambda delta Lmin alpha r_max : F)
    (seed : Int) : Except Err (NewSynth F) := do
  let lum := newSchechter seed
  let lum ← lum.assign free "Lmin" Lmin
  let lum ← lum.assign free "alpha" alpha
  zpowerSphericalPopulation free Lambda delta r_max seed (some lum)

/-- `SchechterZPowerCosmoPopulation.__init__`, schechter_populations.py:92-138. -/
def schechterZPowerCosmoPopulation (free : FreeFlags) (Lambda delta Lmin alpha r_max : F)
    (seed : Int) (is_rate : Bool) : Except Err (NewSynth F) := do
  let lum := newSchechter seed
  let lum ← lum.assign free "Lmin" Lmin
  let lum ← lum.assign free "alpha" alpha
  zpowerCosmoPopulation free Lambda delta r_max seed (some lum) is_rate

/-- `SchechterSFRPopulation.__init__`, schechter_populations.py:142-200. -/
def schechterSFRPopulation (free : FreeFlags) (r0 a rise decay peak Lmin alpha r_max : F)
    (seed : Int) (is_rate : Bool) : Except Err (NewSynth F) := do
  let lum := newSchechter seed
  let lum ← lum.assign free "Lmin" Lmin
  let lum ← lum.assign free "alpha" alpha
  sfrPopulation free r0 a rise decay peak r_max seed (some lum) is_rate

end

end Popsynth
