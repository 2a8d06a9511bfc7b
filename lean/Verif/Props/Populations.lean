import Verif.Lemmas.Populations

/-!
# Ready-made populations pass every argument to the right parameter (C55)

For every class of `popsynth/populations`: with allowed values the constructor returns a synth
whose distributions are of the right class and have exactly the given values, and otherwise it
raises `RuntimeError`.  In the lists of values `true` marks parameters that must not be negative.
-/

set_option autoImplicit false
set_option linter.unusedSectionVars false
set_option linter.unusedSimpArgs false

namespace Popsynth

open Spec

variable {F : Type} [∀ n, OfNat F n] [LE F] [DecidableLE F]

/-- Parameters are declared as specified. -/
local macro "declared" : tactic =>
  `(tactic| (repeat (refine declared_cons ⟨_, rfl, rfl, rfl⟩ ?_)
             exact declared_nil _))

/-! ### Spatial populations, around any luminosity distribution -/

/-- **C55**, `SphericalPopulation`. -/
theorem C55_sphericalPopulation (free : FreeFlags) (Lambda r_max : F) (seed : Int)
    (lum : Option (DistObj F)) :
    BuildsAround free (sphericalPopulation free Lambda r_max seed lum) seed
      "ConstantSphericalDistribution" none [⟨"Lambda", Lambda, true⟩, ⟨"r_max", r_max, true⟩]
      lum := by
  have h := buildsAround_of free (newConstantSpherical seed) [⟨"Lambda", Lambda, true⟩,
    ⟨"r_max", r_max, true⟩] lum seed (by declared) (by simp) rfl rfl rfl
  simp only [setAll, bind_assoc, ok_bind'] at h
  exact h

/-- **C55**, `ZPowerSphericalPopulation`. -/
theorem C55_zpowerSphericalPopulation (free : FreeFlags) (Lambda delta r_max : F) (seed : Int)
    (lum : Option (DistObj F)) :
    BuildsAround free (zpowerSphericalPopulation free Lambda delta r_max seed lum) seed
      "ZPowerSphericalDistribution" none
      [⟨"Lambda", Lambda, true⟩, ⟨"r_max", r_max, true⟩, ⟨"delta", delta, false⟩] lum := by
  have h := buildsAround_of free (newZPowerSpherical seed) [⟨"Lambda", Lambda, true⟩,
    ⟨"r_max", r_max, true⟩, ⟨"delta", delta, false⟩] lum seed (by declared) (by simp) rfl rfl rfl
  simp only [setAll, bind_assoc, ok_bind'] at h
  exact h

/-- **C55**, `ZPowerCosmoPopulation`. -/
theorem C55_zpowerCosmoPopulation (free : FreeFlags) (Lambda delta r_max : F) (seed : Int)
    (lum : Option (DistObj F)) (is_rate : Bool) :
    BuildsAround free (zpowerCosmoPopulation free Lambda delta r_max seed lum is_rate) seed
      "ZPowerCosmoDistribution" (some is_rate)
      [⟨"Lambda", Lambda, true⟩, ⟨"r_max", r_max, true⟩, ⟨"delta", delta, false⟩] lum := by
  have h := buildsAround_of free (newZPowerCosmo seed is_rate) [⟨"Lambda", Lambda, true⟩,
    ⟨"r_max", r_max, true⟩, ⟨"delta", delta, false⟩] lum seed (by declared) (by simp) rfl rfl rfl
  simp only [setAll, bind_assoc, ok_bind'] at h
  exact h

/-- **C55**, `SFRPopulation`. -/
theorem C55_sfrPopulation (free : FreeFlags) (r0 a rise decay peak r_max : F) (seed : Int)
    (lum : Option (DistObj F)) (is_rate : Bool) :
    BuildsAround free (sfrPopulation free r0 a rise decay peak r_max seed lum is_rate) seed
      "SFRDistribution" (some is_rate)
      [⟨"r0", r0, true⟩, ⟨"a", a, true⟩, ⟨"rise", rise, false⟩, ⟨"decay", decay, false⟩,
        ⟨"peak", peak, true⟩, ⟨"r_max", r_max, true⟩] lum := by
  have h := buildsAround_of free (newSFR seed is_rate) [⟨"r0", r0, true⟩, ⟨"a", a, true⟩,
    ⟨"rise", rise, false⟩, ⟨"decay", decay, false⟩, ⟨"peak", peak, true⟩,
    ⟨"r_max", r_max, true⟩] lum seed (by declared) (by simp) rfl rfl rfl
  simp only [setAll, bind_assoc, ok_bind'] at h
  exact h

/-- **C55**, `MWRadialPopulation`. -/
theorem C55_mwRadialPopulation (free : FreeFlags) (rho a b R1 R0 r_max : F) (seed : Int)
    (lum : Option (DistObj F)) :
    BuildsAround free (mwRadialPopulation free rho a b R1 R0 r_max seed lum) seed
      "SpiralGalaxyDistribution" none
      [⟨"rho", rho, true⟩, ⟨"a", a, false⟩, ⟨"b", b, false⟩, ⟨"R1", R1, false⟩,
        ⟨"R0", R0, false⟩, ⟨"r_max", r_max, true⟩] lum := by
  have h := buildsAround_of free (newSpiralGalaxy seed) [⟨"rho", rho, true⟩, ⟨"a", a, false⟩,
    ⟨"b", b, false⟩, ⟨"R1", R1, false⟩, ⟨"R0", R0, false⟩, ⟨"r_max", r_max, true⟩] lum seed
    (by declared) (by simp) rfl rfl rfl
  simp only [setAll, bind_assoc, ok_bind'] at h
  exact h

/-! ### Populations with both distributions -/

/-- **C55**, `BPLHomogeneousSphericalPopulation`. -/
theorem C55_bplHomogeneousSphericalPopulation (free : FreeFlags)
    (Lambda Lmin alpha Lbreak beta Lmax r_max : F) (seed : Int) :
    Builds free (bplHomogeneousSphericalPopulation free Lambda Lmin alpha Lbreak beta Lmax r_max
        seed) seed "cons_sphere_bpl"
      "ConstantSphericalDistribution" none
      [⟨"Lambda", Lambda, true⟩, ⟨"r_max", r_max, true⟩]
      "BPLDistribution"
      [⟨"Lmin", Lmin, true⟩, ⟨"alpha", alpha, false⟩, ⟨"Lbreak", Lbreak, true⟩,
        ⟨"beta", beta, false⟩, ⟨"Lmax", Lmax, true⟩] := by
  have h := builds_of free (newConstantSpherical seed) (newBPL seed) [⟨"Lambda", Lambda, true⟩, ⟨"r_max", r_max, true⟩]
      [⟨"Lmin", Lmin, true⟩, ⟨"alpha", alpha, false⟩, ⟨"Lbreak", Lbreak, true⟩,
        ⟨"beta", beta, false⟩, ⟨"Lmax", Lmax, true⟩] seed (by declared) (by declared)
    (by simp) rfl rfl rfl rfl rfl rfl rfl
  simp only [setAll, bind_assoc, ok_bind'] at h
  exact h

/-- **C55**, `BPLZPowerSphericalPopulation`. -/
theorem C55_bplZPowerSphericalPopulation (free : FreeFlags)
    (Lambda delta Lmin alpha Lbreak beta Lmax r_max : F) (seed : Int) :
    Builds free (bplZPowerSphericalPopulation free Lambda delta Lmin alpha Lbreak beta Lmax r_max
        seed) seed "zpow_sphere_bpl"
      "ZPowerSphericalDistribution" none
      [⟨"Lambda", Lambda, true⟩, ⟨"r_max", r_max, true⟩, ⟨"delta", delta, false⟩]
      "BPLDistribution"
      [⟨"Lmin", Lmin, true⟩, ⟨"alpha", alpha, false⟩, ⟨"Lbreak", Lbreak, true⟩,
        ⟨"beta", beta, false⟩, ⟨"Lmax", Lmax, true⟩] := by
  have h := builds_of free (newZPowerSpherical seed) (newBPL seed) [⟨"Lambda", Lambda, true⟩, ⟨"r_max", r_max, true⟩, ⟨"delta", delta, false⟩]
      [⟨"Lmin", Lmin, true⟩, ⟨"alpha", alpha, false⟩, ⟨"Lbreak", Lbreak, true⟩,
        ⟨"beta", beta, false⟩, ⟨"Lmax", Lmax, true⟩] seed (by declared) (by declared)
    (by simp) rfl rfl rfl rfl rfl rfl rfl
  simp only [setAll, bind_assoc, ok_bind'] at h
  exact h

/-- **C55**, `BPLZPowerCosmoPopulation`. -/
theorem C55_bplZPowerCosmoPopulation (free : FreeFlags)
    (Lambda delta Lmin alpha Lbreak beta Lmax r_max : F) (seed : Int) (is_rate : Bool) :
    Builds free (bplZPowerCosmoPopulation free Lambda delta Lmin alpha Lbreak beta Lmax r_max
        seed is_rate) seed "zpow_cosmo_bpl"
      "ZPowerCosmoDistribution" (some is_rate)
      [⟨"Lambda", Lambda, true⟩, ⟨"r_max", r_max, true⟩, ⟨"delta", delta, false⟩]
      "BPLDistribution"
      [⟨"Lmin", Lmin, true⟩, ⟨"alpha", alpha, false⟩, ⟨"Lbreak", Lbreak, true⟩,
        ⟨"beta", beta, false⟩, ⟨"Lmax", Lmax, true⟩] := by
  have h := builds_of free (newZPowerCosmo seed is_rate) (newBPL seed) [⟨"Lambda", Lambda, true⟩, ⟨"r_max", r_max, true⟩, ⟨"delta", delta, false⟩]
      [⟨"Lmin", Lmin, true⟩, ⟨"alpha", alpha, false⟩, ⟨"Lbreak", Lbreak, true⟩,
        ⟨"beta", beta, false⟩, ⟨"Lmax", Lmax, true⟩] seed (by declared) (by declared)
    (by simp) rfl rfl rfl rfl rfl rfl rfl
  simp only [setAll, bind_assoc, ok_bind'] at h
  exact h

/-- **C55**, `BPLSFRPopulation`. -/
theorem C55_bplSFRPopulation (free : FreeFlags)
    (r0 a rise decay peak Lmin alpha Lbreak beta Lmax r_max : F) (seed : Int) (is_rate : Bool) :
    Builds free (bplSFRPopulation free r0 a rise decay peak Lmin alpha Lbreak beta Lmax r_max
        seed is_rate) seed "sfr_bpl"
      "SFRDistribution" (some is_rate)
      [⟨"r0", r0, true⟩, ⟨"a", a, true⟩, ⟨"rise", rise, false⟩,
        ⟨"decay", decay, false⟩, ⟨"peak", peak, true⟩, ⟨"r_max", r_max, true⟩]
      "BPLDistribution"
      [⟨"Lmin", Lmin, true⟩, ⟨"alpha", alpha, false⟩, ⟨"Lbreak", Lbreak, true⟩,
        ⟨"beta", beta, false⟩, ⟨"Lmax", Lmax, true⟩] := by
  have h := builds_of free (newSFR seed is_rate) (newBPL seed) [⟨"r0", r0, true⟩, ⟨"a", a, true⟩, ⟨"rise", rise, false⟩,
        ⟨"decay", decay, false⟩, ⟨"peak", peak, true⟩, ⟨"r_max", r_max, true⟩]
      [⟨"Lmin", Lmin, true⟩, ⟨"alpha", alpha, false⟩, ⟨"Lbreak", Lbreak, true⟩,
        ⟨"beta", beta, false⟩, ⟨"Lmax", Lmax, true⟩] seed (by declared) (by declared)
    (by simp) rfl rfl rfl rfl rfl rfl rfl
  simp only [setAll, bind_assoc, ok_bind'] at h
  exact h

/-- **C55**, `LogNormalHomogeneousSphericalPopulation`. -/
theorem C55_logNormalHomogeneousSphericalPopulation (free : FreeFlags)
    (Lambda mu tau r_max : F) (seed : Int) :
    Builds free (logNormalHomogeneousSphericalPopulation free Lambda mu tau r_max
        seed) seed "cons_sphere_lognorm"
      "ConstantSphericalDistribution" none
      [⟨"Lambda", Lambda, true⟩, ⟨"r_max", r_max, true⟩]
      "LogNormalDistribution"
      [⟨"mu", mu, false⟩, ⟨"tau", tau, true⟩] := by
  have h := builds_of free (newConstantSpherical seed) (newLogNormal seed) [⟨"Lambda", Lambda, true⟩, ⟨"r_max", r_max, true⟩]
      [⟨"mu", mu, false⟩, ⟨"tau", tau, true⟩] seed (by declared) (by declared)
    (by simp) rfl rfl rfl rfl rfl rfl rfl
  simp only [setAll, bind_assoc, ok_bind'] at h
  exact h

/-- **C55**, `LogNormalZPowerSphericalPopulation`. -/
theorem C55_logNormalZPowerSphericalPopulation (free : FreeFlags)
    (Lambda delta mu tau r_max : F) (seed : Int) :
    Builds free (logNormalZPowerSphericalPopulation free Lambda delta mu tau r_max
        seed) seed "zpow_sphere_lognorm"
      "ZPowerSphericalDistribution" none
      [⟨"Lambda", Lambda, true⟩, ⟨"r_max", r_max, true⟩, ⟨"delta", delta, false⟩]
      "LogNormalDistribution"
      [⟨"mu", mu, false⟩, ⟨"tau", tau, true⟩] := by
  have h := builds_of free (newZPowerSpherical seed) (newLogNormal seed) [⟨"Lambda", Lambda, true⟩, ⟨"r_max", r_max, true⟩, ⟨"delta", delta, false⟩]
      [⟨"mu", mu, false⟩, ⟨"tau", tau, true⟩] seed (by declared) (by declared)
    (by simp) rfl rfl rfl rfl rfl rfl rfl
  simp only [setAll, bind_assoc, ok_bind'] at h
  exact h

/-- **C55**, `LogNormalZPowerCosmoPopulation`. -/
theorem C55_logNormalZPowerCosmoPopulation (free : FreeFlags)
    (Lambda delta mu tau r_max : F) (seed : Int) (is_rate : Bool) :
    Builds free (logNormalZPowerCosmoPopulation free Lambda delta mu tau r_max
        seed is_rate) seed "zpow_cosmo_lognorm"
      "ZPowerCosmoDistribution" (some is_rate)
      [⟨"Lambda", Lambda, true⟩, ⟨"r_max", r_max, true⟩, ⟨"delta", delta, false⟩]
      "LogNormalDistribution"
      [⟨"mu", mu, false⟩, ⟨"tau", tau, true⟩] := by
  have h := builds_of free (newZPowerCosmo seed is_rate) (newLogNormal seed) [⟨"Lambda", Lambda, true⟩, ⟨"r_max", r_max, true⟩, ⟨"delta", delta, false⟩]
      [⟨"mu", mu, false⟩, ⟨"tau", tau, true⟩] seed (by declared) (by declared)
    (by simp) rfl rfl rfl rfl rfl rfl rfl
  simp only [setAll, bind_assoc, ok_bind'] at h
  exact h

/-- **C55**, `LogNormalSFRPopulation`. -/
theorem C55_logNormalSFRPopulation (free : FreeFlags)
    (r0 a rise decay peak mu tau r_max : F) (seed : Int) (is_rate : Bool) :
    Builds free (logNormalSFRPopulation free r0 a rise decay peak mu tau r_max
        seed is_rate) seed "sfr_lognorm"
      "SFRDistribution" (some is_rate)
      [⟨"r0", r0, true⟩, ⟨"a", a, true⟩, ⟨"rise", rise, false⟩,
        ⟨"decay", decay, false⟩, ⟨"peak", peak, true⟩, ⟨"r_max", r_max, true⟩]
      "LogNormalDistribution"
      [⟨"mu", mu, false⟩, ⟨"tau", tau, true⟩] := by
  have h := builds_of free (newSFR seed is_rate) (newLogNormal seed) [⟨"r0", r0, true⟩, ⟨"a", a, true⟩, ⟨"rise", rise, false⟩,
        ⟨"decay", decay, false⟩, ⟨"peak", peak, true⟩, ⟨"r_max", r_max, true⟩]
      [⟨"mu", mu, false⟩, ⟨"tau", tau, true⟩] seed (by declared) (by declared)
    (by simp) rfl rfl rfl rfl rfl rfl rfl
  simp only [setAll, bind_assoc, ok_bind'] at h
  exact h

/-- **C55**, `Log10NormalHomogeneousSphericalPopulation`. -/
theorem C55_log10NormalHomogeneousSphericalPopulation (free : FreeFlags)
    (Lambda mu tau r_max : F) (seed : Int) :
    Builds free (log10NormalHomogeneousSphericalPopulation free Lambda mu tau r_max
        seed) seed "cons_sphere_log10norm"
      "ConstantSphericalDistribution" none
      [⟨"Lambda", Lambda, true⟩, ⟨"r_max", r_max, true⟩]
      "Log10NormalDistribution"
      [⟨"mu", mu, false⟩, ⟨"tau", tau, true⟩] := by
  have h := builds_of free (newConstantSpherical seed) (newLog10Normal seed) [⟨"Lambda", Lambda, true⟩, ⟨"r_max", r_max, true⟩]
      [⟨"mu", mu, false⟩, ⟨"tau", tau, true⟩] seed (by declared) (by declared)
    (by simp) rfl rfl rfl rfl rfl rfl rfl
  simp only [setAll, bind_assoc, ok_bind'] at h
  exact h

/-- **C55**, `Log10NormalZPowerSphericalPopulation`. -/
theorem C55_log10NormalZPowerSphericalPopulation (free : FreeFlags)
    (Lambda delta mu tau r_max : F) (seed : Int) :
    Builds free (log10NormalZPowerSphericalPopulation free Lambda delta mu tau r_max
        seed) seed "zpow_sphere_log10norm"
      "ZPowerSphericalDistribution" none
      [⟨"Lambda", Lambda, true⟩, ⟨"r_max", r_max, true⟩, ⟨"delta", delta, false⟩]
      "Log10NormalDistribution"
      [⟨"mu", mu, false⟩, ⟨"tau", tau, true⟩] := by
  have h := builds_of free (newZPowerSpherical seed) (newLog10Normal seed) [⟨"Lambda", Lambda, true⟩, ⟨"r_max", r_max, true⟩, ⟨"delta", delta, false⟩]
      [⟨"mu", mu, false⟩, ⟨"tau", tau, true⟩] seed (by declared) (by declared)
    (by simp) rfl rfl rfl rfl rfl rfl rfl
  simp only [setAll, bind_assoc, ok_bind'] at h
  exact h

/-- **C55**, `Log10NormalZPowerCosmoPopulation`. -/
theorem C55_log10NormalZPowerCosmoPopulation (free : FreeFlags)
    (Lambda delta mu tau r_max : F) (seed : Int) (is_rate : Bool) :
    Builds free (log10NormalZPowerCosmoPopulation free Lambda delta mu tau r_max
        seed is_rate) seed "zpow_cosmo_log10norm"
      "ZPowerCosmoDistribution" (some is_rate)
      [⟨"Lambda", Lambda, true⟩, ⟨"r_max", r_max, true⟩, ⟨"delta", delta, false⟩]
      "Log10NormalDistribution"
      [⟨"mu", mu, false⟩, ⟨"tau", tau, true⟩] := by
  have h := builds_of free (newZPowerCosmo seed is_rate) (newLog10Normal seed) [⟨"Lambda", Lambda, true⟩, ⟨"r_max", r_max, true⟩, ⟨"delta", delta, false⟩]
      [⟨"mu", mu, false⟩, ⟨"tau", tau, true⟩] seed (by declared) (by declared)
    (by simp) rfl rfl rfl rfl rfl rfl rfl
  simp only [setAll, bind_assoc, ok_bind'] at h
  exact h

/-- **C55**, `Log10NormalSFRPopulation`. -/
theorem C55_log10NormalSFRPopulation (free : FreeFlags)
    (r0 a rise decay peak mu tau r_max : F) (seed : Int) (is_rate : Bool) :
    Builds free (log10NormalSFRPopulation free r0 a rise decay peak mu tau r_max
        seed is_rate) seed "sfr_log10norm"
      "SFRDistribution" (some is_rate)
      [⟨"r0", r0, true⟩, ⟨"a", a, true⟩, ⟨"rise", rise, false⟩,
        ⟨"decay", decay, false⟩, ⟨"peak", peak, true⟩, ⟨"r_max", r_max, true⟩]
      "Log10NormalDistribution"
      [⟨"mu", mu, false⟩, ⟨"tau", tau, true⟩] := by
  have h := builds_of free (newSFR seed is_rate) (newLog10Normal seed) [⟨"r0", r0, true⟩, ⟨"a", a, true⟩, ⟨"rise", rise, false⟩,
        ⟨"decay", decay, false⟩, ⟨"peak", peak, true⟩, ⟨"r_max", r_max, true⟩]
      [⟨"mu", mu, false⟩, ⟨"tau", tau, true⟩] seed (by declared) (by declared)
    (by simp) rfl rfl rfl rfl rfl rfl rfl
  simp only [setAll, bind_assoc, ok_bind'] at h
  exact h

/-- **C55**, `ParetoHomogeneousSphericalPopulation`. -/
theorem C55_paretoHomogeneousSphericalPopulation (free : FreeFlags)
    (Lambda Lmin alpha r_max : F) (seed : Int) :
    Builds free (paretoHomogeneousSphericalPopulation free Lambda Lmin alpha r_max
        seed) seed "cons_sphere_pareto"
      "ConstantSphericalDistribution" none
      [⟨"Lambda", Lambda, true⟩, ⟨"r_max", r_max, true⟩]
      "ParetoDistribution"
      [⟨"Lmin", Lmin, true⟩, ⟨"alpha", alpha, false⟩] := by
  have h := builds_of free (newConstantSpherical seed) (newPareto seed) [⟨"Lambda", Lambda, true⟩, ⟨"r_max", r_max, true⟩]
      [⟨"Lmin", Lmin, true⟩, ⟨"alpha", alpha, false⟩] seed (by declared) (by declared)
    (by simp) rfl rfl rfl rfl rfl rfl rfl
  simp only [setAll, bind_assoc, ok_bind'] at h
  exact h

/-- **C55**, `ParetoZPowerSphericalPopulation`. -/
theorem C55_paretoZPowerSphericalPopulation (free : FreeFlags)
    (Lambda delta Lmin alpha r_max : F) (seed : Int) :
    Builds free (paretoZPowerSphericalPopulation free Lambda delta Lmin alpha r_max
        seed) seed "zpow_sphere_pareto"
      "ZPowerSphericalDistribution" none
      [⟨"Lambda", Lambda, true⟩, ⟨"r_max", r_max, true⟩, ⟨"delta", delta, false⟩]
      "ParetoDistribution"
      [⟨"Lmin", Lmin, true⟩, ⟨"alpha", alpha, false⟩] := by
  have h := builds_of free (newZPowerSpherical seed) (newPareto seed) [⟨"Lambda", Lambda, true⟩, ⟨"r_max", r_max, true⟩, ⟨"delta", delta, false⟩]
      [⟨"Lmin", Lmin, true⟩, ⟨"alpha", alpha, false⟩] seed (by declared) (by declared)
    (by simp) rfl rfl rfl rfl rfl rfl rfl
  simp only [setAll, bind_assoc, ok_bind'] at h
  exact h

/-- **C55**, `ParetoZPowerCosmoPopulation`. -/
theorem C55_paretoZPowerCosmoPopulation (free : FreeFlags)
    (Lambda delta Lmin alpha r_max : F) (seed : Int) (is_rate : Bool) :
    Builds free (paretoZPowerCosmoPopulation free Lambda delta Lmin alpha r_max
        seed is_rate) seed "zpow_cosmo_pareto"
      "ZPowerCosmoDistribution" (some is_rate)
      [⟨"Lambda", Lambda, true⟩, ⟨"r_max", r_max, true⟩, ⟨"delta", delta, false⟩]
      "ParetoDistribution"
      [⟨"Lmin", Lmin, true⟩, ⟨"alpha", alpha, false⟩] := by
  have h := builds_of free (newZPowerCosmo seed is_rate) (newPareto seed) [⟨"Lambda", Lambda, true⟩, ⟨"r_max", r_max, true⟩, ⟨"delta", delta, false⟩]
      [⟨"Lmin", Lmin, true⟩, ⟨"alpha", alpha, false⟩] seed (by declared) (by declared)
    (by simp) rfl rfl rfl rfl rfl rfl rfl
  simp only [setAll, bind_assoc, ok_bind'] at h
  exact h

/-- **C55**, `ParetoSFRPopulation`. -/
theorem C55_paretoSFRPopulation (free : FreeFlags)
    (r0 a rise decay peak Lmin alpha r_max : F) (seed : Int) (is_rate : Bool) :
    Builds free (paretoSFRPopulation free r0 a rise decay peak Lmin alpha r_max
        seed is_rate) seed "sfr_pareto"
      "SFRDistribution" (some is_rate)
      [⟨"r0", r0, true⟩, ⟨"a", a, true⟩, ⟨"rise", rise, false⟩,
        ⟨"decay", decay, false⟩, ⟨"peak", peak, true⟩, ⟨"r_max", r_max, true⟩]
      "ParetoDistribution"
      [⟨"Lmin", Lmin, true⟩, ⟨"alpha", alpha, false⟩] := by
  have h := builds_of free (newSFR seed is_rate) (newPareto seed) [⟨"r0", r0, true⟩, ⟨"a", a, true⟩, ⟨"rise", rise, false⟩,
        ⟨"decay", decay, false⟩, ⟨"peak", peak, true⟩, ⟨"r_max", r_max, true⟩]
      [⟨"Lmin", Lmin, true⟩, ⟨"alpha", alpha, false⟩] seed (by declared) (by declared)
    (by simp) rfl rfl rfl rfl rfl rfl rfl
  simp only [setAll, bind_assoc, ok_bind'] at h
  exact h

/-- **C55**, `SchechterHomogeneousSphericalPopulation`. -/
theorem C55_schechterHomogeneousSphericalPopulation (free : FreeFlags)
    (Lambda Lmin alpha r_max : F) (seed : Int) :
    Builds free (schechterHomogeneousSphericalPopulation free Lambda Lmin alpha r_max
        seed) seed "cons_sphere_schechter"
      "ConstantSphericalDistribution" none
      [⟨"Lambda", Lambda, true⟩, ⟨"r_max", r_max, true⟩]
      "SchechterDistribution"
      [⟨"Lmin", Lmin, true⟩, ⟨"alpha", alpha, false⟩] := by
  have h := builds_of free (newConstantSpherical seed) (newSchechter seed) [⟨"Lambda", Lambda, true⟩, ⟨"r_max", r_max, true⟩]
      [⟨"Lmin", Lmin, true⟩, ⟨"alpha", alpha, false⟩] seed (by declared) (by declared)
    (by simp) rfl rfl rfl rfl rfl rfl rfl
  simp only [setAll, bind_assoc, ok_bind'] at h
  exact h

/-- **C55**, `SchechterZPowerSphericalPopulation`. -/
theorem C55_schechterZPowerSphericalPopulation (free : FreeFlags)
    (Lambda delta Lmin alpha r_max : F) (seed : Int) :
    Builds free (schechterZPowerSphericalPopulation free Lambda delta Lmin alpha r_max
        seed) seed "zpow_sphere_schechter"
      "ZPowerSphericalDistribution" none
      [⟨"Lambda", Lambda, true⟩, ⟨"r_max", r_max, true⟩, ⟨"delta", delta, false⟩]
      "SchechterDistribution"
      [⟨"Lmin", Lmin, true⟩, ⟨"alpha", alpha, false⟩] := by
  have h := builds_of free (newZPowerSpherical seed) (newSchechter seed) [⟨"Lambda", Lambda, true⟩, ⟨"r_max", r_max, true⟩, ⟨"delta", delta, false⟩]
      [⟨"Lmin", Lmin, true⟩, ⟨"alpha", alpha, false⟩] seed (by declared) (by declared)
    (by simp) rfl rfl rfl rfl rfl rfl rfl
  simp only [setAll, bind_assoc, ok_bind'] at h
  exact h

/-- **C55**, `SchechterZPowerCosmoPopulation`. -/
theorem C55_schechterZPowerCosmoPopulation (free : FreeFlags)
    (Lambda delta Lmin alpha r_max : F) (seed : Int) (is_rate : Bool) :
    Builds free (schechterZPowerCosmoPopulation free Lambda delta Lmin alpha r_max
        seed is_rate) seed "zpow_cosmo_schechter"
      "ZPowerCosmoDistribution" (some is_rate)
      [⟨"Lambda", Lambda, true⟩, ⟨"r_max", r_max, true⟩, ⟨"delta", delta, false⟩]
      "SchechterDistribution"
      [⟨"Lmin", Lmin, true⟩, ⟨"alpha", alpha, false⟩] := by
  have h := builds_of free (newZPowerCosmo seed is_rate) (newSchechter seed) [⟨"Lambda", Lambda, true⟩, ⟨"r_max", r_max, true⟩, ⟨"delta", delta, false⟩]
      [⟨"Lmin", Lmin, true⟩, ⟨"alpha", alpha, false⟩] seed (by declared) (by declared)
    (by simp) rfl rfl rfl rfl rfl rfl rfl
  simp only [setAll, bind_assoc, ok_bind'] at h
  exact h

/-- **C55**, `SchechterSFRPopulation`. -/
theorem C55_schechterSFRPopulation (free : FreeFlags)
    (r0 a rise decay peak Lmin alpha r_max : F) (seed : Int) (is_rate : Bool) :
    Builds free (schechterSFRPopulation free r0 a rise decay peak Lmin alpha r_max
        seed is_rate) seed "sfr_schechter"
      "SFRDistribution" (some is_rate)
      [⟨"r0", r0, true⟩, ⟨"a", a, true⟩, ⟨"rise", rise, false⟩,
        ⟨"decay", decay, false⟩, ⟨"peak", peak, true⟩, ⟨"r_max", r_max, true⟩]
      "SchechterDistribution"
      [⟨"Lmin", Lmin, true⟩, ⟨"alpha", alpha, false⟩] := by
  have h := builds_of free (newSFR seed is_rate) (newSchechter seed) [⟨"r0", r0, true⟩, ⟨"a", a, true⟩, ⟨"rise", rise, false⟩,
        ⟨"decay", decay, false⟩, ⟨"peak", peak, true⟩, ⟨"r_max", r_max, true⟩]
      [⟨"Lmin", Lmin, true⟩, ⟨"alpha", alpha, false⟩] seed (by declared) (by declared)
    (by simp) rfl rfl rfl rfl rfl rfl rfl
  simp only [setAll, bind_assoc, ok_bind'] at h
  exact h

/-- Concretely: a population with density 3, minimal luminosity 2 and index -1 out to 4; and a
negative density is refused. -/
example :
    let free : FreeFlags := fun _ _ => true
    (paretoHomogeneousSphericalPopulation free (3 : Int) 2 (-1) 4 7).toOption.map
      (fun s => (s.name, s.params)) = some ("cons_sphere_pareto",
        [("Lambda", some 3), ("r_max", some 4), ("Lmin", some 2), ("alpha", some (-1))]) ∧
    (match paretoHomogeneousSphericalPopulation free (-3 : Int) 2 (-1) 4 7 with
      | .error .runtime => true
      | _ => false) = true := by
  decide +kernel

end Popsynth
