import Mathlib.MeasureTheory.Integral.IntervalIntegral.Basic
import Mathlib.Analysis.SpecialFunctions.Pow.Real

/-!
# Distances in a flat universe of matter and a cosmological constant

Om is the density of matter, h0 the Hubble constant in km/s/Mpc.
-/

set_option autoImplicit false

namespace Popsynth.Spec

noncomputable section

/-- The expansion rate in units of that of today. -/
def expansion (om z : ℝ) : ℝ := √(om * (1 + z) ^ 3 + (1 - om))

/-- The Hubble distance in Mpc; the speed of light is 299792.458 km/s. -/
def hubbleDistance (h0 : ℝ) : ℝ := 299792.458 / h0

/-- The comoving distance in Mpc. -/
def comovingDistance (om h0 z : ℝ) : ℝ := hubbleDistance h0 * ∫ t in (0 : ℝ)..z, 1 / expansion om t

/-- The luminosity distance in cm; a Mpc is 3.086e24 cm. -/
def luminosityDistance (om h0 z : ℝ) : ℝ := 3.086e24 * ((1 + z) * comovingDistance om h0 z)

/-- The comoving volume per redshift and steradian in Gpc^3. -/
def volumeElement (om h0 z : ℝ) : ℝ :=
  hubbleDistance h0 * comovingDistance om h0 z ^ 2 / expansion om z * 1e-9

/-- The flux of a source of luminosity `L`. -/
def flux (om h0 L z : ℝ) : ℝ := L / (4 * Real.pi * luminosityDistance om h0 z ^ 2)

end

end Popsynth.Spec
