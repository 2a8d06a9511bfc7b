import Verif.Model.PowerLaw
import Mathlib.Analysis.Real.Sqrt
import Mathlib.Analysis.SpecialFunctions.Trigonometric.Basic

/-!
# Cosmology and fluxes

`popsynth/utils/cosmology.py` and the transforms of `popsynth/distributions/`
`cosmological_distribution.py`, `spherical_distribution.py` and `flatland_distribution.py`, over
the real numbers: the single precision of the fields and rounding are not modelled.  A result
that is not a finite number is `none`.
-/

set_option autoImplicit false

namespace Popsynth

noncomputable section

/-- `np.sqrt`. -/
def npSqrt (x : ℝ) : Option ℝ := if 0 ≤ x then some (√x) else none

/-- The fields of `Cosmology`, cosmology.py:11-19, and `Onu0 + Ogamma0`, cosmology.py:21-22. -/
structure Cosmo where
  Om : ℝ
  h0 : ℝ
  radiation : ℝ

/-- `astropy.constants.c.value`, cosmology.py:9. -/
def speedOfLight : ℝ := 299792458

/-- `Cosmology.Om_reduced`, cosmology.py:63-65. -/
def Cosmo.omReduced (c : Cosmo) : Option ℝ := npDiv (1 - c.Om) c.Om

/-- `Cosmology.Om_sqrt`, cosmology.py:67-69. -/
def Cosmo.omSqrt (c : Cosmo) : Option ℝ := npSqrt c.Om

/-- `Cosmology.Ode`, cosmology.py:71-73. -/
def Cosmo.ode (c : Cosmo) : ℝ := 1 - c.Om - c.radiation

/-- `Cosmology.dh`, cosmology.py:75-77. -/
def Cosmo.dh (c : Cosmo) : Option ℝ := npDiv (speedOfLight * 1.0e-3) c.h0

/-- `Cosmology.Phi`, cosmology.py:79-84. -/
def cosmoPhi (x : ℝ) : Option ℝ :=
  let x2 := x * x
  let x3 := x * x * x
  let top := 1 + 1.320 * x + 0.441 * x2 + 0.02656 * x3
  let bottom := 1 + 1.392 * x + 0.5121 * x2 + 0.03944 * x3
  npDiv top bottom

/-- `Cosmology.xx`, cosmology.py:86-87. -/
def Cosmo.xx (c : Cosmo) (z : ℝ) : Option ℝ := do
  let r ← c.omReduced
  npDiv r ((1 + z) ^ 3)

/-- `Cosmology.luminosity_distance`, cosmology.py:89-102. -/
def Cosmo.luminosityDistance (c : Cosmo) (z : ℝ) : Option ℝ := do
  let x ← c.xx z
  let z1 := 1 + z
  let dh ← c.dh
  let oms ← c.omSqrt
  let f ← npDiv (2 * dh * z1) oms
  let x0 ← c.xx 0
  let p0 ← cosmoPhi x0
  let s ← npSqrt z1
  let q ← npDiv 1 s
  let p ← cosmoPhi x
  pure (f * (p0 - q * p) * 3.086e24)

/-- `Cosmology.a`, cosmology.py:104-106. -/
def Cosmo.a (c : Cosmo) (z : ℝ) : Option ℝ := npSqrt ((1 + z) ^ 3 * c.Om + c.ode)

/-- `Cosmology.comoving_transverse_distance`, cosmology.py:108-110. -/
def Cosmo.comovingTransverseDistance (c : Cosmo) (z : ℝ) : Option ℝ := do
  let d ← c.luminosityDistance z
  npDiv d (1 + z)

/-- `Cosmology.differential_comoving_volume`, cosmology.py:112-121. -/
def Cosmo.differentialComovingVolume (c : Cosmo) (z : ℝ) : Option ℝ := do
  let t ← c.comovingTransverseDistance z
  let td := t / 3.086e24
  let dh ← c.dh
  let a ← c.a z
  let v ← npDiv (dh * td * td) a
  pure (v * 1e-9)

/-! ### Luminosity to flux -/

/-- `SphericalDistribution.transform`, spherical_distribution.py:36-40. -/
def sphericalFlux (L r : ℝ) : Option ℝ :=
  let r := r + 1
  npDiv L (4 * Real.pi * r * r)

/-- `CosmologicalDistribution.transform`, cosmological_distribution.py:57-70. -/
def cosmologicalFlux (c : Cosmo) (L z : ℝ) : Option ℝ := do
  let d ← c.luminosityDistance z
  npDiv L (4 * Real.pi * d ^ 2)

/-- `FlatlandDistribution.transform`, flatland_distribution.py:33-35. -/
def flatlandFlux (L _r : ℝ) : Option ℝ := some L

end

end Popsynth
