import Verif.Model.PowerLaw
import Mathlib.Analysis.SpecialFunctions.Trigonometric.Inverse
import Mathlib.Analysis.SpecialFunctions.Log.Basic

/-!
# Sky positions and angles

`popsynth/utils/spherical_geometry.py`, the angles of `popsynth/distribution.py`,
`popsynth/aux_samplers/sky_sampler.py`, `viewing_angle_sampler.py` and the sky positions of
`popsynth/distributions/spiral_galaxy_distribution.py`, over the real numbers.  A uniform number
in [0, 1) is an argument; `np.random.uniform(low, high)` is `low + (high - low) * u`.
-/

set_option autoImplicit false

namespace Popsynth

noncomputable section

/-- `np.random.uniform(low, high)` from a uniform number. -/
def npUniform (low high u : ℝ) : ℝ := low + (high - low) * u

/-- `np.arccos`: not a number outside [-1, 1]. -/
def npArccos (x : ℝ) : Option ℝ := if -1 ≤ x ∧ x ≤ 1 then some (Real.arccos x) else none

/-- `np.deg2rad`. -/
def deg2rad (x : ℝ) : ℝ := x * (Real.pi / 180)

/-- `np.rad2deg`. -/
def rad2deg (x : ℝ) : ℝ := x * (180 / Real.pi)

/-- `sample_theta_phi`, spherical_geometry.py:4-13, for one object. -/
def sampleThetaPhi (u v : ℝ) : Option (ℝ × ℝ) := do
  let theta ← npArccos (1 - 2 * npUniform 0 1 u)
  let phi := npUniform 0 (2 * Real.pi) v
  pure (theta, phi)

/-- `xyz`, spherical_geometry.py:16-24. -/
def xyz (r theta phi : ℝ) : ℝ × ℝ × ℝ :=
  (r * Real.sin theta * Real.cos phi, r * Real.sin theta * Real.sin phi, r * Real.cos theta)

/-- `SpatialContainer.dec`, distribution.py:152-154, and `SpatialDistribution.dec`,
distribution.py:254-262. -/
def decOf (theta : ℝ) : ℝ := 90 - rad2deg theta

/-- `SpatialContainer.ra`, distribution.py:156-158, and `SpatialDistribution.ra`,
distribution.py:264-272. -/
def raOf (phi : ℝ) : ℝ := rad2deg phi

/-- `RASampler.true_sampler`, sky_sampler.py:62-64. -/
def raSample (u : ℝ) : ℝ := npUniform 0 (2 * Real.pi) u

/-- `DecSampler.true_sampler`, sky_sampler.py:79-83. -/
def decSample (u : ℝ) : Option ℝ := npArccos (1 - 2 * npUniform 0 1 u)

/-- `ViewingAngleSampler.true_sampler`, viewing_angle_sampler.py:26-38. -/
def viewingAngle (maxAngle u : ℝ) : Option ℝ :=
  npArccos (1 - npUniform 0 (1 - Real.cos (deg2rad maxAngle)) u)

/-- `ViewingAngleSampler._compute_probability`, viewing_angle_sampler.py:40-44. -/
def viewingProb (maxAngle t : ℝ) : Option ℝ :=
  npDiv (Real.sin t) (1 - Real.cos (deg2rad maxAngle))

/-- The arms of the spiral galaxy, spiral_galaxy_distribution.py:72-74. -/
def spiralArm : Fin 4 → ℝ × ℝ × ℝ
  | 0 => (4.25, 3.48, 0)
  | 1 => (4.25, 3.48, 3.141)
  | 2 => (4.89, 4.90, 2.525)
  | 3 => (4.89, 4.90, 5.666)

/-- `SpiralGalaxyDistribution.draw_sky_positions`, spiral_galaxy_distribution.py:63-105, for one
object at `distance` (positive: otherwise the logarithm is not a number): the arm, a uniform
number, the height above the plane (an exponential number times a sign) and a standard normal
number.  The distance, theta and phi afterwards. -/
def spiralSky (distance : ℝ) (arm : Fin 4) (u zpos normal : ℝ) : Option (ℝ × ℝ × ℝ) := do
  let (k, r0, theta0) := spiralArm arm
  let q ← npDiv distance r0
  if q ≤ 0 then none
  else do
    let tet := k * Real.log q + theta0
    let corrtet := npUniform 0 (2 * Real.pi) u * Real.exp (-0.35 * distance)
    let spiraltheta := tet + corrtet
    let d := distance + 0.07 * |distance| * normal
    let c ← npDiv zpos (√(d ^ 2 + zpos ^ 2))
    let phi ← npArccos c
    pure (d, spiraltheta, phi)

end

end Popsynth
