import Verif.Model.Distance
import Mathlib.Analysis.SpecialFunctions.Pow.Real
import Mathlib.Analysis.SpecialFunctions.Trigonometric.Basic
import Mathlib.Analysis.SpecialFunctions.Exp

/-!
# The built-in spatial distributions (`popsynth/distributions/*.py`), over `ℝ`

Only what their density `dNdV · differential_volume / time_adjustment` computes.
The comoving volume element is a parameter here (`Verif/Model/Cosmology.lean` has
its formula).  Rounding is not modelled.
-/

set_option autoImplicit false

namespace Popsynth
noncomputable section

/-- `r_max = DistributionParameter(vmin=0, default=10)`, distribution.py:164. -/
def declRMaxR : ParamDecl ℝ := { default := some 10, vmin := some 0 }

/-- Declarations of a class: a finite table, plus the inherited `r_max`. -/
def declTable (t : List (String × ParamDecl ℝ)) (n : String) : ParamDecl ℝ :=
  if n = "r_max" then declRMaxR else (Dict.get? t n).getD {}

/-- `SphericalDistribution.differential_volume`, spherical_distribution.py:32-34. -/
def sphereVolume (r : ℝ) : ℝ := 4 * Real.pi * r * r

/-- `CosmologicalDistribution.time_adjustment`, cosmological_distribution.py:74-88. -/
def timeAdjustment (isRate : Bool) (z : ℝ) : ℝ := if isRate then 1 + z else 1

/-- `ConstantSphericalDistribution`, spherical_distribution.py:43-73. -/
def constantSpherical : SpClass ℝ where
  decl := declTable [("Lambda", { default := some 1, vmin := some 0, isNorm := true })]
  reads := ["Lambda"]
  dens vs r := match vs with
    | [l] => l * sphereVolume r / 1
    | _ => 0

/-- `ZPowerSphericalDistribution`, spherical_distribution.py:76-108. -/
def zpowerSpherical : SpClass ℝ where
  decl := declTable [("Lambda", { default := some 1, vmin := some 0, isNorm := true }),
    ("delta", { default := some 1 })]
  reads := ["Lambda", "delta"]
  dens vs r := match vs with
    | [l, d] => l * (r + 1) ^ d * sphereVolume r / 1
    | _ => 0

/-- `SFRDistribution`, cosmological_distribution.py:91-146; `dv` is
`differential_volume`. -/
def sfr (dv : ℝ → ℝ) (isRate : Bool) : SpClass ℝ where
  decl := declTable [("r0", { vmin := some 0, isNorm := true }), ("a", { vmin := some 0 }),
    ("rise", {}), ("decay", {}), ("peak", { vmin := some 0 })]
  reads := ["r0", "a", "rise", "decay", "peak"]
  dens vs z := match vs with
    | [r0, a, rise, decay, peak] =>
      r0 * (a + rise * z) / (1 + (z / peak) ^ decay) * dv z / timeAdjustment isRate z
    | _ => 0

/-- `ZPowerCosmoDistribution`, cosmological_distribution.py:157-200. -/
def zpowerCosmo (dv : ℝ → ℝ) (isRate : Bool) : SpClass ℝ where
  decl := declTable [("Lambda", { default := some 1, vmin := some 0, isNorm := true }),
    ("delta", {})]
  reads := ["Lambda", "delta"]
  dens vs z := match vs with
    | [l, d] => l * (z + 1) ^ d * dv z / timeAdjustment isRate z
    | _ => 0

/-- `UniformCosmoDistribution`, uniform_distribution.py:51-95. -/
def uniformCosmo (dv : ℝ → ℝ) (isRate : Bool) : SpClass ℝ where
  decl := declTable [("r0", { vmin := some 0, isNorm := true }), ("zmin", { vmin := some 0 }),
    ("zmax", { vmin := some 0 })]
  reads := ["r0", "zmax", "zmin"]
  dens vs z := match vs with
    | [r0, zmax, zmin] => r0 / (zmax - zmin) * dv z / timeAdjustment isRate z
    | _ => 0

/-- `FlatlandDistribution`, flatland_distribution.py:4-38.  Its density does not
depend on the position (called with an array it returns a number, which numpy
broadcasts). -/
def flatland : SpClass ℝ where
  decl := declTable [("Lambda", { default := some 1, vmin := some 0 })]
  reads := ["Lambda"]
  dens vs _ := match vs with
    | [l] => l * 1 / 1
    | _ => 0

/-- `SpiralGalaxyDistribution`, spiral_galaxy_distribution.py:7-61. -/
def spiralGalaxy : SpClass ℝ where
  decl := declTable [("rho", { vmin := some 0 }), ("a", {}), ("b", {}), ("R1", {}), ("R0", {})]
  reads := ["rho", "R1", "R0", "R1", "a", "b", "R0", "R0", "R1"]
  dens vs r := match vs with
    | [rho, r1, r0, r1', a, b, r0', r0'', r1''] =>
      rho * ((r + r1) / (r0 + r1')) ^ a * Real.exp (-b * (r - r0') / (r0'' + r1''))
        * sphereVolume r / 1
    | _ => 0

end
end Popsynth
