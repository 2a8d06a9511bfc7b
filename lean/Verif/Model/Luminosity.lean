import Verif.Model.PowerLaw
import Mathlib.Analysis.SpecialFunctions.Gamma.Basic
import Mathlib.Analysis.SpecialFunctions.Log.Base

/-!
# Luminosity functions

`popsynth/distributions/{pareto,schechter,log_normal,log10_normal,uniform,delta}_distribution.py`
over the real numbers, with the conventions of `Verif.Model.PowerLaw`: a result that is not a
finite number is `none`.  Random generators are functions of a uniform number in [0, 1) or of a
standard normal number, written the way NumPy and SciPy compute them; what they refuse is an
error.
-/

set_option autoImplicit false

namespace Popsynth

noncomputable section

/-- `np.log(x)`. -/
def npLog (x : ℝ) : Option ℝ := if 0 < x then some (Real.log x) else none

/-- `np.log10(x)`. -/
def npLog10 (x : ℝ) : Option ℝ := if 0 < x then some (Real.logb 10 x) else none

/-- `scipy.special.gamma`: not a number at the poles. -/
def sfGamma (x : ℝ) : Option ℝ :=
  open Classical in if ∃ n : ℕ, x = -n then none else some (Real.Gamma x)

/-! ### Pareto -/

/-- `ParetoDistribution.phi`, pareto_distribution.py:33-43, at one element of an array of type
`t`. -/
def paretoPhi (t : NpDtype) (lmin alpha x : ℝ) : Option ℝ :=
  if lmin ≤ x then do
    let p ← npPow lmin alpha
    let q ← npPow x (alpha + 1)
    let v ← npDiv (alpha * p) q
    pure (t.store v)
  else pure 0

/-- `np.random.pareto(a)` from a uniform number: refused unless `a` is positive, and the
exponential function of `1 / a` times a standard exponential number, minus one. -/
def npPareto (a u : ℝ) : Except Err ℝ :=
  if 0 < a then .ok (Real.exp (-Real.log (1 - u) / a) - 1) else .error .value

/-- `ParetoDistribution.draw_luminosity`, pareto_distribution.py:45-47, for one object. -/
def paretoDraw (lmin alpha u : ℝ) : Except Err ℝ := do
  let y ← npPareto alpha u
  pure ((y + 1) * lmin)

/-! ### Schechter -/

/-- `SchechterDistribution.phi`, schechter_distribution.py:37-43. -/
def schechterPhi (lmin alpha x : ℝ) : Option ℝ := do
  let p ← npPow x alpha
  let e ← npDiv (-x) lmin
  let q ← npPow lmin (1 + alpha)
  let g ← sfGamma (1 + alpha)
  npDiv (p * Real.exp e) (q * g)

/-- `SchechterDistribution.draw_luminosity`, schechter_distribution.py:45-48, for one object;
`inv` is `scipy.special.gammaincinv`. -/
def schechterDraw (inv : ℝ → ℝ → Option ℝ) (lmin alpha u : ℝ) : Option ℝ := do
  let x ← inv (1 + alpha) (1 - u)
  pure (lmin * x)

/-! ### Log-normal -/

/-- `LogNormalDistribution.phi`, log_normal_distribution.py:35-39. -/
def logNormalPhi (mu tau x : ℝ) : Option ℝ := do
  let c ← npDiv 1 (tau * x * √(2 * Real.pi))
  let l ← npLog x
  let e ← npDiv (-(l - mu) ^ 2) (2 * tau ^ 2)
  pure (c * Real.exp e)

/-- `LogNormalDistribution.draw_luminosity`, log_normal_distribution.py:41-43, from a standard
normal number; `np.random.lognormal` refuses a negative width. -/
def logNormalDraw (mu tau z : ℝ) : Except Err ℝ :=
  if tau < 0 then .error .value else .ok (Real.exp (mu + tau * z))

/-- `Log10NormalDistribution.phi`, log10_normal_distribution.py:33-37. -/
def log10NormalPhi (mu tau x : ℝ) : Option ℝ := do
  let c ← npDiv 1 (tau * x * √(2 * Real.pi))
  let l ← npLog10 x
  let e ← npDiv (-(l - mu) ^ 2) (2 * tau ^ 2)
  pure (c * Real.exp e)

/-- `Log10NormalDistribution.draw_luminosity`, log10_normal_distribution.py:39-43, from a
standard normal number. -/
def log10NormalDraw (mu tau z : ℝ) : Except Err ℝ :=
  if tau < 0 then .error .value else .ok ((10 : ℝ) ^ (mu + tau * z))

/-! ### Log-uniform -/

/-- `LogUniLuminiosityDistribution.phi`, uniform_distribution.py:42-44. -/
def logUniPhi (lmin lmax x : ℝ) : Option ℝ := do
  let q ← npDiv lmax lmin
  let l ← npLog q
  npDiv 1 (x * l)

/-- `LogUniLuminiosityDistribution.draw_luminosity`, uniform_distribution.py:46-48, from a
uniform number; `scipy.stats.loguniform` refuses limits that are not positive and increasing. -/
def logUniDraw (lmin lmax u : ℝ) : Except Err ℝ :=
  if 0 < lmin ∧ lmin < lmax then
    .ok (Real.exp (Real.log lmin + u * (Real.log lmax - Real.log lmin)))
  else .error .value

/-! ### A single luminosity -/

/-- `DeltaDistribution.phi`, delta_distribution.py:32-54, at one element. -/
def deltaPhi (lp x : ℝ) : ℝ :=
  open Classical in if x = lp then 1 else 0

/-- `DeltaDistribution.draw_luminosity`, delta_distribution.py:56-58. -/
def deltaDraw (lp : ℝ) (size : Nat) : List ℝ := List.replicate size lp

end

end Popsynth
