import Verif.Model.Luminosity

/-!
# Truncated samplers

`popsynth/aux_samplers/trunc_normal_aux_sampler.py` and `trunc_lognormal_aux_sampler.py` over
the real numbers: rounding is not modelled.  `std a b size` is what
`scipy.stats.truncnorm.rvs(a, b, size=size)` returned, before location and scale are applied;
`q` is the quantile of the standard normal distribution at 1e-5.  A division by zero in Python
numbers (`ZeroDivisionError`) and what SciPy refuses (`ValueError`) are both `Err.value`.
-/

set_option autoImplicit false

namespace Popsynth

noncomputable section

/-- Standard truncated normal numbers. -/
abbrev StdTrunc := ℝ → ℝ → Nat → List ℝ

/-- `stats.truncnorm.rvs(a, b, loc, scale, size)` for a positive scale: refused unless the
limits increase. -/
def truncRvs (std : StdTrunc) (a b loc scale : ℝ) (size : Nat) : Except Err (List ℝ) :=
  open Classical in
  if a < b then .ok ((std a b size).map fun z => loc + scale * z) else .error .value

/-- The two assertions at the end of each `true_sampler`. -/
def assertInside (lower upper : ℝ) (vs : List ℝ) : Except Err (List ℝ) :=
  open Classical in
  if ∀ v ∈ vs, lower ≤ v then
    if ∀ v ∈ vs, v ≤ upper then .ok vs else .error .assertion
  else .error .assertion

/-- `TruncatedNormalAuxSampler.true_sampler`, trunc_normal_aux_sampler.py:45-59. -/
def truncNormal (std : StdTrunc) (mu tau lower upper : ℝ) (size : Nat) : Except Err (List ℝ) :=
  open Classical in
  if tau = 0 then .error .value
  else do
    let vs ← truncRvs std ((lower - mu) / tau) ((upper - mu) / tau) mu tau size
    assertInside lower upper vs

/-- The common part of the two log-normal samplers after the limits `a` and `b` of the exponent
have been found: with a scale of zero the standardized limits are infinite if the location is
between them, and `rvs` returns the location. -/
def truncLog (power : ℝ → ℝ) (std : StdTrunc) (mu tau lower upper a b : ℝ) (size : Nat) :
    Except Err (List ℝ) :=
  open Classical in
  if tau = 0 then
    if a < mu ∧ mu < b then assertInside lower upper ((List.replicate size mu).map power)
    else .error .value
  else do
    let xs ← truncRvs std ((a - mu) / tau) ((b - mu) / tau) mu tau size
    assertInside lower upper (xs.map power)

/-- `stats.norm.ppf(1e-5, loc=mu, scale=tau)`: not a number for a scale of zero. -/
def ppfLow (q mu tau : ℝ) : Option ℝ := open Classical in if tau = 0 then none else some (mu + tau * q)

/-- The lower limit of the exponent, trunc_lognormal_aux_sampler.py:44-47 and 119-122: both
samplers take the natural logarithm. -/
def lowerExponent (q mu tau lower : ℝ) : Option ℝ :=
  open Classical in if lower = 0 then ppfLow q mu tau else npLog lower

/-- `TruncatedLogNormalAuxSampler.true_sampler`, trunc_lognormal_aux_sampler.py:42-65. -/
def truncLogNormal (std : StdTrunc) (q mu tau lower upper : ℝ) (size : Nat) :
    Except Err (List ℝ) :=
  match lowerExponent q mu tau lower, npLog upper with
  | some a, some b => truncLog Real.exp std mu tau lower upper a b size
  | _, _ => .error .value

/-- `TruncatedLog10NormalAuxSampler.true_sampler`, trunc_lognormal_aux_sampler.py:117-140. -/
def truncLog10Normal (std : StdTrunc) (q mu tau lower upper : ℝ) (size : Nat) :
    Except Err (List ℝ) :=
  match lowerExponent q mu tau lower, npLog10 upper with
  | some a, some b => truncLog (fun x => (10 : ℝ) ^ x) std mu tau lower upper a b size
  | _, _ => .error .value

end

end Popsynth
