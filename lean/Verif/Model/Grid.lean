import Mathlib.Analysis.SpecialFunctions.Log.Base
import Mathlib.Analysis.SpecialFunctions.Pow.Real

/-!
# Grids of `add_model_space` (population_synth.py:774-790) in exact arithmetic

`np.linspace(a, b, n)` computes `arange(n) * ((b - a) / (n - 1)) + a` and overwrites the
last entry by `b` (numpy/core/function_base.py); `np.logspace(a, b, n)` is
`10.0 ** np.linspace(a, b, n)`.
-/

set_option autoImplicit false

namespace Popsynth

/-- Entry `i` of `np.linspace(a, b, n)`, for `n ≥ 2`. -/
noncomputable def linspaceAt (a b : ℝ) (n i : Nat) : ℝ :=
  if i = n - 1 then b else i * ((b - a) / ((n : ℝ) - 1)) + a

/-- `np.linspace(a, b, n)`. -/
noncomputable def linspace (a b : ℝ) (n : Nat) : List ℝ := (List.range n).map (linspaceAt a b n)

/-- `np.logspace(a, b, n)`. -/
noncomputable def logspace (a b : ℝ) (n : Nat) : List ℝ :=
  (linspace a b n).map fun x => (10 : ℝ) ^ x

/-- The two branches of `add_model_space`, 783-788. -/
noncomputable def realGrid (start stop : ℝ) (log : Bool) (n : Nat) : List ℝ :=
  if log then logspace (Real.logb 10 start) (Real.logb 10 stop) n else linspace start stop n

end Popsynth
