import Verif.Model.Py
import Mathlib.Analysis.SpecialFunctions.Pow.Real
import Mathlib.MeasureTheory.Integral.IntervalIntegral.Basic

/-!
# Power laws

`popsynth/distributions/bpl_distribution.py` and `popsynth/aux_samplers/plaw_aux_sampler.py`
over the real numbers: rounding is not modelled.  A result that is not a finite number (`nan`
or `inf`) is `none`, and so is everything computed from it.  `scipy.integrate.quad` is the exact
integral.  What a random generator returned is an argument.
-/

set_option autoImplicit false

namespace Popsynth

noncomputable section

/-- `np.power(x, y)` for a non-negative base; a negative base gives `nan`. -/
def npPow (x y : ℝ) : Option ℝ :=
  if 0 < x then some (x ^ y)
  else if x = 0 then (if 0 < y then some 0 else if y = 0 then some 1 else none)
  else none

/-- `x / y`. -/
def npDiv (x y : ℝ) : Option ℝ := if y = 0 then none else some (x / y)

/-- `integrate_pl`, bpl_distribution.py:68-94: the weights and the total. -/
def integratePl (x0 x1 x2 a1 a2 : ℝ) : Option (ℝ × ℝ × ℝ) := do
  let p1 ← npPow x1 (a1 + 1)
  let p0 ← npPow x0 (a1 + 1)
  let int1 ← npDiv (p1 - p0) (a1 + 1)
  let q ← npPow x1 (a1 - a2)
  let q2 ← npPow x2 (a2 + 1)
  let q1 ← npPow x1 (a2 + 1)
  let int2 ← npDiv (q * (q2 - q1)) (a2 + 1)
  let total := int1 + int2
  let w1 ← npDiv int1 total
  let w2 ← npDiv int2 total
  pure (w1, w2, total)

/-- The type of an array. -/
inductive NpDtype where
  | float
  | int

/-- Assigning a float to an element of an array: an array of integers drops the fraction
(towards zero). -/
def NpDtype.store : NpDtype → ℝ → ℝ
  | .float, v => v
  | .int, v => if 0 ≤ v then (⌊v⌋ : ℝ) else (⌈v⌉ : ℝ)

/-- `bpl`, bpl_distribution.py:97-130, at one element of an array of type `t`: `zeros_like`
makes the result an array of the same type. -/
def bplAt (t : NpDtype) (x0 x1 x2 a1 a2 x : ℝ) : Option ℝ := do
  let (_, _, c) ← integratePl x0 x1 x2 a1 a2
  let norm ← npDiv 1 c
  if x1 ≤ x ∧ x < x2 then
    let p ← npPow x a2
    let q ← npPow x1 (a1 - a2)
    pure (t.store (p * q) * norm)
  else if x0 < x ∧ x < x1 then
    let p ← npPow x a1
    pure (t.store p * norm)
  else pure (0 * norm)

/-- `bpl` of an array. -/
def bpl (t : NpDtype) (x0 x1 x2 a1 a2 : ℝ) (xs : List ℝ) : List (Option ℝ) :=
  xs.map (bplAt t x0 x1 x2 a1 a2)

/-- `BPLDistribution.phi`, bpl_distribution.py:47-57, at one element; `quad` evaluates at
floats. -/
def bplPhi (t : NpDtype) (lmin lbreak lmax alpha beta x : ℝ) : Option ℝ := do
  let f ← bplAt t lmin lbreak lmax alpha beta x
  npDiv f (∫ l in lmin..lmax, (bplAt .float lmin lbreak lmax alpha beta l).getD 0)

/-- The inverse transform of one piece, bpl_distribution.py:157-169. -/
def pieceSample (lo hi a u : ℝ) : Option ℝ := do
  let ph ← npPow hi (a + 1)
  let pl ← npPow lo (a + 1)
  let e ← npDiv 1 (1 + a)
  npPow (u * (ph - pl) + pl) e

/-- `sample_bpl`, bpl_distribution.py:133-171, with the uniform numbers `u` and the outcomes
`coin` of the Bernoulli trials; those are refused unless their probability is in [0, 1]. -/
def sampleBpl (u : List ℝ) (coin : List Bool) (x0 x1 x2 a1 a2 : ℝ) :
    Except Err (List (Option ℝ)) :=
  match integratePl x0 x1 x2 a1 a2 with
  | none => .error .value
  | some (w1, _, _) =>
    if 0 ≤ w1 ∧ w1 ≤ 1 then
      .ok (List.zipWith (fun u (c : Bool) =>
        if c then pieceSample x0 x1 a1 u else pieceSample x1 x2 a2 u) u coin)
    else .error .value

/-- `_sample_power_law`, plaw_aux_sampler.py:159-182, for one uniform number. -/
def plawSample (xmin xmax alpha u : ℝ) : Option ℝ :=
  if alpha ≠ -1 then do
    let ph ← npPow xmax (alpha + 1)
    let pl ← npPow xmin (alpha + 1)
    let e ← npDiv 1 (alpha + 1)
    npPow ((ph - pl) * u + pl) e
  else do
    let q ← npDiv xmax xmin
    if q ≤ 0 then none
    else do
      let r ← npDiv 1 (Real.log q)
      let s ← npDiv u r
      pure (xmin * Real.exp s)

end

end Popsynth
