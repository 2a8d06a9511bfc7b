import Verif.Spec.LumLaw
import Verif.Spec.AuxSamplers
import Verif.Model.PowerLaw
import Mathlib.Probability.Distributions.Gaussian.Real
import Mathlib.Probability.ConditionalProbability

/-!
# What it means that an auxiliary sampler draws a law
-/

set_option autoImplicit false

open MeasureTheory Filter ProbabilityTheory

namespace Popsynth
namespace Spec

/-- The normal law with mean `mu` and standard deviation `tau`. -/
noncomputable def normalLaw (mu tau : ℝ) : Measure ℝ := gaussianReal mu (tau ^ 2).toNNReal

/-- The samplers calculate with exact real numbers. -/
structure ExactAux {G : Type} (env : AuxEnv ℝ G) : Prop where
  num : ∀ n, env.num n = n
  add : ∀ x y, env.add x y = x + y
  sub : ∀ x y, env.sub x y = x - y
  mul : ∀ x y, env.mul x y = x * y
  div : ∀ x y, env.div x y = x / y
  pyDiv : ∀ x y, y ≠ 0 → env.pyDiv x y = .ok (x / y)
  eq : ∀ x y, env.eq x y = true ↔ x = y
  lt : ∀ x y, env.lt x y = true ↔ x < y
  exp : ∀ x, env.exp x = Real.exp x
  exp10 : ∀ x, env.exp10 x = 10 ^ x
  log : ∀ x, env.log x = Real.log x
  log10 : ∀ x, env.log10 x = Real.logb 10 x
  arccos : ∀ x, env.arccos x = Real.arccos x
  cosDeg : ∀ x, env.cosDeg x = Real.cos (x * (Real.pi / 180))
  pi : env.pi = Real.pi
  plaw : ∀ lo hi a u x, plawSample lo hi a u = some x → env.plaw lo hi a u = x
  weight : ∀ x0 x1 x2 a1 a2 w1 w2 c, integratePl x0 x1 x2 a1 a2 = some (w1, w2, c) →
    env.bplWeight x0 x1 x2 a1 a2 = .ok w1
  piece : ∀ lo hi a u x, pieceSample lo hi a u = some x → env.bplPiece lo hi a u = x

/-- The random numbers have their laws, one after the other independently: standard normal and
uniform numbers of NumPy, uniform numbers of numba, truncated standard normal numbers of SciPy
(which also never leave their limits), Pareto numbers of NumPy (one less than the usual ones) and
SciPy's Bernoulli trials. -/
structure FairAux {G : Type} [MeasurableSpace G] (P : Measure G) (env : AuxEnv ℝ G)
    (paretoLaw : ℝ → Measure ℝ) : Prop where
  normal : Samples P (gaussianReal 0 1) fun _ g x g' => env.normal g = (x, g')
  uniform : Samples P (uniformLaw 1) fun _ g x g' => env.uniform g = (x, g')
  numba : Samples P (uniformLaw 1) fun _ g x g' => env.numbaUniform g = (x, g')
  trunc : ∀ a b, a < b → Samples P ((gaussianReal 0 1)[|Set.Icc a b]) fun _ g x g' =>
    env.truncStd a b g = (x, g')
  truncInside : ∀ a b, a < b → ∀ g, (env.truncStd a b g).1 ∈ Set.Icc a b
  pareto : ∀ a, 0 < a → Samples P ((paretoLaw a).map fun x => x - 1) fun _ g x g' =>
    env.pareto a g = (x, g')
  bern : ∀ q, 0 ≤ q → q ≤ 1 → Samples P (coinLaw q) fun _ g b g' => env.bernoulli q g = (b, g')

/-- Objects of class `k` whose parameters have the values `V` almost surely draw as many true
values as asked for, independently with the law `μ`; the parameters keep their values. -/
def AuxDraws {G : Type} [MeasurableSpace G] (P : Measure G) (env : AuxEnv ℝ G) (k : AuxKind)
    (V : String → ℝ) (μ : Measure ℝ) : Prop :=
  IsProbabilityMeasure μ ∧ ∀ n, Samples P (iid n μ) fun _ g v g' => ∀ view : SView ℝ,
    HasValues env k V view.params →
    ∃ o, (auxCode env k).trueSampler view n g =
      { trueVals := some (List.ofFn v), obsVals := view.obsVals, params := o, rng := g' } ∧
      HasValues env k V o

/-- Objects of class `k` whose parameters have the values `V` almost surely add measurement
errors to given true values, as many as there are, independently with the law `ν`; the true values
stay and the parameters keep their values. -/
def AuxErrors {G : Type} [MeasurableSpace G] (P : Measure G) (env : AuxEnv ℝ G) (k : AuxKind)
    (V : String → ℝ) (ν : Measure ℝ) : Prop :=
  IsProbabilityMeasure ν ∧ ∀ n, Samples P (iid n ν) fun _ g e g' => ∀ (view : SView ℝ) (t : Fin n → ℝ),
    HasValues env k V view.params → view.isObserved = true → view.trueVals = some (List.ofFn t) →
    ∃ o, (auxCode env k).obsSampler view n g =
      { trueVals := some (List.ofFn t), obsVals := some (List.ofFn fun i => t i + e i),
        params := o, rng := g' } ∧
      HasValues env k V o

end Spec
end Popsynth
