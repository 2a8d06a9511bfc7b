import Verif.Spec.Law
import Verif.Model.LumClasses
import Verif.Spec.AuxSamplers

/-!
# What it means that a luminosity distribution draws its luminosity function
-/

set_option autoImplicit false

open MeasureTheory Filter
open scoped ENNReal

namespace Popsynth
namespace Spec

/-- The law on `s` with density `f`. -/
noncomputable def lumLaw (f : ℝ → ℝ) (s : Set ℝ) : Measure ℝ :=
  (volume.restrict s).withDensity fun x => ENNReal.ofReal (f x)

/-- A parameter that the class declares has the given value: it was set, or it is the default. -/
def LumHas (b : Body ℝ) (o : Obj ℝ) (n : String) (v : ℝ) : Prop :=
  ∃ d, Dict.get? b.params n = some d ∧ inForce d n o = some v

/-- A Bernoulli trial. -/
noncomputable def coinLaw (q : ℝ) : Measure Bool :=
  ENNReal.ofReal q • Measure.dirac true + ENNReal.ofReal (1 - q) • Measure.dirac false

/-- The object almost surely returns luminosities, as many as asked for; they are independent
and have the law `μ`; the probabilities it computes for them are the values of `f`. -/
def Luminous {G : Type} [MeasurableSpace G] (P : Measure G) (c : LumCode ℝ G) (lum : Lum ℝ)
    (μ : Measure ℝ) (f : ℝ → ℝ) : Prop :=
  IsProbabilityMeasure μ ∧ ∀ n, Samples P (iid n μ) fun _ g v g' => ∃ lum',
    c.draw n { lum, rng := g } = .ok (List.ofFn v) { lum := lum', rng := g' } ∧
    ∃ o, c.phi (List.ofFn v) lum'.params = .ok ((List.ofFn v).map f) o

/-- NumPy's uniform and normal numbers and SciPy's Bernoulli trials have their laws, one after
the other independently. -/
structure FairNumbers {G : Type} [MeasurableSpace G] (P : Measure G) (env : LumEnv G)
    (standardNormal : Measure ℝ) : Prop where
  uniform : Samples P (uniformLaw 1) fun _ g x g' => env.uniform g = (x, g')
  normal : Samples P standardNormal fun _ g x g' => env.normal g = (x, g')
  bern : ∀ q, 0 ≤ q → q ≤ 1 → Samples P (coinLaw q) fun _ g b g' => env.bern q g = (b, g')

end Spec
end Popsynth
