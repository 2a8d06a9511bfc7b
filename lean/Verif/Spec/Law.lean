import Verif.Model.Py
import Mathlib.MeasureTheory.Constructions.Pi
import Mathlib.MeasureTheory.Measure.Lebesgue.Basic
import Mathlib.MeasureTheory.Measure.WithDensity
import Mathlib.Order.Filter.AtTopBot.Basic

/-!
# What it means that a program draws random numbers with a given law

The generator states carry a probability measure `P` (think of a random seed).  A
program is seen as a relation `R k g a g'`: with at most `k` turns of every `while`
loop, started in generator state `g`, it returns `a` and leaves `g'`.
-/

set_option autoImplicit false

open MeasureTheory Filter

namespace Popsynth

/-- The program almost surely returns (if loops may turn often enough), what it returns
has the law `μ`, and the generator state it leaves is independent of that and as random
as before. -/
def Spec.Samples {G α : Type} [MeasurableSpace G] [MeasurableSpace α] (P : Measure G)
    (μ : Measure α) (R : ℕ → G → α → G → Prop) : Prop :=
  ∃ T : G → α × G, MeasurePreserving T P (μ.prod P) ∧
    ∀ᵐ g ∂P, ∀ᶠ k in atTop, R k g (T g).1 (T g).2

/-- The uniform law on `[0, h]`. -/
noncomputable def Spec.uniformLaw (h : ℝ) : Measure ℝ :=
  (ENNReal.ofReal h)⁻¹ • (volume.restrict (Set.Icc 0 h))

/-- The primitive `np.random.uniform(0, h)`: for every `h > 0` it returns a number with
the uniform law on `[0, h]` and leaves a generator state that is independent of it and
as random as before. -/
def Spec.FairUniform {G : Type} [MeasurableSpace G] (P : Measure G)
    (uniform : ℝ → G → Except Err ℝ × G) : Prop :=
  ∀ h, 0 < h → ∃ S : G → ℝ × G, MeasurePreserving S P ((Spec.uniformLaw h).prod P) ∧
    ∀ g, uniform h g = (.ok (S g).1, (S g).2)

/-- The law on `[0, x]` whose density is proportional to `f`. -/
noncomputable def Spec.densityLaw (f : ℝ → ℝ) (x : ℝ) : Measure ℝ :=
  (∫⁻ r in Set.Icc 0 x, ENNReal.ofReal (f r))⁻¹ •
    (volume.restrict (Set.Icc 0 x)).withDensity fun r => ENNReal.ofReal (f r)

/-- `n` independent values with law `μ`. -/
noncomputable def Spec.iid {α : Type} [MeasurableSpace α] (n : ℕ) (μ : Measure α) :
    Measure (Fin n → α) :=
  Measure.pi fun _ => μ

end Popsynth
