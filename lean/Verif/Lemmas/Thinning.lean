import Verif.Lemmas.Law
import Mathlib.Probability.Distributions.Poisson.Basic

/-!
# Composing programs that draw random numbers
-/

set_option autoImplicit false
set_option linter.unusedSectionVars false

open MeasureTheory Filter
open scoped NNReal ENNReal

namespace Popsynth

variable {G α β : Type} [MeasurableSpace G] [MeasurableSpace α] [MeasurableSpace β]
  {P : Measure G} [IsProbabilityMeasure P]

/-! ### Composition -/

/-- What holds almost surely of the drawn value may be added. -/
theorem Samples.and_ae {μ : Measure α} [IsProbabilityMeasure μ] {R : ℕ → G → α → G → Prop}
    (h : Spec.Samples P μ R) {p : α → Prop} (hp : ∀ᵐ a ∂μ, p a) :
    Spec.Samples P μ fun k g a g' => R k g a g' ∧ p a := by
  obtain ⟨T, hT, hR⟩ := h
  refine ⟨T, hT, ?_⟩
  have h1 : ∀ᵐ g ∂P, p (T g).1 :=
    ((measurePreserving_fst (μ := μ) (ν := P)).comp hT).quasiMeasurePreserving.ae hp
  filter_upwards [hR, h1] with g a b
  filter_upwards [a] with k a
  exact ⟨a, b⟩

/-- What holds almost surely of one value holds almost surely of all values of a sample. -/
theorem iid_ae {μ : Measure α} [IsProbabilityMeasure μ] {p : α → Prop} (hp : ∀ᵐ a ∂μ, p a)
    (n : ℕ) : ∀ᵐ v ∂(Spec.iid n μ), ∀ i, p (v i) := by
  rw [eventually_all]
  intro i
  exact (measurePreserving_eval (fun _ : Fin n => μ) i).quasiMeasurePreserving.ae hp

/-- Two independent samples are a sample of pairs. -/
theorem iid_zip (n : ℕ) (μ : Measure α) (ν : Measure β) [IsProbabilityMeasure μ]
    [IsProbabilityMeasure ν] :
    MeasurePreserving (fun (p : (Fin n → α) × (Fin n → β)) i => (p.1 i, p.2 i))
      ((Spec.iid n μ).prod (Spec.iid n ν)) (Spec.iid n (μ.prod ν)) :=
  (measurePreserving_arrowProdEquivProdArrow α β (Fin n) (fun _ => μ) fun _ => ν).symm
    (e := MeasurableEquiv.arrowProdEquivProdArrow α β (Fin n))

/-- A function with values of the given law, measure preserving version of `Samples.map`. -/
theorem Samples.mapTo {μ : Measure α} {ν : Measure β} [SFinite μ] {R : ℕ → G → α → G → Prop}
    {Q : ℕ → G → β → G → Prop} (h : Spec.Samples P μ R) {f : α → β}
    (hf : MeasurePreserving f μ ν) (hQ : ∀ k g a g', R k g a g' → Q k g (f a) g') :
    Spec.Samples P ν Q := by
  rw [← hf.map_eq]
  exact Samples.map h hf.measurable hQ

/-- Draw a number, then something whose law depends on the number. -/
theorem Samples.bindNat {μ : Measure ℕ} [IsProbabilityMeasure μ] {ν : ℕ → Measure β}
    [∀ n, IsProbabilityMeasure (ν n)] {R : ℕ → G → ℕ → G → Prop}
    {R' : ℕ → ℕ → G → β → G → Prop} {Q : ℕ → G → β → G → Prop}
    (h : Spec.Samples P μ R) (h' : ∀ n, Spec.Samples P (ν n) (R' n))
    (hQ : ∀ k g n g1 b g2, R k g n g1 → R' n k g1 b g2 → Q k g b g2) :
    Spec.Samples P (μ.bind ν) Q := by
  obtain ⟨T, hT, hR⟩ := h
  choose T' hT' hR' using h'
  let U : ℕ × G → β × G := fun p => T' p.1 p.2
  have hU : Measurable U := measurable_from_prod_countable_right fun n => (hT' n).measurable
  have hν : Measurable ν := measurable_from_nat
  have i1 : IsProbabilityMeasure (μ.bind ν) := by
    refine ⟨?_⟩
    rw [Measure.bind_apply MeasurableSet.univ hν.aemeasurable]
    simp
  refine ⟨fun g => U (T g), ?_, ?_⟩
  · have h1 : MeasurePreserving U (μ.prod P) ((μ.bind ν).prod P) := by
      refine ⟨hU, ?_⟩
      refine (Measure.prod_eq fun s t hs ht => ?_).symm
      rw [Measure.map_apply hU (hs.prod ht), Measure.prod_apply (hU (hs.prod ht)),
        Measure.bind_apply hs hν.aemeasurable]
      have e : ∀ n, P (Prod.mk n ⁻¹' (U ⁻¹' s ×ˢ t)) = ν n s * P t := by
        intro n
        have := (hT' n).measure_preimage (hs.prod ht).nullMeasurableSet
        rw [Measure.prod_prod] at this
        exact this
      simp only [e]
      rw [lintegral_mul_const _ (Measurable.of_discrete)]
    exact h1.comp hT
  · have h2 : ∀ᵐ g ∂P, ∀ n, ∀ᶠ k in atTop, R' n k g (T' n g).1 (T' n g).2 := by
      rw [ae_all_iff]; exact hR'
    filter_upwards [hR, ae_after hT h2] with g a b
    filter_upwards [a, b (T g).1] with k a b
    exact hQ _ _ _ _ _ _ a b

end Popsynth
