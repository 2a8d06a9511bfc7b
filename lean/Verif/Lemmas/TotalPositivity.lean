import Mathlib.Probability.Distributions.Gaussian.Real
import Mathlib.MeasureTheory.Measure.Prod

/-!
# Kernels that favour pairs of large arguments
-/

set_option autoImplicit false

open MeasureTheory
open scoped NNReal ENNReal

namespace Popsynth

section cross
variable {α β : Type} [MeasurableSpace α] [MeasurableSpace β]

theorem cross_product {W : α → β → ℝ≥0∞} (hW : Measurable (Function.uncurry W))
    (α1 α0 : Measure α) (β1 β0 : Measure β) [SFinite α1] [SFinite α0] [SFinite β1] [SFinite β0] :
    (∫⁻ r', ∫⁻ l', W r' l' ∂β1 ∂α1) * ∫⁻ r, ∫⁻ l, W r l ∂β0 ∂α0 =
      ∫⁻ r', ∫⁻ r, ∫⁻ l', ∫⁻ l, W r' l' * W r l ∂β0 ∂β1 ∂α0 ∂α1 := by
  have m1 : ∀ r, Measurable (W r) := fun r => hW.comp measurable_prodMk_left
  have e : ∀ r' r, ∫⁻ l', ∫⁻ l, W r' l' * W r l ∂β0 ∂β1 = (∫⁻ l', W r' l' ∂β1) * ∫⁻ l, W r l ∂β0 :=
    fun r' r => lintegral_lintegral_mul (m1 r').aemeasurable (m1 r).aemeasurable
  simp only [e]
  exact (lintegral_lintegral_mul hW.lintegral_prod_right'.aemeasurable
    hW.lintegral_prod_right'.aemeasurable).symm

/-- If a kernel favours pairs of large and pairs of small arguments over mixed pairs, its
integrals do. -/
theorem cross_le {W : α → β → ℝ≥0∞} (hW : Measurable (Function.uncurry W))
    (α1 α0 : Measure α) (β1 β0 : Measure β) [SFinite α1] [SFinite α0] [SFinite β1] [SFinite β0]
    (h : ∀ᵐ r' ∂α1, ∀ᵐ r ∂α0, ∀ᵐ l' ∂β1, ∀ᵐ l ∂β0, W r l' * W r' l ≤ W r' l' * W r l) :
    (∫⁻ r, ∫⁻ l', W r l' ∂β1 ∂α0) * (∫⁻ r', ∫⁻ l, W r' l ∂β0 ∂α1) ≤
      (∫⁻ r', ∫⁻ l', W r' l' ∂β1 ∂α1) * ∫⁻ r, ∫⁻ l, W r l ∂β0 ∂α0 := by
  have m1 : ∀ r, Measurable (W r) := fun r => hW.comp measurable_prodMk_left
  rw [cross_product hW α1 α0 β1 β0, mul_comm]
  have e : ∀ r' r, ∫⁻ l', ∫⁻ l, W r l' * W r' l ∂β0 ∂β1 = (∫⁻ l, W r' l ∂β0) * ∫⁻ l', W r l' ∂β1 :=
    fun r' r => by rw [lintegral_lintegral_mul (m1 r).aemeasurable (m1 r').aemeasurable, mul_comm]
  refine (lintegral_lintegral_mul (f := fun r' => ∫⁻ l, W r' l ∂β0) (g := fun r => ∫⁻ l', W r l' ∂β1)
    hW.lintegral_prod_right'.aemeasurable hW.lintegral_prod_right'.aemeasurable).symm.le.trans ?_
  refine lintegral_mono_ae (h.mono fun r' h => lintegral_mono_ae (h.mono fun r h => ?_))
  refine (e r' r).symm.le.trans ?_
  exact lintegral_mono_ae (h.mono fun l' h => lintegral_mono_ae (h.mono fun l h => h))

end cross

theorem rearrange {a b c d : ℝ≥0∞} (hab : a ≤ b) (hcd : c ≤ d) : a * d + b * c ≤ a * c + b * d := by
  obtain ⟨x, rfl⟩ := exists_add_of_le hab
  obtain ⟨y, rfl⟩ := exists_add_of_le hcd
  calc a * (c + y) + (a + x) * c ≤ a * (c + y) + (a + x) * c + x * y := le_self_add
    _ = _ := by ring

/-- Gaussian errors preserve logarithmic concavity. -/
theorem gauss_smooth {p : ℝ → ℝ≥0∞} (hp : Measurable p)
    (h : ∀ u s t, 0 ≤ s → 0 ≤ t → p u * p (u + s + t) ≤ p (u + s) * p (u + t)) (v : ℝ≥0)
    {u s t : ℝ} (hs : 0 ≤ s) (ht : 0 ≤ t) :
    (∫⁻ z, p (u + z) ∂(ProbabilityTheory.gaussianReal 0 v)) *
        ∫⁻ z, p (u + s + t + z) ∂(ProbabilityTheory.gaussianReal 0 v) ≤
      (∫⁻ z, p (u + s + z) ∂(ProbabilityTheory.gaussianReal 0 v)) *
        ∫⁻ z, p (u + t + z) ∂(ProbabilityTheory.gaussianReal 0 v) := by
  have hm : ∀ x, Measurable fun z => p (x + z) := fun x => hp.comp (measurable_const_add x)
  by_cases hv : v = 0
  · subst hv
    simp only [ProbabilityTheory.gaussianReal_zero_var, lintegral_dirac' _ (hm _), add_zero]
    exact h u s t hs ht
  set φ := ProbabilityTheory.gaussianPDF 0 v with hφ
  have mφ : Measurable φ := ProbabilityTheory.measurable_gaussianPDF 0 v
  have shift : ∀ x a, ∫⁻ z, p (x + z) ∂(ProbabilityTheory.gaussianReal 0 v) =
      ∫⁻ w, φ (w - a) * p (w - (a - x)) := fun x a => by
    rw [ProbabilityTheory.gaussianReal_of_var_ne_zero 0 hv,
      lintegral_withDensity_eq_lintegral_mul _ mφ (hm x)]
    rw [← lintegral_sub_right_eq_self _ a]
    refine lintegral_congr fun w => ?_
    simp only [Pi.mul_apply]
    congr 2
    ring
  have mf : ∀ a b, Measurable fun w => φ (w - a) * p (w - b) := fun a b =>
    (mφ.comp (measurable_sub_const a)).mul (hp.comp (measurable_sub_const b))
  have two : ∀ f g : ℝ → ℝ≥0∞, Measurable f → Measurable g →
      2 * ((∫⁻ w, f w) * ∫⁻ w, g w) = ∫⁻ w : ℝ, ∫⁻ w' : ℝ, f w * g w' + f w' * g w := fun f g hf hg => by
    have e1 : ∀ w, ∫⁻ w' : ℝ, f w * g w' + f w' * g w = f w * (∫⁻ w, g w) + (∫⁻ w, f w) * g w :=
      fun w => by
        rw [lintegral_add_left (hg.const_mul _), lintegral_const_mul _ hg, lintegral_mul_const _ hf]
    simp only [e1]
    rw [lintegral_add_left (hf.mul_const _), lintegral_const_mul _ hg, lintegral_mul_const _ hf, two_mul]
  have pdf : ∀ w w' a a', w ≤ w' → a ≤ a' → φ (w' - a) * φ (w - a') ≤ φ (w - a) * φ (w' - a') := by
    intro w w' a a' h1 h2
    rw [hφ, ProbabilityTheory.gaussianPDF, ProbabilityTheory.gaussianPDF, ProbabilityTheory.gaussianPDF,
      ProbabilityTheory.gaussianPDF, ← ENNReal.ofReal_mul (ProbabilityTheory.gaussianPDFReal_nonneg _ _ _),
      ← ENNReal.ofReal_mul (ProbabilityTheory.gaussianPDFReal_nonneg _ _ _)]
    refine ENNReal.ofReal_le_ofReal ?_
    unfold ProbabilityTheory.gaussianPDFReal
    have hv' : (0 : ℝ) < v := by positivity
    rw [mul_mul_mul_comm, mul_mul_mul_comm (a := _) (b := Real.exp (-(w - a - 0) ^ 2 / (2 * v))),
      ← Real.exp_add, ← Real.exp_add]
    refine mul_le_mul_of_nonneg_left (Real.exp_le_exp.2 ?_) (by positivity)
    rw [← add_div, ← add_div]
    refine div_le_div_of_nonneg_right ?_ (by positivity)
    nlinarith [mul_nonneg (sub_nonneg.2 h1) (sub_nonneg.2 h2)]
  have prob : ∀ w w', w ≤ w' → p (w' - 0) * p (w - t) ≤ p (w - 0) * p (w' - t) := fun w w' hw => by
    have := h (w - t) t (w' - w) ht (sub_nonneg.2 hw)
    rw [mul_comm]
    convert this using 3 <;> ring
  have key : 2 * ((∫⁻ w, φ (w - (u + t)) * p (w - t)) * ∫⁻ w, φ (w - (u + s + t)) * p (w - 0)) ≤
      2 * ((∫⁻ w, φ (w - (u + t)) * p (w - 0)) * ∫⁻ w, φ (w - (u + s + t)) * p (w - t)) := by
    rw [two _ _ (mf _ _) (mf _ _), two _ _ (mf _ _) (mf _ _)]
    refine lintegral_mono fun w => lintegral_mono fun w' => ?_
    have ha : u + t ≤ u + s + t := by linarith
    rcases le_total w w' with hw | hw
    · have := rearrange (pdf w w' _ _ hw ha) (prob w w' hw)
      calc _ = φ (w' - (u + t)) * φ (w - (u + s + t)) * (p (w - 0) * p (w' - t)) +
            φ (w - (u + t)) * φ (w' - (u + s + t)) * (p (w' - 0) * p (w - t)) := by ring
        _ ≤ _ := this
        _ = _ := by ring
    · have := rearrange (pdf w' w _ _ hw ha) (prob w' w hw)
      calc _ = φ (w - (u + t)) * φ (w' - (u + s + t)) * (p (w' - 0) * p (w - t)) +
            φ (w' - (u + t)) * φ (w - (u + s + t)) * (p (w - 0) * p (w' - t)) := by ring
        _ ≤ _ := this
        _ = _ := by ring
  rw [shift u (u + t), shift (u + s + t) (u + s + t), shift (u + s) (u + s + t), shift (u + t) (u + t)]
  have e1 : u + t - u = t := by ring
  have e2 : u + s + t - (u + s) = t := by ring
  rw [e1, e2, sub_self, sub_self]
  have := (ENNReal.mul_le_mul_iff_right two_ne_zero ENNReal.ofNat_ne_top).1 key
  exact this.trans (mul_comm _ _).le

end Popsynth
