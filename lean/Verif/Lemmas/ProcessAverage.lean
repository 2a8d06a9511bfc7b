import Verif.Lemmas.ProcessSquares
import Verif.Lemmas.TotalPositivity

/-!
# Averages over the points of a Poisson process
-/

set_option autoImplicit false

open MeasureTheory
open scoped NNReal ENNReal

namespace Popsynth
variable {α : Type} [MeasurableSpace α]

/-- The average of `f` over a list, zero for the empty list. -/
noncomputable def Spec.average (f : α → ℝ≥0∞) (l : List α) : ℝ≥0∞ := (l.map f).sum / l.length

theorem average_measurable {f : α → ℝ≥0∞} (hf : Measurable f) : Measurable (Spec.average f) := by
  have h1 : Measurable fun l : List α => ((l.length : ℕ) : ℝ≥0∞) :=
    (measurable_from_nat (f := fun n : ℕ => (n : ℝ≥0∞))).comp measurable_length
  exact (measurable_sum_map hf).div h1

theorem points_average (κ : Measure α) [IsFiniteMeasure κ] {f : α → ℝ≥0∞} (hf : Measurable f) (n : ℕ) :
    ∫⁻ l, Spec.average f l ∂(points (n + 1) κ) = κ Set.univ ^ n * ∫⁻ x, f x ∂κ := by
  have hm : Measurable (List.ofFn : (Fin (n + 1) → α) → List α) := measurable_ofFn _
  have e1 : ∫⁻ l, Spec.average f l ∂(points (n + 1) κ) =
      (∫⁻ l, (l.map f).sum ∂(points (n + 1) κ)) / ((n + 1 : ℕ) : ℝ≥0∞) := by
    unfold points
    rw [lintegral_map (average_measurable hf) hm, lintegral_map (measurable_sum_map hf) hm,
      ENNReal.div_eq_inv_mul, ← lintegral_const_mul' _ _ (by simp)]
    refine lintegral_congr fun x => ?_
    unfold Spec.average
    rw [List.length_ofFn, ENNReal.div_eq_inv_mul]
  rw [e1, points_sum κ hf n, ENNReal.div_eq_inv_mul, ← mul_assoc, ← mul_assoc]
  push_cast
  rw [ENNReal.inv_mul_cancel (by simp) (by finiteness), one_mul]

/-- The average over the points of a Poisson process: its mean is that of the intensity, times the
probability that there are points. -/
theorem process_average (κ : Measure α) [IsFiniteMeasure κ] :
    ∃ Z : ℝ≥0∞, Spec.poissonProcess κ {l | l ≠ []} = κ Set.univ * Z ∧
      ∀ f : α → ℝ≥0∞, Measurable f →
        ∫⁻ l, Spec.average f l ∂(Spec.poissonProcess κ) = (∫⁻ x, f x ∂κ) * Z := by
  set c : ℕ → ℝ≥0∞ := fun n => ENNReal.ofReal (Real.exp (-κ.real Set.univ) / n.factorial) with hc
  refine ⟨∑' n : ℕ, c (n + 1) * κ Set.univ ^ n, ?_, fun f hf => ?_⟩
  · have e1 : Spec.poissonProcess κ {l | l ≠ []} =
        ProbabilityTheory.poissonMeasure (κ Set.univ).toNNReal {n | n ≠ 0} := by
      rw [← process_length κ, Measure.map_apply measurable_length (MeasurableSet.of_discrete)]
      congr 1
      ext l
      simp
    set W : ℕ → ℝ≥0∞ := fun n => ProbabilityTheory.poissonMeasure (κ Set.univ).toNNReal {n} with hW
    have e2 : W 0 + ∑' n, W (n + 1) = 1 := by
      rw [← tsum_eq_zero_add' (f := W) ENNReal.summable, hW, poisson_weights]
    have e3 : W 0 + ProbabilityTheory.poissonMeasure (κ Set.univ).toNNReal {n | n ≠ 0} = 1 :=
      prob_add_prob_compl (MeasurableSet.of_discrete)
    have e4 : ProbabilityTheory.poissonMeasure (κ Set.univ).toNNReal {n | n ≠ 0} = ∑' n, W (n + 1) :=
      (ENNReal.add_right_inj (measure_ne_top _ _)).1 (e3.trans e2.symm)
    rw [e1, e4, ← ENNReal.tsum_mul_left]
    refine tsum_congr fun n => ?_
    rw [hW]
    simp only
    rw [← poisson_weight_real, hc, pow_succ]
    ring
  · have hn : ∀ n : ℕ, ∫⁻ l, Spec.average f l ∂(ENNReal.ofReal (Real.exp (-κ.real Set.univ) /
        n.factorial) • (Spec.iid n κ).map List.ofFn) = c n * ∫⁻ l, Spec.average f l ∂(points n κ) :=
      fun n => by rw [lintegral_smul_measure, smul_eq_mul]; rfl
    have e0 : c 0 * ∫⁻ l, Spec.average f l ∂(points 0 κ) = 0 := by
      rw [points_zero, lintegral_dirac' _ (average_measurable hf)]
      simp [Spec.average]
    unfold Spec.poissonProcess
    rw [lintegral_sum_measure, tsum_congr hn, tsum_eq_zero_add' ENNReal.summable, e0, zero_add,
      ← ENNReal.tsum_mul_left]
    refine tsum_congr fun n => ?_
    rw [points_average κ hf n]
    ring

/-- Functions that agree which of two points is larger are positively correlated. -/
theorem agree_le (μ : Measure α) [IsProbabilityMeasure μ] {s w : α → ℝ≥0∞} (hs : Measurable s)
    (hw : Measurable w)
    (h : ∀ᵐ x ∂μ, ∀ᵐ y ∂μ, s x * w y + s y * w x ≤ s x * w x + s y * w y) :
    (∫⁻ x, s x ∂μ) * ∫⁻ x, w x ∂μ ≤ ∫⁻ x, s x * w x ∂μ := by
  have e1 : ∫⁻ x, ∫⁻ y, s x * w y + s y * w x ∂μ ∂μ =
      2 * ((∫⁻ x, s x ∂μ) * ∫⁻ x, w x ∂μ) := by
    have i : ∀ x, ∫⁻ y, s x * w y + s y * w x ∂μ = s x * (∫⁻ y, w y ∂μ) + (∫⁻ y, s y ∂μ) * w x := fun x => by
      rw [lintegral_add_left (hw.const_mul _), lintegral_const_mul _ hw, lintegral_mul_const _ hs]
    simp only [i]
    rw [lintegral_add_left (hs.mul_const _), lintegral_mul_const _ hs, lintegral_const_mul _ hw, two_mul]
  have e2 : ∫⁻ x, ∫⁻ y, s x * w x + s y * w y ∂μ ∂μ = 2 * ∫⁻ x, s x * w x ∂μ := by
    have i : ∀ x, ∫⁻ y, s x * w x + s y * w y ∂μ = s x * w x + ∫⁻ y, s y * w y ∂μ := fun x => by
      rw [lintegral_add_left measurable_const, lintegral_const, measure_univ, mul_one]
    simp only [i]
    rw [lintegral_add_right _ measurable_const, lintegral_const, measure_univ, mul_one, two_mul]
  have e3 : 2 * ((∫⁻ x, s x ∂μ) * ∫⁻ x, w x ∂μ) ≤ 2 * ∫⁻ x, s x * w x ∂μ := by
    rw [← e1, ← e2]
    exact lintegral_mono_ae (h.mono fun x hx => lintegral_mono_ae hx)
  exact (ENNReal.mul_le_mul_iff_right (by simp) (by simp)).1 e3

/-- Functions that disagree are negatively correlated. -/
theorem disagree_le (μ : Measure α) [IsProbabilityMeasure μ] {s w : α → ℝ≥0∞} (hs : Measurable s)
    (hw : Measurable w)
    (h : ∀ᵐ x ∂μ, ∀ᵐ y ∂μ, s x * w x + s y * w y ≤ s x * w y + s y * w x) :
    ∫⁻ x, s x * w x ∂μ ≤ (∫⁻ x, s x ∂μ) * ∫⁻ x, w x ∂μ := by
  have e1 : ∫⁻ x, ∫⁻ y, s x * w y + s y * w x ∂μ ∂μ =
      2 * ((∫⁻ x, s x ∂μ) * ∫⁻ x, w x ∂μ) := by
    have i : ∀ x, ∫⁻ y, s x * w y + s y * w x ∂μ = s x * (∫⁻ y, w y ∂μ) + (∫⁻ y, s y ∂μ) * w x := fun x => by
      rw [lintegral_add_left (hw.const_mul _), lintegral_const_mul _ hw, lintegral_mul_const _ hs]
    simp only [i]
    rw [lintegral_add_left (hs.mul_const _), lintegral_mul_const _ hs, lintegral_const_mul _ hw, two_mul]
  have e2 : ∫⁻ x, ∫⁻ y, s x * w x + s y * w y ∂μ ∂μ = 2 * ∫⁻ x, s x * w x ∂μ := by
    have i : ∀ x, ∫⁻ y, s x * w x + s y * w y ∂μ = s x * w x + ∫⁻ y, s y * w y ∂μ := fun x => by
      rw [lintegral_add_left measurable_const, lintegral_const, measure_univ, mul_one]
    simp only [i]
    rw [lintegral_add_right _ measurable_const, lintegral_const, measure_univ, mul_one, two_mul]
  have e3 : 2 * ∫⁻ x, s x * w x ∂μ ≤ 2 * ((∫⁻ x, s x ∂μ) * ∫⁻ x, w x ∂μ) := by
    rw [← e1, ← e2]
    exact lintegral_mono_ae (h.mono fun x hx => lintegral_mono_ae hx)
  exact (ENNReal.mul_le_mul_iff_right (by simp) (by simp)).1 e3

end Popsynth
