import Verif.Lemmas.ProcessSums

/-!
# The mean of the square of a sum over a Poisson process
-/

set_option autoImplicit false

open MeasureTheory
open scoped NNReal ENNReal

namespace Popsynth
variable {α : Type} [MeasurableSpace α]

theorem measurable_sq_map {f : α → ℝ≥0∞} (hf : Measurable f) :
    Measurable fun l : List α => (l.map f).sum ^ 2 := (measurable_sum_map hf).pow_const 2

theorem points_sq_succ (κ : Measure α) [IsFiniteMeasure κ] {f : α → ℝ≥0∞} (hf : Measurable f) (n : ℕ) :
    ∫⁻ l, (l.map f).sum ^ 2 ∂(points (n + 1) κ) =
      (∫⁻ x, f x ^ 2 ∂κ) * κ Set.univ ^ n + 2 * (∫⁻ x, f x ∂κ) * ∫⁻ l, (l.map f).sum ∂(points n κ) +
        κ Set.univ * ∫⁻ l, (l.map f).sum ^ 2 ∂(points n κ) := by
  have ms : Measurable fun l : List α => (l.map f).sum := measurable_sum_map hf
  have mc : Measurable fun q : α × List α => ((q.1 :: q.2).map f).sum ^ 2 :=
    (measurable_sq_map hf).comp measurable_cons
  rw [points_succ, lintegral_map (measurable_sq_map hf) measurable_cons,
    lintegral_prod _ mc.aemeasurable]
  simp only [List.map_cons, List.sum_cons]
  have e : ∀ x, ∫⁻ l, (f x + (l.map f).sum) ^ 2 ∂(points n κ) =
      f x ^ 2 * κ Set.univ ^ n + 2 * f x * (∫⁻ l, (l.map f).sum ∂(points n κ)) +
        ∫⁻ l, (l.map f).sum ^ 2 ∂(points n κ) := fun x => by
    have : ∀ l : List α, (f x + (l.map f).sum) ^ 2 = f x ^ 2 + 2 * f x * (l.map f).sum + (l.map f).sum ^ 2 :=
      fun l => by ring
    simp only [this]
    have m1 : Measurable fun l : List α => f x ^ 2 + 2 * f x * (l.map f).sum :=
      measurable_const.add (ms.const_mul _)
    rw [lintegral_add_left m1, lintegral_add_left measurable_const,
      lintegral_const, points_univ, lintegral_const_mul _ ms]
  simp only [e]
  have m2 : Measurable fun x => f x ^ 2 := hf.pow_const 2
  rw [lintegral_add_right _ measurable_const, lintegral_add_left (m2.mul_const _),
    lintegral_mul_const _ m2, lintegral_const, lintegral_mul_const _ (hf.const_mul 2),
    lintegral_const_mul _ hf]
  ring

theorem points_sq_one (κ : Measure α) [IsFiniteMeasure κ] {f : α → ℝ≥0∞} (hf : Measurable f) :
    ∫⁻ l, (l.map f).sum ^ 2 ∂(points 1 κ) = ∫⁻ x, f x ^ 2 ∂κ := by
  rw [points_sq_succ κ hf 0, points_zero, lintegral_dirac' _ (measurable_sum_map hf),
    lintegral_dirac' _ (measurable_sq_map hf)]
  simp

theorem points_sq (κ : Measure α) [IsFiniteMeasure κ] {f : α → ℝ≥0∞} (hf : Measurable f) :
    ∀ n : ℕ, ∫⁻ l, (l.map f).sum ^ 2 ∂(points (n + 2) κ) =
      (n + 2) * κ Set.univ ^ (n + 1) * (∫⁻ x, f x ^ 2 ∂κ) +
        (n + 2) * (n + 1) * κ Set.univ ^ n * (∫⁻ x, f x ∂κ) ^ 2
  | 0 => by
    rw [points_sq_succ κ hf 1, points_sum κ hf 0, points_sq_one κ hf]
    simp only [Nat.cast_zero, pow_zero, pow_one, zero_add]
    ring
  | n + 1 => by
    rw [points_sq_succ κ hf (n + 2), points_sum κ hf (n + 1), points_sq κ hf n]
    push_cast
    ring

theorem poisson_weights (r : ℝ≥0) : ∑' n : ℕ, ProbabilityTheory.poissonMeasure r {n} = 1 := by
  have := lintegral_countable' (μ := ProbabilityTheory.poissonMeasure r) (fun _ => (1 : ℝ≥0∞))
  simp only [lintegral_const, measure_univ, one_mul] at this
  exact this.symm

theorem poisson_weight_real (κ : Measure α) [IsFiniteMeasure κ] (n : ℕ) :
    ENNReal.ofReal (Real.exp (-κ.real Set.univ) / n.factorial) * κ Set.univ ^ n =
      ProbabilityTheory.poissonMeasure (κ Set.univ).toNNReal {n} := by
  rw [ProbabilityTheory.poissonMeasure_singleton]
  conv_lhs => rw [← ENNReal.ofReal_toReal (measure_ne_top κ Set.univ)]
  rw [← ENNReal.ofReal_pow ENNReal.toReal_nonneg, ← ENNReal.ofReal_mul (by positivity)]
  congr 1
  simp only [Measure.real, ENNReal.coe_toNNReal_eq_toReal,
    ENNReal.toReal_ofReal ENNReal.toReal_nonneg]
  ring

/-- The mean of the square of a sum over the points of a Poisson process. -/
theorem process_sq (κ : Measure α) [IsFiniteMeasure κ] {f : α → ℝ≥0∞} (hf : Measurable f) :
    ∫⁻ l, (l.map f).sum ^ 2 ∂(Spec.poissonProcess κ) = ∫⁻ x, f x ^ 2 ∂κ + (∫⁻ x, f x ∂κ) ^ 2 := by
  have hn : ∀ n : ℕ, ∫⁻ l, (l.map f).sum ^ 2 ∂(ENNReal.ofReal (Real.exp (-κ.real Set.univ) /
      n.factorial) • (Spec.iid n κ).map List.ofFn) =
      ENNReal.ofReal (Real.exp (-κ.real Set.univ) / n.factorial) * ∫⁻ l, (l.map f).sum ^ 2 ∂(points n κ) :=
    fun n => by rw [lintegral_smul_measure, smul_eq_mul]; rfl
  set W : ℕ → ℝ≥0∞ := fun n => ProbabilityTheory.poissonMeasure (κ Set.univ).toNNReal {n} with hW
  have fac : ∀ n : ℕ, ENNReal.ofReal (Real.exp (-κ.real Set.univ) / (n + 1).factorial) * (n + 1) =
      ENNReal.ofReal (Real.exp (-κ.real Set.univ) / n.factorial) := fun n => by
    rw [show ((n : ℝ≥0∞) + 1) = ENNReal.ofReal (n + 1) by
        rw [ENNReal.ofReal_add (by positivity) zero_le_one]; simp,
      ← ENNReal.ofReal_mul (by positivity)]
    congr 1
    rw [Nat.factorial_succ]
    push_cast
    have : (n.factorial : ℝ) ≠ 0 := by positivity
    have : (n : ℝ) + 1 ≠ 0 := by positivity
    field_simp
  have e0 : ENNReal.ofReal (Real.exp (-κ.real Set.univ) / (0 : ℕ).factorial) *
      ∫⁻ l, (l.map f).sum ^ 2 ∂(points 0 κ) = 0 := by
    rw [points_zero, lintegral_dirac' _ (measurable_sq_map hf)]
    simp
  have e1 : ENNReal.ofReal (Real.exp (-κ.real Set.univ) / (0 + 1 : ℕ).factorial) *
      ∫⁻ l, (l.map f).sum ^ 2 ∂(points (0 + 1) κ) = W 0 * ∫⁻ x, f x ^ 2 ∂κ := by
    rw [points_sq_one κ hf, hW]
    simp only
    rw [← poisson_weight_real]
    simp
  have e2 : ∀ n : ℕ, ENNReal.ofReal (Real.exp (-κ.real Set.univ) / (n + 1 + 1).factorial) *
      ∫⁻ l, (l.map f).sum ^ 2 ∂(points (n + 1 + 1) κ) =
      W (n + 1) * (∫⁻ x, f x ^ 2 ∂κ) + W n * (∫⁻ x, f x ∂κ) ^ 2 := fun n => by
    have := points_sq κ hf n
    rw [this]
    have f1 := fac (n + 1)
    have f0 := fac n
    simp only [hW]
    rw [← poisson_weight_real, ← poisson_weight_real, ← f0, ← f1]
    push_cast
    ring
  unfold Spec.poissonProcess
  rw [lintegral_sum_measure, tsum_congr hn, tsum_eq_zero_add' ENNReal.summable, e0, zero_add,
    tsum_eq_zero_add' ENNReal.summable, e1, tsum_congr e2, ENNReal.tsum_add, ← add_assoc,
    ENNReal.tsum_mul_right, ENNReal.tsum_mul_right, poisson_weights, one_mul, ← add_mul,
    ← tsum_eq_zero_add' (f := W) ENNReal.summable, poisson_weights, one_mul]

end Popsynth
