import Verif.Lemmas.PoissonProcess

/-!
# Sums over the points of a Poisson process, and an inequality of Chebyshev
-/

set_option autoImplicit false
set_option linter.unusedSectionVars false

open MeasureTheory
open scoped NNReal ENNReal

namespace Popsynth
variable {α β : Type} [MeasurableSpace α] [MeasurableSpace β]

theorem measurable_map_list {f : α → β} (hf : Measurable f) : Measurable (List.map f) := by
  refine measurable_of_list fun n => ?_
  simp only [List.map_ofFn]
  exact (measurable_ofFn n).comp (measurable_pi_iff.2 fun i => hf.comp (measurable_pi_apply i))

theorem points_map (κ : Measure α) [IsFiniteMeasure κ] {f : α → β} (hf : Measurable f) (n : ℕ) :
    (points n κ).map (List.map f) = points n (κ.map f) := by
  unfold points Spec.iid
  rw [Measure.map_map (measurable_map_list hf) (measurable_ofFn n)]
  have h : (Measure.pi fun _ : Fin n => κ).map (fun v i => f (v i)) =
      Measure.pi fun _ : Fin n => κ.map f :=
    Measure.pi_map_pi (μ := fun _ : Fin n => κ) (f := fun _ => f) fun _ => hf.aemeasurable
  have hm : Measurable fun (v : Fin n → α) i => f (v i) :=
    measurable_pi_iff.2 fun i => hf.comp (measurable_pi_apply i)
  rw [← h]
  refine Eq.trans ?_ (Measure.map_map (measurable_ofFn n) hm).symm
  congr 1
  funext v
  simp [Function.comp_def]

/-- The images of the points. -/
theorem process_map (κ : Measure α) [IsFiniteMeasure κ] {f : α → β} (hf : Measurable f) :
    (Spec.poissonProcess κ).map (List.map f) = Spec.poissonProcess (κ.map f) := by
  refine Measure.ext fun s hs => ?_
  have hm := measurable_map_list hf
  rw [Measure.map_apply hm hs, process_eq _ _ (hm hs), process_eq _ _ hs]
  refine tsum_congr fun n => ?_
  rw [← points_map κ hf n, Measure.map_apply hm hs]
  congr 4
  simp only [Measure.real, Measure.map_apply hf MeasurableSet.univ, Set.preimage_univ]

/-- The numbers of points in a set and outside of it are independent. -/
theorem process_classes (κ : Measure α) [IsFiniteMeasure κ] {B : Set α} [DecidablePred (· ∈ B)]
    (hB : MeasurableSet B) :
    MeasurePreserving (fun l : List α => (l.countP (· ∈ B), l.countP (· ∉ B)))
      (Spec.poissonProcess κ) ((ProbabilityTheory.poissonMeasure (κ B).toNNReal).prod
        (ProbabilityTheory.poissonMeasure (κ Bᶜ).toNNReal)) := by
  have hf : Measurable fun x : α => (x, decide (x ∈ B)) :=
    measurable_id.prodMk (measurable_to_bool (by
      have : (fun x => decide (x ∈ B)) ⁻¹' {true} = B := by ext x; simp
      rw [this]; exact hB))
  have e1 : κ.map (fun x => (x, decide (x ∈ B))) = mixed (κ.restrict B) (κ.restrict Bᶜ) := by
    unfold mixed
    conv_lhs => rw [← Measure.restrict_add_restrict_compl (μ := κ) hB]
    rw [Measure.map_add _ _ hf]
    congr 1
    · refine Measure.map_congr ?_
      filter_upwards [ae_restrict_mem hB] with x hx
      simp [hx]
    · refine Measure.map_congr ?_
      filter_upwards [ae_restrict_mem hB.compl] with x hx
      simp [show x ∉ B from hx]
  have hm := measurable_map_list hf
  have h1 : MeasurePreserving (List.map fun x : α => (x, decide (x ∈ B))) (Spec.poissonProcess κ)
      (Spec.poissonProcess (mixed (κ.restrict B) (κ.restrict Bᶜ))) :=
    ⟨hm, by rw [process_map κ hf, e1]⟩
  have h2 : MeasurePreserving split (Spec.poissonProcess (mixed (κ.restrict B) (κ.restrict Bᶜ)))
      _ := ⟨measurable_split, process_split (κ.restrict B) (κ.restrict Bᶜ)⟩
  have h3 : MeasurePreserving (List.length : List α → ℕ) (Spec.poissonProcess (κ.restrict B))
      (ProbabilityTheory.poissonMeasure (κ B).toNNReal) :=
    ⟨measurable_length, by rw [process_length, Measure.restrict_apply_univ]⟩
  have h4 : MeasurePreserving (List.length : List α → ℕ) (Spec.poissonProcess (κ.restrict Bᶜ))
      (ProbabilityTheory.poissonMeasure (κ Bᶜ).toNNReal) :=
    ⟨measurable_length, by rw [process_length, Measure.restrict_apply_univ]⟩
  have h5 := (h3.prod h4).comp (h2.comp h1)
  convert h5 using 1
  funext l
  simp only [Function.comp_apply, Prod.map, split, List.length_map, List.countP_eq_length_filter,
    List.filter_map, Function.comp_def]
  simp

/-! ### Sums over the points -/

theorem measurable_sum_map {f : α → ℝ≥0∞} (hf : Measurable f) :
    Measurable fun l : List α => (l.map f).sum := by
  refine measurable_of_list fun n => ?_
  simp only [List.map_ofFn, List.sum_ofFn]
  exact Finset.measurable_sum _ fun i _ => hf.comp (measurable_pi_apply i)

theorem measurable_sum_cons {f : α → ℝ≥0∞} (hf : Measurable f) :
    Measurable fun q : α × List α => ((q.1 :: q.2).map f).sum :=
  (measurable_sum_map hf).comp measurable_cons

theorem points_sum (κ : Measure α) [IsFiniteMeasure κ] {f : α → ℝ≥0∞} (hf : Measurable f) :
    ∀ n, ∫⁻ l, (l.map f).sum ∂(points (n + 1) κ) = (n + 1) * κ Set.univ ^ n * ∫⁻ x, f x ∂κ
  | 0 => by
    rw [points_succ, lintegral_map (measurable_sum_map hf) measurable_cons, points_zero,
      lintegral_prod _ (measurable_sum_cons hf).aemeasurable]
    simp [lintegral_dirac' _ (measurable_sum_map hf)]
  | n + 1 => by
    rw [points_succ, lintegral_map (measurable_sum_map hf) measurable_cons,
      lintegral_prod _ (measurable_sum_cons hf).aemeasurable]
    simp only [List.map_cons, List.sum_cons]
    have e : ∀ x, ∫⁻ l, f x + (l.map f).sum ∂(points (n + 1) κ) =
        f x * κ Set.univ ^ (n + 1) + (n + 1) * κ Set.univ ^ n * ∫⁻ x, f x ∂κ := fun x => by
      rw [lintegral_add_left measurable_const, lintegral_const, points_univ, points_sum κ hf n]
    simp only [e]
    rw [lintegral_add_right _ measurable_const, lintegral_mul_const _ hf, lintegral_const]
    push_cast
    ring

/-- The mean of a sum over the points of a Poisson process. -/
theorem process_sum (κ : Measure α) [IsFiniteMeasure κ] {f : α → ℝ≥0∞} (hf : Measurable f) :
    ∫⁻ l, (l.map f).sum ∂(Spec.poissonProcess κ) = ∫⁻ x, f x ∂κ := by
  unfold Spec.poissonProcess
  rw [lintegral_sum_measure, tsum_eq_zero_add' ENNReal.summable]
  have e0 : ∫⁻ l, (l.map f).sum ∂(ENNReal.ofReal (Real.exp (-κ.real Set.univ) / (0 : ℕ).factorial) •
      (Spec.iid 0 κ).map List.ofFn) = 0 := by
    rw [lintegral_smul_measure]
    have := points_zero κ
    unfold points at this
    rw [this, lintegral_dirac' _ (measurable_sum_map hf)]
    simp
  rw [e0, zero_add]
  have e1 : ∀ n : ℕ, ∫⁻ l, (l.map f).sum ∂(ENNReal.ofReal (Real.exp (-κ.real Set.univ) /
      (n + 1).factorial) • (Spec.iid (n + 1) κ).map List.ofFn) =
      ProbabilityTheory.poissonMeasure (κ Set.univ).toNNReal {n} * ∫⁻ x, f x ∂κ := fun n => by
    rw [lintegral_smul_measure, smul_eq_mul]
    have := points_sum κ hf n
    unfold points at this
    rw [this, ProbabilityTheory.poissonMeasure_singleton, ← mul_assoc]
    congr 1
    rw [show ((n : ℝ≥0∞) + 1) = ENNReal.ofReal (n + 1) by
        rw [ENNReal.ofReal_add (by positivity) zero_le_one]; simp,
      ← ENNReal.ofReal_toReal (measure_ne_top κ Set.univ), ← ENNReal.ofReal_pow ENNReal.toReal_nonneg,
      ← ENNReal.ofReal_mul (by positivity), ← ENNReal.ofReal_mul (by positivity)]
    congr 1
    simp only [Measure.real, ENNReal.coe_toNNReal_eq_toReal,
      ENNReal.toReal_ofReal ENNReal.toReal_nonneg, Nat.factorial_succ]
    push_cast
    have : (n.factorial : ℝ) ≠ 0 := by positivity
    have : (n : ℝ) + 1 ≠ 0 := by positivity
    field_simp
  rw [tsum_congr e1, ENNReal.tsum_mul_right]
  have e2 : ∑' n : ℕ, ProbabilityTheory.poissonMeasure (κ Set.univ).toNNReal {n} = 1 := by
    have := lintegral_countable' (μ := ProbabilityTheory.poissonMeasure (κ Set.univ).toNNReal)
      (fun _ => (1 : ℝ≥0∞))
    simp only [lintegral_const, measure_univ, one_mul] at this
    exact this.symm
  rw [e2, one_mul]

/-! ### An inequality of Chebyshev -/

theorem chebyshev_ge {μ : Measure α} [IsProbabilityMeasure μ] {q : α → ℝ≥0∞} {B : Set α}
    (hB : MeasurableSet B) {c : ℝ≥0∞} (h1 : ∀ᵐ x ∂μ, x ∈ B → c ≤ q x)
    (h2 : ∀ᵐ x ∂μ, x ∉ B → q x ≤ c) : (∫⁻ x, q x ∂μ) * μ B ≤ ∫⁻ x in B, q x ∂μ := by
  have a1 : c * μ B ≤ ∫⁻ x in B, q x ∂μ := by
    rw [← setLIntegral_const]
    exact setLIntegral_mono_ae' hB h1
  have a2 : ∫⁻ x in Bᶜ, q x ∂μ ≤ c * μ Bᶜ := by
    rw [← setLIntegral_const]
    exact setLIntegral_mono_ae' hB.compl h2
  have a3 : μ B + μ Bᶜ = 1 := by rw [measure_add_measure_compl hB, measure_univ]
  calc (∫⁻ x, q x ∂μ) * μ B
      = (∫⁻ x in B, q x ∂μ) * μ B + (∫⁻ x in Bᶜ, q x ∂μ) * μ B := by
        rw [← add_mul, lintegral_add_compl _ hB]
    _ ≤ (∫⁻ x in B, q x ∂μ) * μ B + c * μ Bᶜ * μ B := by gcongr
    _ = (∫⁻ x in B, q x ∂μ) * μ B + c * μ B * μ Bᶜ := by ring
    _ ≤ (∫⁻ x in B, q x ∂μ) * μ B + (∫⁻ x in B, q x ∂μ) * μ Bᶜ := by gcongr
    _ = ∫⁻ x in B, q x ∂μ := by rw [← mul_add, a3, mul_one]

theorem chebyshev_le {μ : Measure α} [IsProbabilityMeasure μ] {q : α → ℝ≥0∞} {B : Set α}
    (hB : MeasurableSet B) {c : ℝ≥0∞} (h1 : ∀ᵐ x ∂μ, x ∈ B → q x ≤ c)
    (h2 : ∀ᵐ x ∂μ, x ∉ B → c ≤ q x) : ∫⁻ x in B, q x ∂μ ≤ (∫⁻ x, q x ∂μ) * μ B := by
  have a1 : ∫⁻ x in B, q x ∂μ ≤ c * μ B := by
    rw [← setLIntegral_const]
    exact setLIntegral_mono_ae' hB h1
  have a2 : c * μ Bᶜ ≤ ∫⁻ x in Bᶜ, q x ∂μ := by
    rw [← setLIntegral_const]
    exact setLIntegral_mono_ae' hB.compl h2
  have a3 : μ B + μ Bᶜ = 1 := by rw [measure_add_measure_compl hB, measure_univ]
  calc ∫⁻ x in B, q x ∂μ = (∫⁻ x in B, q x ∂μ) * μ B + (∫⁻ x in B, q x ∂μ) * μ Bᶜ := by
        rw [← mul_add, a3, mul_one]
    _ ≤ (∫⁻ x in B, q x ∂μ) * μ B + c * μ B * μ Bᶜ := by gcongr
    _ = (∫⁻ x in B, q x ∂μ) * μ B + c * μ Bᶜ * μ B := by ring
    _ ≤ (∫⁻ x in B, q x ∂μ) * μ B + (∫⁻ x in Bᶜ, q x ∂μ) * μ B := by gcongr
    _ = (∫⁻ x, q x ∂μ) * μ B := by rw [← add_mul, lintegral_add_compl _ hB]

end Popsynth
