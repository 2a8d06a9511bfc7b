import Verif.Lemmas.ProcessSquares

/-!
# Two Poisson processes one after the other
-/

set_option autoImplicit false
set_option linter.unusedSectionVars false

open MeasureTheory
open scoped NNReal ENNReal

namespace Popsynth

variable {α : Type} [MeasurableSpace α]

theorem measurable_ofFn_append (n : ℕ) :
    Measurable fun q : (Fin n → α) × List α => List.ofFn q.1 ++ q.2 := by
  induction n with
  | zero =>
    have : (fun q : (Fin 0 → α) × List α => List.ofFn q.1 ++ q.2) = Prod.snd := by funext q; simp
    rw [this]; exact measurable_snd
  | succ n ih =>
    have e : (fun q : (Fin (n + 1) → α) × List α => List.ofFn q.1 ++ q.2) =
        fun q => q.1 0 :: (List.ofFn (fun i : Fin n => q.1 i.succ) ++ q.2) := by
      funext q; rw [List.ofFn_succ]; rfl
    rw [e]
    have h1 : Measurable fun q : (Fin (n + 1) → α) × List α => ((fun i : Fin n => q.1 i.succ), q.2) :=
      (measurable_pi_iff.2 fun i => (measurable_pi_apply i.succ).comp measurable_fst).prodMk measurable_snd
    exact measurable_cons.comp ((((measurable_pi_apply 0).comp measurable_fst)).prodMk (ih.comp h1))

theorem measurable_append : Measurable fun q : List α × List α => q.1 ++ q.2 := by
  rcases isEmpty_or_nonempty α with he | ⟨⟨d⟩⟩
  · have : (fun q : List α × List α => q.1 ++ q.2) = fun q => q.2 := by
      funext q
      have : q.1 = [] := by
        cases h : q.1 with
        | nil => rfl
        | cons a l => exact he.elim a
      rw [this]; rfl
    rw [this]; exact measurable_snd
  · intro t ht
    have e : (fun q : List α × List α => q.1 ++ q.2) ⁻¹' t = ⋃ n : ℕ, {q : List α × List α | q.1.length = n} ∩
        {q : List α × List α | List.ofFn (fun i : Fin n => q.1.getD i d) ++ q.2 ∈ t} := by
      ext q
      simp only [Set.mem_preimage, Set.mem_iUnion, Set.mem_inter_iff, Set.mem_setOf_eq]
      have hq : ∀ l : List α, List.ofFn (fun i : Fin l.length => l.getD i d) = l := by
        intro l
        refine List.ext_getElem (by simp) fun i h1 h2 => ?_
        simp [h2]
      constructor
      · intro h; exact ⟨q.1.length, rfl, by rw [hq]; exact h⟩
      · rintro ⟨n, rfl, h⟩; rw [hq] at h; exact h
    rw [e]
    refine MeasurableSet.iUnion fun n => ((measurable_length.comp measurable_fst) (measurableSet_singleton n)).inter ?_
    have h1 : Measurable fun q : List α × List α => ((fun i : Fin n => q.1.getD i d), q.2) :=
      (measurable_pi_iff.2 fun i : Fin n => (measurable_getD (i : ℕ) d).comp measurable_fst).prodMk measurable_snd
    exact (measurable_ofFn_append n).comp h1 ht

theorem points_append (κ : Measure α) [IsFiniteMeasure κ] (n m : ℕ) {s : Set (List α)} (hs : MeasurableSet s) :
    ((points n κ).prod (points m κ)) ((fun q => q.1 ++ q.2) ⁻¹' s) = points (n + m) κ s := by
  induction n generalizing s with
  | zero =>
    rw [points_zero, Measure.dirac_prod, Measure.map_apply measurable_prodMk_left (measurable_append hs), Nat.zero_add]
    rfl
  | succ n ih =>
    rw [Nat.succ_add, points_succ_apply _ _ hs, Measure.prod_apply (measurable_append hs), points_succ,
      lintegral_map (measurable_measure_prodMk_left (measurable_append hs)) measurable_cons]
    have m1 : Measurable fun q : α × List α =>
        points m κ (Prod.mk (q.1 :: q.2) ⁻¹' ((fun r : List α × List α => r.1 ++ r.2) ⁻¹' s)) :=
      (measurable_measure_prodMk_left (measurable_append hs)).comp measurable_cons
    rw [lintegral_prod _ m1.aemeasurable]
    refine lintegral_congr fun x => ?_
    have hx : MeasurableSet {l | x :: l ∈ s} := (measurable_cons.comp measurable_prodMk_left) hs
    rw [← ih hx, Measure.prod_apply (measurable_append hx)]
    rfl

theorem points_smul (r : ℝ≥0) (κ : Measure α) [IsFiniteMeasure κ] (n : ℕ) :
    points n (r • κ) = ((r : ℝ≥0∞) ^ n) • points n κ := by
  induction n with
  | zero => simp [points_zero]
  | succ n ih =>
    refine Measure.ext fun s hs => ?_
    rw [points_succ_apply _ _ hs, ih, Measure.smul_apply, points_succ_apply _ _ hs]
    simp only [Measure.smul_apply, smul_eq_mul]
    rw [lintegral_const_mul _ (measurable_points_section n κ hs)]
    rw [show r • κ = (r : ℝ≥0∞) • κ from rfl, lintegral_smul_measure, pow_succ, smul_eq_mul]
    ring

/-- Two processes of proportional intensities, one after the other, are a process with the sum of
the intensities. -/
theorem process_append (κ : Measure α) [IsFiniteMeasure κ] (a b : ℝ≥0) :
    ((Spec.poissonProcess (a • κ)).prod (Spec.poissonProcess (b • κ))).map (fun q => q.1 ++ q.2) =
      Spec.poissonProcess ((a + b) • κ) := by
  refine Measure.ext fun s hs => ?_
  have hm : MeasurableSet ((fun q : List α × List α => q.1 ++ q.2) ⁻¹' s) := measurable_append hs
  rw [Measure.map_apply measurable_append hs, process_eq _ _ hs]
  have ea : Spec.poissonProcess (a • κ) = Measure.sum fun n : ℕ =>
      ENNReal.ofReal (Real.exp (-(a • κ).real Set.univ) / n.factorial) • points n (a • κ) := rfl
  have eb : Spec.poissonProcess (b • κ) = Measure.sum fun n : ℕ =>
      ENNReal.ofReal (Real.exp (-(b • κ).real Set.univ) / n.factorial) • points n (b • κ) := rfl
  rw [ea, eb, Measure.prod_sum, Measure.sum_apply _ hm]
  set M := κ.real Set.univ with hM
  have hr : ∀ r : ℝ≥0, (r • κ).real Set.univ = r * M := fun r => by
    rw [measureReal_nnreal_smul_apply]
  have e1 : ∀ n m : ℕ, ((ENNReal.ofReal (Real.exp (-(a • κ).real Set.univ) / n.factorial) • points n (a • κ)).prod
      (ENNReal.ofReal (Real.exp (-(b • κ).real Set.univ) / m.factorial) • points m (b • κ)))
        ((fun q : List α × List α => q.1 ++ q.2) ⁻¹' s) =
      ENNReal.ofReal (Real.exp (-((a + b : ℝ≥0) * M)) / (n + m).factorial) * ((n + m).choose n * (a : ℝ≥0∞) ^ n * (b : ℝ≥0∞) ^ m) *
        points (n + m) κ s := by
    intro n m
    rw [points_smul, points_smul, Measure.prod_smul_left, Measure.prod_smul_right, Measure.prod_smul_left,
      Measure.prod_smul_right]
    simp only [Measure.smul_apply, smul_eq_mul]
    rw [points_append κ n m hs, hr, hr]
    have hc : ENNReal.ofReal (Real.exp (-((a + b : ℝ≥0) * M)) / (n + m).factorial) * ((n + m).choose n : ℝ≥0∞) =
        ENNReal.ofReal (Real.exp (-(a * M)) / n.factorial) * ENNReal.ofReal (Real.exp (-(b * M)) / m.factorial) := by
      rw [← ENNReal.ofReal_natCast, ← ENNReal.ofReal_mul (by positivity), ← ENNReal.ofReal_mul (by positivity)]
      congr 1
      rw [NNReal.coe_add, add_mul, neg_add, Real.exp_add, Nat.cast_add_choose]
      have f1 : ((n + m).factorial : ℝ) ≠ 0 := by positivity
      have f2 : (n.factorial : ℝ) ≠ 0 := by positivity
      have f3 : (m.factorial : ℝ) ≠ 0 := by positivity
      field_simp
    calc _ = (ENNReal.ofReal (Real.exp (-(a * M)) / n.factorial) * ENNReal.ofReal (Real.exp (-(b * M)) / m.factorial)) *
          ((a : ℝ≥0∞) ^ n * (b : ℝ≥0∞) ^ m) * points (n + m) κ s := by ring
      _ = _ := by rw [← hc]; ring
  rw [show (∑' i : ℕ × ℕ, _) = _ from tsum_congr fun q => e1 q.1 q.2,
    ← (Finset.HasAntidiagonal.sigmaAntidiagonalEquivProd (A := ℕ)).tsum_eq, ENNReal.tsum_sigma']
  refine tsum_congr fun n => ?_
  rw [tsum_fintype, points_smul, hr]
  have e2 : ∀ q ∈ Finset.antidiagonal n, ENNReal.ofReal (Real.exp (-((a + b : ℝ≥0) * M)) / (q.1 + q.2).factorial) *
      ((q.1 + q.2).choose q.1 * (a : ℝ≥0∞) ^ q.1 * (b : ℝ≥0∞) ^ q.2) * points (q.1 + q.2) κ s =
      ENNReal.ofReal (Real.exp (-((a + b : ℝ≥0) * M)) / n.factorial) * points n κ s *
        (n.choose q.1 • ((a : ℝ≥0∞) ^ q.1 * (b : ℝ≥0∞) ^ q.2)) := by
    intro q hq
    rw [Finset.mem_antidiagonal.1 hq, nsmul_eq_mul]
    ring
  refine (Finset.sum_coe_sort (Finset.antidiagonal n) (fun q : ℕ × ℕ =>
    ENNReal.ofReal (Real.exp (-((a + b : ℝ≥0) * M)) / (q.1 + q.2).factorial) *
      ((q.1 + q.2).choose q.1 * (a : ℝ≥0∞) ^ q.1 * (b : ℝ≥0∞) ^ q.2) * points (q.1 + q.2) κ s)).trans ?_
  rw [Finset.sum_congr rfl e2, ← Finset.mul_sum, ← (Commute.all (a : ℝ≥0∞) b).add_pow', Measure.smul_apply, smul_eq_mul,
    ENNReal.coe_add]
  ring

/-- The sum of two independent Poisson numbers. -/
theorem poisson_add (a b : ℝ≥0) :
    ((ProbabilityTheory.poissonMeasure a).prod (ProbabilityTheory.poissonMeasure b)).map (fun q => q.1 + q.2) =
      ProbabilityTheory.poissonMeasure (a + b) := by
  have hl : ∀ r : ℝ≥0, (Spec.poissonProcess (r • Measure.dirac ())).map List.length =
      ProbabilityTheory.poissonMeasure r := fun r => by
    rw [process_length]
    simp
  have h := congrArg (Measure.map List.length) (process_append (Measure.dirac ()) a b)
  rw [hl, Measure.map_map measurable_length measurable_append] at h
  rw [← h, ← hl a, ← hl b, Measure.map_prod_map _ _ measurable_length measurable_length,
    Measure.map_map (by fun_prop) (measurable_length.prodMap measurable_length)]
  congr 1
  funext q
  simp

end Popsynth
