import Verif.Lemmas.Thinning
import Verif.Spec.SurveyLaw
import Mathlib.Data.Nat.Choose.Sum
import Mathlib.Algebra.Order.Antidiag.Prod

/-!
# Poisson processes and their thinning
-/

set_option autoImplicit false
set_option linter.unusedSectionVars false

open MeasureTheory Filter
open scoped NNReal ENNReal

namespace Popsynth

variable {α β : Type} [MeasurableSpace α] [MeasurableSpace β]

/-! ### Measurable functions of lists -/

theorem measurable_ofFn (n : ℕ) : Measurable fun v : Fin n → α => List.ofFn v := by
  intro t ht
  exact MeasurableSpace.measurableSet_iInf.1 ht n

theorem measurable_of_list {f : List α → β} (h : ∀ n, Measurable fun v : Fin n → α => f (List.ofFn v)) :
    Measurable f := by
  intro t ht
  exact MeasurableSpace.measurableSet_iInf.2 fun n => h n ht

theorem measurable_length : Measurable (List.length : List α → ℕ) :=
  measurable_of_list fun n => by simp

theorem measurable_getD (i : ℕ) (d : α) : Measurable fun l : List α => l.getD i d := by
  refine measurable_of_list fun n => ?_
  by_cases h : i < n
  · have : (fun v : Fin n → α => (List.ofFn v).getD i d) = fun v => v ⟨i, h⟩ := by
      funext v
      simp [List.getD_eq_getElem?_getD, List.getElem?_ofFn, h]
    rw [this]
    exact measurable_pi_apply _
  · have : (fun v : Fin n → α => (List.ofFn v).getD i d) = fun _ => d := by
      funext v
      simp [List.getD_eq_getElem?_getD, List.getElem?_ofFn, h]
    rw [this]
    exact measurable_const

theorem measurable_fin_cons (n : ℕ) :
    Measurable fun q : α × (Fin n → α) => (Fin.cons q.1 q.2 : Fin (n + 1) → α) := by
  refine measurable_pi_iff.2 fun i => ?_
  refine Fin.cases ?_ (fun j => ?_) i
  · exact measurable_fst
  · exact (measurable_pi_apply j).comp measurable_snd

theorem measurable_cons : Measurable fun q : α × List α => q.1 :: q.2 := by
  rcases isEmpty_or_nonempty α with he | ⟨⟨d⟩⟩
  · exact measurable_of_empty _
  · intro t ht
    have e : (fun q : α × List α => q.1 :: q.2) ⁻¹' t = ⋃ n : ℕ, {q : α × List α | q.2.length = n} ∩
        {q : α × List α | List.ofFn (Fin.cons q.1 (fun i : Fin n => q.2.getD i d) : Fin (n + 1) → α) ∈ t} := by
      ext ⟨x, l⟩
      simp only [Set.mem_preimage, Set.mem_iUnion, Set.mem_inter_iff, Set.mem_ofPred_eq, exists_eq_left']
      have : List.ofFn (Fin.cons x (fun i : Fin l.length => l.getD i d) : Fin (l.length + 1) → α) = x :: l := by
        rw [List.ofFn_succ]
        simp only [Fin.cons_zero, Fin.cons_succ, List.cons.injEq, true_and]
        refine List.ext_getElem (by simp) fun i h1 h2 => ?_
        simp [h2]
      rw [this]
    rw [e]
    refine MeasurableSet.iUnion fun n => ?_
    refine (measurableSet_eq_fun (measurable_length.comp measurable_snd) measurable_const).inter ?_
    refine ((measurable_ofFn (n + 1)).comp ((measurable_fin_cons n).comp
      (measurable_fst.prodMk (measurable_pi_iff.2 fun i => ?_)))) ht
    exact (measurable_getD i d).comp measurable_snd

/-! ### Lists of a given length -/

/-- `n` points. -/
noncomputable def points (n : ℕ) (κ : Measure α) : Measure (List α) := (Spec.iid n κ).map List.ofFn

instance (n : ℕ) (κ : Measure α) [IsFiniteMeasure κ] : IsFiniteMeasure (points n κ) := by
  unfold points Spec.iid
  infer_instance

theorem points_zero (κ : Measure α) : points 0 κ = Measure.dirac [] := by
  unfold points Spec.iid
  rw [Measure.pi_of_empty _ (fun i => i.elim0), Measure.map_dirac' (measurable_ofFn 0)]
  rfl

theorem points_succ (n : ℕ) (κ : Measure α) [IsFiniteMeasure κ] :
    points (n + 1) κ = (κ.prod (points n κ)).map fun q => q.1 :: q.2 := by
  unfold points Spec.iid
  have h := (measurePreserving_piFinSuccAbove (fun _ : Fin (n + 1) => κ) 0).symm
    (e := MeasurableEquiv.piFinSuccAbove (fun _ => α) 0)
  rw [← h.map_eq, Measure.map_map (measurable_ofFn _) (MeasurableEquiv.measurable _)]
  have h2 : κ.prod ((Measure.pi fun _ : Fin n => κ).map List.ofFn) =
      (κ.prod (Measure.pi fun _ : Fin n => κ)).map (Prod.map id List.ofFn) := by
    rw [← Measure.map_prod_map _ _ measurable_id (measurable_ofFn n), Measure.map_id]
  rw [h2, Measure.map_map measurable_cons (measurable_id.prodMap (measurable_ofFn n))]
  congr 1
  funext q
  simp only [Function.comp_apply, Prod.map_fst, id_eq, Prod.map_snd]
  rw [List.ofFn_succ]
  rfl

theorem points_succ_apply (n : ℕ) (κ : Measure α) [IsFiniteMeasure κ] {s : Set (List α)}
    (hs : MeasurableSet s) :
    points (n + 1) κ s = ∫⁻ x, points n κ {l | x :: l ∈ s} ∂κ := by
  rw [points_succ, Measure.map_apply measurable_cons hs, Measure.prod_apply (measurable_cons hs)]
  rfl

theorem measurable_points_section (n : ℕ) (κ : Measure α) [IsFiniteMeasure κ] {s : Set (List α)}
    (hs : MeasurableSet s) : Measurable fun x => points n κ {l | x :: l ∈ s} :=
  measurable_measure_prodMk_left (measurable_cons hs)

theorem points_univ (n : ℕ) (κ : Measure α) [IsFiniteMeasure κ] :
    points n κ Set.univ = κ Set.univ ^ n := by
  unfold points Spec.iid
  rw [Measure.map_apply (measurable_ofFn n) MeasurableSet.univ, Set.preimage_univ, Measure.pi_univ]
  simp

theorem points_length (n m : ℕ) (κ : Measure α) [IsFiniteMeasure κ] :
    points n κ {l | l.length = m} = if n = m then κ Set.univ ^ n else 0 := by
  unfold points Spec.iid
  rw [show {l : List α | l.length = m} = List.length ⁻¹' {m} from rfl,
    Measure.map_apply (measurable_ofFn n) (measurable_length (measurableSet_singleton m))]
  have : (fun v : Fin n → α => List.ofFn v) ⁻¹' (List.length ⁻¹' {m}) = if n = m then Set.univ else ∅ := by
    ext v
    split <;> simp [*]
  rw [this]
  split
  · rw [Measure.pi_univ]; simp
  · simp

/-! ### Splitting a list -/

/-- The points with the flag and those without. -/
def split (l : List (α × Bool)) : List α × List α :=
  ((l.filter fun x => x.2).map fun x => x.1, (l.filter fun x => !x.2).map fun x => x.1)

theorem split_true (x : α) (l : List (α × Bool)) :
    split ((x, true) :: l) = (x :: (split l).1, (split l).2) := rfl

theorem split_false (x : α) (l : List (α × Bool)) :
    split ((x, false) :: l) = ((split l).1, x :: (split l).2) := rfl

theorem measurable_split : Measurable (split : List (α × Bool) → List α × List α) := by
  refine measurable_of_list fun n => ?_
  induction n with
  | zero => simp only [List.ofFn_zero]; exact measurable_const
  | succ n ih =>
    simp only [List.ofFn_succ]
    have h0 : Measurable fun v : Fin (n + 1) → α × Bool => v 0 := measurable_pi_apply 0
    have h1 : Measurable fun (v : Fin (n + 1) → α × Bool) (i : Fin n) => v i.succ :=
      measurable_pi_iff.2 fun i => measurable_pi_apply _
    have h2 := ih.comp h1
    have e : (fun v : Fin (n + 1) → α × Bool => split (v 0 :: List.ofFn fun i => v i.succ)) =
        fun v => if (v 0).2 = true then
          ((v 0).1 :: (split (List.ofFn fun i => v i.succ)).1, (split (List.ofFn fun i => v i.succ)).2)
          else ((split (List.ofFn fun i => v i.succ)).1, (v 0).1 :: (split (List.ofFn fun i => v i.succ)).2) := by
      funext v
      rcases hv : v 0 with ⟨x, b⟩
      cases b
      · rw [split_false]; simp
      · rw [split_true]; simp
    rw [e]
    refine Measurable.ite ?_ ?_ ?_
    · exact (measurable_snd.comp h0) (measurableSet_singleton true)
    · exact (measurable_cons.comp ((measurable_fst.comp h0).prodMk (measurable_fst.comp h2))).prodMk
        (measurable_snd.comp h2)
    · exact (measurable_fst.comp h2).prodMk
        (measurable_cons.comp ((measurable_fst.comp h0).prodMk (measurable_snd.comp h2)))

/-- Flagged points: intensity `κ1` with the flag, `κ2` without. -/
noncomputable def mixed (κ1 κ2 : Measure α) : Measure (α × Bool) :=
  κ1.map (fun x => (x, true)) + κ2.map fun x => (x, false)

instance (κ1 κ2 : Measure α) [IsFiniteMeasure κ1] [IsFiniteMeasure κ2] :
    IsFiniteMeasure (mixed κ1 κ2) := by
  unfold mixed; infer_instance

theorem mixed_univ (κ1 κ2 : Measure α) :
    mixed κ1 κ2 Set.univ = κ1 Set.univ + κ2 Set.univ := by
  unfold mixed
  rw [Measure.add_apply, Measure.map_apply measurable_prodMk_right MeasurableSet.univ,
    Measure.map_apply measurable_prodMk_right MeasurableSet.univ]
  rfl

theorem points_split (κ1 κ2 : Measure α) [IsFiniteMeasure κ1] [IsFiniteMeasure κ2] (n : ℕ) :
    ∀ {s t : Set (List α)}, MeasurableSet s → MeasurableSet t →
    points n (mixed κ1 κ2) {l | split l ∈ s ×ˢ t} =
      ∑ q ∈ Finset.antidiagonal n, (n.choose q.1 : ℝ≥0∞) * (points q.1 κ1 s * points q.2 κ2 t) := by
  induction n with
  | zero =>
    intro s t hs ht
    rw [Finset.Nat.antidiagonal_zero, Finset.sum_singleton, Nat.choose_self, Nat.cast_one, one_mul,
      points_zero, points_zero, points_zero, show {l | split l ∈ s ×ˢ t} = split ⁻¹' s ×ˢ t from rfl]
    rw [Measure.dirac_apply' _ (measurable_split (hs.prod ht)), Measure.dirac_apply' _ hs,
      Measure.dirac_apply' _ ht]
    by_cases h1 : ([] : List α) ∈ s <;> by_cases h2 : ([] : List α) ∈ t <;>
      simp [Set.indicator, split, h1, h2]
  | succ n ih =>
    intro s t hs ht
    have hm := measurable_points_section n (mixed κ1 κ2) (measurable_split (hs.prod ht))
    rw [show {l | split l ∈ s ×ˢ t} = split ⁻¹' s ×ˢ t from rfl,
      points_succ_apply n _ (measurable_split (hs.prod ht))]
    have em : ∀ f : α × Bool → ℝ≥0∞, ∫⁻ x, f x ∂(mixed κ1 κ2) =
        ∫⁻ x, f x ∂(κ1.map fun x => (x, true)) + ∫⁻ x, f x ∂(κ2.map fun x => (x, false)) := fun f =>
      lintegral_add_measure _ _ _
    rw [em, lintegral_map hm measurable_prodMk_right,
      lintegral_map hm measurable_prodMk_right]
    have e1 : ∀ x, points n (mixed κ1 κ2) {l | (x, true) :: l ∈ split ⁻¹' s ×ˢ t} =
        ∑ q ∈ Finset.antidiagonal n, (n.choose q.1 : ℝ≥0∞) *
          (points q.1 κ1 {l | x :: l ∈ s} * points q.2 κ2 t) := by
      intro x
      exact ih (s := {l | x :: l ∈ s}) ((measurable_cons.comp measurable_prodMk_left) hs) ht
    have e2 : ∀ x, points n (mixed κ1 κ2) {l | (x, false) :: l ∈ split ⁻¹' s ×ˢ t} =
        ∑ q ∈ Finset.antidiagonal n, (n.choose q.1 : ℝ≥0∞) *
          (points q.1 κ1 s * points q.2 κ2 {l | x :: l ∈ t}) := by
      intro x
      exact ih (t := {l | x :: l ∈ t}) hs ((measurable_cons.comp measurable_prodMk_left) ht)
    simp only [e1, e2]
    have m1 := fun k => measurable_points_section k κ1 hs
    have m2 := fun k => measurable_points_section k κ2 ht
    rw [lintegral_finsetSum _ (fun q _ => ((m1 q.1).mul_const _).const_mul _),
      lintegral_finsetSum _ (fun q _ => ((m2 q.2).const_mul _).const_mul _)]
    have e3 : ∀ q : ℕ × ℕ, ∫⁻ x, (n.choose q.1 : ℝ≥0∞) *
        (points q.1 κ1 {l | x :: l ∈ s} * points q.2 κ2 t) ∂κ1 =
        (n.choose q.1 : ℝ≥0∞) * (points (q.1 + 1) κ1 s * points q.2 κ2 t) := by
      intro q
      rw [lintegral_const_mul _ ((m1 q.1).mul_const _), lintegral_mul_const _ (m1 q.1),
        points_succ_apply _ _ hs]
    have e4 : ∀ q : ℕ × ℕ, ∫⁻ x, (n.choose q.1 : ℝ≥0∞) *
        (points q.1 κ1 s * points q.2 κ2 {l | x :: l ∈ t}) ∂κ2 =
        (n.choose q.1 : ℝ≥0∞) * (points q.1 κ1 s * points (q.2 + 1) κ2 t) := by
      intro q
      rw [lintegral_const_mul _ ((m2 q.2).const_mul _), lintegral_const_mul _ (m2 q.2),
        points_succ_apply _ _ ht]
    simp only [e3, e4]
    rw [Finset.sum_antidiagonal_choose_succ_mul (fun i j => points i κ1 s * points j κ2 t) n, add_comm]
    congr 1
    refine Finset.sum_congr rfl fun q hq => ?_
    rw [← Nat.choose_symm_of_eq_add (Finset.mem_antidiagonal.1 hq).symm]

/-! ### The process -/

theorem process_eq (κ : Measure α) (s : Set (List α)) (hs : MeasurableSet s) :
    Spec.poissonProcess κ s = ∑' n : ℕ, ENNReal.ofReal (Real.exp (-κ.real Set.univ) / n.factorial) *
      points n κ s := by
  unfold Spec.poissonProcess
  rw [Measure.sum_apply _ hs]
  rfl

/-- The number of points. -/
theorem process_length (κ : Measure α) [IsFiniteMeasure κ] :
    (Spec.poissonProcess κ).map List.length =
      ProbabilityTheory.poissonMeasure (κ Set.univ).toNNReal := by
  refine Measure.ext_of_singleton fun m => ?_
  rw [Measure.map_apply measurable_length (measurableSet_singleton m),
    process_eq _ _ (measurable_length (measurableSet_singleton m)), tsum_eq_single m,
    ProbabilityTheory.poissonMeasure_singleton]
  · have : List.length ⁻¹' {m} = {l : List α | l.length = m} := rfl
    rw [this, points_length, if_pos rfl]
    conv_lhs => rw [← ENNReal.ofReal_toReal (measure_ne_top κ Set.univ)]
    rw [← ENNReal.ofReal_pow ENNReal.toReal_nonneg, ← ENNReal.ofReal_mul (by positivity)]
    congr 1
    simp only [Measure.real, ENNReal.coe_toNNReal_eq_toReal]
    ring
  · intro n hn
    have : List.length ⁻¹' {m} = {l : List α | l.length = m} := rfl
    rw [this, points_length, if_neg hn, mul_zero]

instance process_prob (κ : Measure α) [IsFiniteMeasure κ] :
    IsProbabilityMeasure (Spec.poissonProcess κ) := by
  refine ⟨?_⟩
  have h := congrArg (fun m : Measure ℕ => m Set.univ) (process_length κ)
  simp only [Measure.map_apply measurable_length MeasurableSet.univ, Set.preimage_univ, measure_univ] at h
  exact h

/-- Points with the flag and points without are independent Poisson processes. -/
theorem process_split (κ1 κ2 : Measure α) [IsFiniteMeasure κ1] [IsFiniteMeasure κ2] :
    (Spec.poissonProcess (mixed κ1 κ2)).map split =
      (Spec.poissonProcess κ1).prod (Spec.poissonProcess κ2) := by
  refine (Measure.prod_eq fun s t hs ht => ?_).symm
  rw [Measure.map_apply measurable_split (hs.prod ht), process_eq _ _ (measurable_split (hs.prod ht)),
    process_eq _ _ hs, process_eq _ _ ht]
  have e : ∀ n : ℕ, ENNReal.ofReal (Real.exp (-(mixed κ1 κ2).real Set.univ) / n.factorial) *
      points n (mixed κ1 κ2) (split ⁻¹' s ×ˢ t) =
      ∑ q ∈ Finset.antidiagonal n,
        (ENNReal.ofReal (Real.exp (-κ1.real Set.univ) / q.1.factorial) * points q.1 κ1 s) *
        (ENNReal.ofReal (Real.exp (-κ2.real Set.univ) / q.2.factorial) * points q.2 κ2 t) := by
    intro n
    have := points_split κ1 κ2 n hs ht
    rw [show {l | split l ∈ s ×ˢ t} = split ⁻¹' s ×ˢ t from rfl] at this
    rw [this, Finset.mul_sum]
    refine Finset.sum_congr rfl fun q hq => ?_
    obtain ⟨a, b⟩ := q
    have hq : a + b = n := Finset.mem_antidiagonal.1 hq
    subst hq
    dsimp only
    have hc : ENNReal.ofReal (Real.exp (-(mixed κ1 κ2).real Set.univ) / (a + b).factorial) *
        ((a + b).choose a : ℝ≥0∞) = ENNReal.ofReal (Real.exp (-κ1.real Set.univ) / a.factorial) *
        ENNReal.ofReal (Real.exp (-κ2.real Set.univ) / b.factorial) := by
      rw [← ENNReal.ofReal_natCast, ← ENNReal.ofReal_mul (by positivity), ← ENNReal.ofReal_mul (by positivity)]
      congr 1
      have hu : (mixed κ1 κ2).real Set.univ = κ1.real Set.univ + κ2.real Set.univ := by
        simp only [Measure.real, mixed_univ]
        rw [ENNReal.toReal_add (measure_ne_top _ _) (measure_ne_top _ _)]
      rw [hu, neg_add, Real.exp_add, Nat.cast_add_choose]
      have f1 : ((a + b).factorial : ℝ) ≠ 0 := by positivity
      have f2 : (a.factorial : ℝ) ≠ 0 := by positivity
      have f3 : (b.factorial : ℝ) ≠ 0 := by positivity
      field_simp
    rw [← mul_assoc, hc]
    ring
  simp only [e]
  rw [← ENNReal.tsum_mul_right]
  simp only [← ENNReal.tsum_mul_left]
  rw [← ENNReal.tsum_prod (f := fun a b =>
        (ENNReal.ofReal (Real.exp (-κ1.real Set.univ) / a.factorial) * points a κ1 s) *
        (ENNReal.ofReal (Real.exp (-κ2.real Set.univ) / b.factorial) * points b κ2 t)),
    ← (Finset.HasAntidiagonal.sigmaAntidiagonalEquivProd (A := ℕ)).tsum_eq, ENNReal.tsum_sigma']
  refine tsum_congr fun n => ?_
  rw [tsum_fintype]
  exact (Finset.sum_coe_sort (Finset.antidiagonal n) (fun q : ℕ × ℕ =>
        (ENNReal.ofReal (Real.exp (-κ1.real Set.univ) / q.1.factorial) * points q.1 κ1 s) *
        (ENNReal.ofReal (Real.exp (-κ2.real Set.univ) / q.2.factorial) * points q.2 κ2 t))).symm

/-- A Poisson number of independent values is a Poisson process. -/
theorem sample_process (r : ℝ≥0) (μ : Measure α) [IsProbabilityMeasure μ] :
    Spec.poissonSample r μ = Spec.poissonProcess (r • μ) := by
  refine Measure.ext fun s hs => ?_
  rw [process_eq _ _ hs]
  unfold Spec.poissonSample
  have hν : Measurable fun n => (Spec.iid n μ).map (List.ofFn : (Fin n → α) → List α) := measurable_from_nat
  rw [Measure.bind_apply hs hν.aemeasurable, lintegral_countable']
  refine tsum_congr fun n => ?_
  have h1 : points n (r • μ) s = (r : ℝ≥0∞) ^ n * points n μ s := by
    have : Spec.iid n (r • μ) = (r ^ n : ℝ≥0) • Spec.iid n μ := by
      unfold Spec.iid
      refine Measure.pi_eq fun t ht => ?_
      simp only [Measure.smul_apply, Measure.pi_pi]
      simp only [ENNReal.smul_def, smul_eq_mul, Finset.prod_mul_distrib, Finset.prod_const, Finset.card_univ,
        Fintype.card_fin, ENNReal.coe_pow]
    unfold points
    rw [this, Measure.map_smul]
    rw [Measure.smul_apply, ENNReal.smul_def, ENNReal.coe_pow, smul_eq_mul]
  have h2 : (r • μ).real Set.univ = r := by
    rw [Measure.real, Measure.smul_apply, measure_univ, ENNReal.smul_def, smul_eq_mul, mul_one,
      ENNReal.coe_toReal]
  rw [h1, h2, ProbabilityTheory.poissonMeasure_singleton]
  have h3 : ENNReal.ofReal (Real.exp (-(r : ℝ)) * (r : ℝ) ^ n / n.factorial) =
      ENNReal.ofReal (Real.exp (-(r : ℝ)) / n.factorial) * (r : ℝ≥0∞) ^ n := by
    rw [show (r : ℝ≥0∞) ^ n = ENNReal.ofReal ((r : ℝ) ^ n) by
      rw [ENNReal.ofReal_pow r.coe_nonneg, ENNReal.ofReal_coe_nnreal], ← ENNReal.ofReal_mul (by positivity)]
    congr 1
    ring
  rw [h3, mul_comm, mul_assoc]
  rfl

end Popsynth
