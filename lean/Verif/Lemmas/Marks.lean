import Verif.Lemmas.PoissonProcess

/-!
# Poisson processes with marks

A Poisson process whose points get independent marks afterwards is a Poisson process of
marked points.
-/

set_option autoImplicit false
set_option linter.unusedSectionVars false

open MeasureTheory Filter
open scoped NNReal ENNReal

namespace Popsynth

variable {G α β γ : Type} [MeasurableSpace G] [MeasurableSpace α] [MeasurableSpace β]
  [MeasurableSpace γ] {P : Measure G} [IsProbabilityMeasure P]

theorem measurable_of_list_prod {f : List α × G → β}
    (h : ∀ n, Measurable fun q : (Fin n → α) × G => f (List.ofFn q.1, q.2)) : Measurable f := by
  rcases isEmpty_or_nonempty α with he | ⟨⟨d⟩⟩
  · have e : f = fun q => (fun q : (Fin 0 → α) × G => f (List.ofFn q.1, q.2)) (Fin.elim0, q.2) := by
      funext ⟨l, g⟩
      have : l = [] := by
        cases l with
        | nil => rfl
        | cons x l => exact he.elim x
      subst this
      rfl
    rw [e]
    exact (h 0).comp (measurable_const.prodMk measurable_snd)
  · intro t ht
    have e : f ⁻¹' t = ⋃ n : ℕ, {q : List α × G | q.1.length = n} ∩
        {q : List α × G | f (List.ofFn (fun i : Fin n => q.1.getD i d), q.2) ∈ t} := by
      ext ⟨l, g⟩
      simp only [Set.mem_preimage, Set.mem_iUnion, Set.mem_inter_iff, Set.mem_ofPred_eq, exists_eq_left']
      have : List.ofFn (fun i : Fin l.length => l.getD i d) = l :=
        List.ext_getElem (by simp) fun i h1 h2 => by simp [h2]
      rw [this]
    rw [e]
    refine MeasurableSet.iUnion fun n => ?_
    refine (measurableSet_eq_fun (measurable_length.comp measurable_fst) measurable_const).inter ?_
    refine ((h n).comp ((measurable_pi_iff.2 fun i => ?_).prodMk measurable_snd)) ht
    exact (measurable_getD i d).comp measurable_fst

theorem measurable_zip_ofFn (n : ℕ) :
    Measurable fun q : (Fin n → α) × List γ => (List.ofFn q.1).zip q.2 := by
  have h : Measurable fun q : List γ × (Fin n → α) => (List.ofFn q.2).zip q.1 := by
    refine measurable_of_list_prod fun m => ?_
    have e : (fun q : (Fin m → γ) × (Fin n → α) => (List.ofFn q.2).zip (List.ofFn q.1)) =
        fun q => List.ofFn fun i : Fin (min n m) =>
          (q.2 ⟨i, by omega⟩, q.1 ⟨i, by omega⟩) := by
      funext q
      refine List.ext_getElem (by simp) fun i h1 h2 => by simp
    rw [e]
    refine (measurable_ofFn _).comp (measurable_pi_iff.2 fun i => ?_)
    exact ((measurable_pi_apply _).comp measurable_snd).prodMk ((measurable_pi_apply _).comp measurable_fst)
  exact h.comp measurable_swap

theorem measurable_zip : Measurable fun q : List α × List γ => q.1.zip q.2 :=
  measurable_of_list_prod fun n => measurable_zip_ofFn n

/-- Points with marks. -/
theorem points_marks (n : ℕ) (κ : Measure α) (ν : Measure γ) [IsFiniteMeasure κ]
    [IsFiniteMeasure ν] {s : Set (List (α × γ))} (hs : MeasurableSet s) :
    ∫⁻ l, points l.length ν {c | l.zip c ∈ s} ∂(points n κ) = points n (κ.prod ν) s := by
  have hm : Measurable fun l : List α => points l.length ν {c | l.zip c ∈ s} := by
    refine measurable_of_list fun n => ?_
    simp only [List.length_ofFn]
    exact measurable_measure_prodMk_left (measurable_zip_ofFn n hs)
  rw [show points n κ = (Spec.iid n κ).map fun v => List.ofFn v from rfl,
    lintegral_map hm (measurable_ofFn n)]
  simp only [List.length_ofFn]
  have e : ∀ v : Fin n → α, points n ν {c | (List.ofFn v).zip c ∈ s} =
      Spec.iid n ν (Prod.mk v ⁻¹' {q : (Fin n → α) × (Fin n → γ) | List.ofFn (fun i => (q.1 i, q.2 i)) ∈ s}) := by
    intro v
    unfold points
    rw [Measure.map_apply (measurable_ofFn n)]
    · congr 1
      ext c
      simp only [Set.mem_preimage, Set.mem_ofPred_eq]
      have : (List.ofFn v).zip (List.ofFn c) = List.ofFn fun i => (v i, c i) :=
        List.ext_getElem (by simp) fun i h1 h2 => by simp
      rw [this]
    · exact ((measurable_zip_ofFn n).comp measurable_prodMk_left) hs
  have hz : MeasurePreserving (fun (p : (Fin n → α) × (Fin n → γ)) i => (p.1 i, p.2 i))
      ((Spec.iid n κ).prod (Spec.iid n ν)) (Spec.iid n (κ.prod ν)) :=
    (measurePreserving_arrowProdEquivProdArrow α γ (Fin n) (fun _ => κ) fun _ => ν).symm
      (e := MeasurableEquiv.arrowProdEquivProdArrow α γ (Fin n))
  have h1 : Measurable fun p : Fin n → α × γ => List.ofFn p := measurable_ofFn n
  have : SFinite (Spec.iid n ν) := by unfold Spec.iid; infer_instance
  have hsm : MeasurableSet {q : (Fin n → α) × (Fin n → γ) | List.ofFn (fun i => (q.1 i, q.2 i)) ∈ s} :=
    (h1.comp hz.measurable) hs
  simp only [e]
  show ∫⁻ v, Spec.iid n ν (Prod.mk v ⁻¹' _) ∂(Spec.iid n κ) = _
  rw [← Measure.prod_apply hsm]
  unfold points
  rw [Measure.map_apply h1 hs, ← hz.measure_preimage (h1 hs).nullMeasurableSet]
  rfl

theorem process_marks (κ : Measure α) (ν : Measure γ) [IsFiniteMeasure κ]
    [IsProbabilityMeasure ν] {s : Set (List (α × γ))} (hs : MeasurableSet s) :
    ∫⁻ l, points l.length ν {c | l.zip c ∈ s} ∂(Spec.poissonProcess κ) =
      Spec.poissonProcess (κ.prod ν) s := by
  rw [process_eq _ _ hs]
  unfold Spec.poissonProcess
  rw [lintegral_sum_measure]
  refine tsum_congr fun n => ?_
  rw [lintegral_smul_measure]
  have : (κ.prod ν).real Set.univ = κ.real Set.univ := by
    simp only [Measure.real, ← Set.univ_prod_univ, Measure.prod_prod, measure_univ, mul_one]
  rw [this]
  congr 1
  exact points_marks n κ ν hs

/-- Draw a Poisson process and something independent of it, then a mark for every point. -/
theorem Samples.marks {κ : Measure α} {M : Measure β} {ν : Measure γ} [IsFiniteMeasure κ]
    [IsProbabilityMeasure M] [IsProbabilityMeasure ν] {R : ℕ → G → List α × β → G → Prop}
    {R' : ℕ → ℕ → G → List γ → G → Prop} {Q : ℕ → G → List (α × γ) × β → G → Prop}
    (h : Spec.Samples P ((Spec.poissonProcess κ).prod M) R)
    (h' : ∀ n, Spec.Samples P (points n ν) (R' n))
    (hQ : ∀ k g l b g1 cs g2, R k g (l, b) g1 → R' l.length k g1 cs g2 → Q k g (l.zip cs, b) g2) :
    Spec.Samples P ((Spec.poissonProcess (κ.prod ν)).prod M) Q := by
  obtain ⟨T, hT, hR⟩ := h
  choose T' hT' hR' using h'
  let U : List α × G → List (α × γ) × G := fun p => (p.1.zip (T' p.1.length p.2).1, (T' p.1.length p.2).2)
  have hU : Measurable U := by
    refine measurable_of_list_prod fun n => ?_
    have h1 : Measurable fun q : (Fin n → α) × G => (T' n q.2) := (hT' n).measurable.comp measurable_snd
    simp only [U, List.length_ofFn]
    exact ((measurable_zip_ofFn n).comp (measurable_fst.prodMk (measurable_fst.comp h1))).prodMk
      (measurable_snd.comp h1)
  have h1 : MeasurePreserving U ((Spec.poissonProcess κ).prod P)
      ((Spec.poissonProcess (κ.prod ν)).prod P) := by
    refine ⟨hU, ?_⟩
    refine (Measure.prod_eq fun s t hs ht => ?_).symm
    rw [Measure.map_apply hU (hs.prod ht), Measure.prod_apply (hU (hs.prod ht))]
    have e : ∀ l : List α, P (Prod.mk l ⁻¹' (U ⁻¹' s ×ˢ t)) =
        points l.length ν {c | l.zip c ∈ s} * P t := by
      intro l
      have hm : MeasurableSet {c : List γ | l.zip c ∈ s} := (measurable_zip.comp measurable_prodMk_left) hs
      have := (hT' l.length).measure_preimage (hm.prod ht).nullMeasurableSet
      rw [Measure.prod_prod] at this
      exact this
    simp only [e]
    have hm : Measurable fun l : List α => points l.length ν {c | l.zip c ∈ s} := by
      refine measurable_of_list fun n => ?_
      simp only [List.length_ofFn]
      exact measurable_measure_prodMk_left (measurable_zip_ofFn n hs)
    rw [lintegral_mul_const _ hm, process_marks κ ν hs]
  -- the independent part stays aside
  have a1 := measurePreserving_prodAssoc (Spec.poissonProcess κ) M P
  have a2 := (MeasurePreserving.id (Spec.poissonProcess κ)).prod (Measure.measurePreserving_swap (μ := M) (ν := P))
  have a3 := (measurePreserving_prodAssoc (Spec.poissonProcess κ) P M).symm (e := MeasurableEquiv.prodAssoc)
  have a4 := h1.prod (MeasurePreserving.id M)
  have a5 := measurePreserving_prodAssoc (Spec.poissonProcess (κ.prod ν)) P M
  have a6 := (MeasurePreserving.id (Spec.poissonProcess (κ.prod ν))).prod (Measure.measurePreserving_swap (μ := P) (ν := M))
  have a7 := (measurePreserving_prodAssoc (Spec.poissonProcess (κ.prod ν)) M P).symm (e := MeasurableEquiv.prodAssoc)
  have a8 := a7.comp (a6.comp (a5.comp (a4.comp (a3.comp (a2.comp a1)))))
  refine ⟨_, a8.comp hT, ?_⟩
  have h2 : ∀ᵐ g ∂P, ∀ n, ∀ᶠ k in atTop, R' n k g (T' n g).1 (T' n g).2 := by
    rw [ae_all_iff]; exact hR'
  filter_upwards [hR, ae_after hT h2] with g a b
  filter_upwards [a, b (T g).1.1.length] with k a b
  exact hQ _ _ _ _ _ _ _ a b

/-- A coin for every point of a process. -/
theorem prod_coin (κ : Measure α) [IsFiniteMeasure κ] (ν : Measure Bool) [IsFiniteMeasure ν] :
    κ.prod ν = mixed (ν {true} • κ) (ν {false} • κ) := by
  have hν : ν = ν {true} • Measure.dirac true + ν {false} • Measure.dirac false := by
    refine Measure.ext_of_singleton fun b => ?_
    cases b <;> simp
  conv_lhs => rw [hν]
  unfold mixed
  rw [Measure.prod_add, Measure.prod_smul_right, Measure.prod_smul_right, Measure.prod_dirac,
    Measure.prod_dirac, Measure.map_smul, Measure.map_smul]

end Popsynth
