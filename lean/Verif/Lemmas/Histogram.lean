import Verif.Lemmas.ProcessSums
import Mathlib.MeasureTheory.Constructions.Pi

/-!
# The numbers of points of a Poisson process in many bins
-/

set_option autoImplicit false
set_option linter.unusedSectionVars false

open MeasureTheory
open scoped NNReal ENNReal

namespace Popsynth

variable {α : Type} [MeasurableSpace α]

/-- The points in a set and the points outside of it. -/
theorem process_filter (κ : Measure α) [IsFiniteMeasure κ] {B : Set α} [DecidablePred (· ∈ B)]
    (hB : MeasurableSet B) :
    MeasurePreserving (fun l : List α => (l.filter (· ∈ B), l.filter (· ∉ B))) (Spec.poissonProcess κ)
      ((Spec.poissonProcess (κ.restrict B)).prod (Spec.poissonProcess (κ.restrict Bᶜ))) := by
  have hf : Measurable fun x : α => (x, decide (x ∈ B)) :=
    measurable_id.prodMk (measurable_to_bool (by
      have : (fun x => decide (x ∈ B)) ⁻¹' {true} = B := by ext x; simp
      rw [this]; exact hB))
  have e1 : κ.map (fun x => (x, decide (x ∈ B))) = mixed (κ.restrict B) (κ.restrict Bᶜ) := by
    unfold mixed
    conv_lhs => rw [← Measure.restrict_add_restrict_compl (μ := κ) hB]
    rw [Measure.map_add _ _ hf]
    congr 1
    · refine Measure.map_congr ?_
      filter_upwards [ae_restrict_mem hB] with x hx
      simp [hx]
    · refine Measure.map_congr ?_
      filter_upwards [ae_restrict_mem hB.compl] with x hx
      simp [show x ∉ B from hx]
  have h1 : MeasurePreserving (List.map fun x : α => (x, decide (x ∈ B))) (Spec.poissonProcess κ)
      (Spec.poissonProcess (mixed (κ.restrict B) (κ.restrict Bᶜ))) :=
    ⟨measurable_map_list hf, by rw [process_map κ hf, e1]⟩
  have h2 : MeasurePreserving split (Spec.poissonProcess (mixed (κ.restrict B) (κ.restrict Bᶜ)))
      _ := ⟨measurable_split, process_split (κ.restrict B) (κ.restrict Bᶜ)⟩
  convert h2.comp h1 using 1
  funext l
  simp only [Function.comp_apply, split, List.filter_map, List.map_map, Function.comp_def]
  simp

/-- The numbers of points in disjoint bins are independent. -/
theorem process_bins {n : ℕ} : ∀ (κ : Measure α) [IsFiniteMeasure κ] {B : Fin n → Set α}
    [∀ j, DecidablePred (· ∈ B j)], (∀ j, MeasurableSet (B j)) → (∀ i j, i ≠ j → Disjoint (B i) (B j)) →
    MeasurePreserving (fun (l : List α) (j : Fin n) => l.countP (· ∈ B j)) (Spec.poissonProcess κ)
      (Measure.pi fun j => ProbabilityTheory.poissonMeasure (κ (B j)).toNNReal) := by
  induction n with
  | zero =>
    intro κ _ B _ hB hd
    refine ⟨measurable_of_subsingleton_codomain _, ?_⟩
    refine (Measure.pi_eq fun s hs => ?_).symm
    have hu : (Set.univ.pi s : Set (Fin 0 → ℕ)) = Set.univ := Set.eq_univ_of_forall fun _ i => i.elim0
    rw [hu, Measure.map_apply (measurable_of_subsingleton_codomain _) MeasurableSet.univ, Set.preimage_univ,
      measure_univ, Finset.univ_eq_empty, Finset.prod_empty]
  | succ n ih =>
    intro κ _ B _ hB hd
    have h1 := process_filter κ (hB 0)
    have h3 : MeasurePreserving (List.length : List α → ℕ) (Spec.poissonProcess (κ.restrict (B 0)))
        (ProbabilityTheory.poissonMeasure (κ (B 0)).toNNReal) :=
      ⟨measurable_length, by rw [process_length, Measure.restrict_apply_univ]⟩
    have h4 := ih (κ.restrict (B 0)ᶜ) (B := fun j => B j.succ) (fun j => hB _)
      (fun i j hij => hd _ _ fun e => hij (Fin.succ_injective _ e))
    have e : ∀ j : Fin n, κ.restrict (B 0)ᶜ (B j.succ) = κ (B j.succ) := by
      intro j
      rw [Measure.restrict_apply (hB _), Set.inter_eq_left.2]
      exact (hd j.succ 0 (Fin.succ_ne_zero j)).subset_compl_right
    simp only [e] at h4
    have h5 := (measurePreserving_piFinSuccAbove (fun j : Fin (n + 1) =>
      ProbabilityTheory.poissonMeasure (κ (B j)).toNNReal) 0).symm
    have h6 := h5.comp ((h3.prod h4).comp h1)
    convert h6 using 1
    funext l j
    simp only [Function.comp_apply, Prod.map]
    refine Fin.cases ?_ (fun i => ?_) j
    · simp [MeasurableEquiv.piFinSuccAbove_symm_apply, Fin.insertNthEquiv, List.countP_eq_length_filter]
    · simp only [MeasurableEquiv.piFinSuccAbove_symm_apply, Fin.insertNthEquiv, Fin.insertNth_zero,
        Equiv.coe_fn_mk, Fin.cons_succ, List.countP_filter]
      refine List.countP_congr fun x _ => ?_
      have : x ∈ B i.succ → x ∉ B 0 := fun hx => Set.disjoint_left.1 (hd i.succ 0 (Fin.succ_ne_zero i)) hx
      simp only [decide_eq_true_eq, Bool.and_eq_true]
      exact ⟨fun hx => ⟨hx, this hx⟩, fun hx => hx.1⟩

end Popsynth
