import Verif.Lemmas.AuxSamplers
import Verif.Spec.LumLaw
import Verif.Lemmas.Thinning
import Verif.Lemmas.LawReject
import Verif.Lemmas.Selection
import Verif.Props.Luminosity

/-!
# Lemmas about the laws of luminosities
-/

set_option autoImplicit false
set_option linter.unusedSectionVars false

open MeasureTheory Filter
open scoped ENNReal

namespace Popsynth

/-! ### Laws -/

/-- The law of a function that takes values up to `t` with the mass of a density up to `t`. -/
theorem law_of_mass {α : Type} [MeasurableSpace α] {μ : Measure α} [IsProbabilityMeasure μ]
    {S : α → ℝ} (hS : Measurable S) {phi : ℝ → Option ℝ} {s : Set ℝ} (hs : MeasurableSet s)
    (hd : Spec.DensityOn phi s)
    (h : ∀ t, μ {a | S a ≤ t} = ENNReal.ofReal (Spec.massUpTo phi s t)) :
    MeasurePreserving S μ (Spec.lumLaw (fun x => (phi x).getD 0) s) := by
  refine ⟨hS, ?_⟩
  have : IsProbabilityMeasure (μ.map S) := Measure.isProbabilityMeasure_map hS.aemeasurable
  refine Measure.ext_of_Iic _ _ fun t => ?_
  rw [Measure.map_apply hS measurableSet_Iic]
  have e : S ⁻¹' Set.Iic t = {a | S a ≤ t} := rfl
  rw [e, h t]
  unfold Spec.lumLaw Spec.massUpTo
  rw [withDensity_apply _ measurableSet_Iic, Measure.restrict_restrict measurableSet_Iic,
    Set.inter_comm s, ofReal_integral_eq_lintegral_ofReal]
  · exact hd.integrable.mono_set Set.inter_subset_right
  · refine (ae_restrict_iff' (measurableSet_Iic.inter hs)).2 (Eventually.of_forall fun x hx => ?_)
    obtain ⟨v, hv, e⟩ := hd.nonneg x hx.2
    simp only [e, Option.getD_some]
    exact hv

/-- The uniform law on `[0, 1]` is the volume on `[0, 1)`. -/
theorem uniformLaw_Ico (A : Set ℝ) :
    Spec.uniformLaw 1 {u | u ∈ A} = volume {u | u ∈ Set.Ico (0 : ℝ) 1 ∧ u ∈ A} := by
  unfold Spec.uniformLaw
  rw [ENNReal.ofReal_one, inv_one, one_smul, Measure.restrict_congr_set Ico_ae_eq_Icc.symm,
    Measure.restrict_apply' measurableSet_Ico]
  congr 1
  ext u
  exact and_comm

theorem uniformLaw_Ioo (A : Set ℝ) :
    Spec.uniformLaw 1 {u | u ∈ A} = volume {u | u ∈ Set.Ioo (0 : ℝ) 1 ∧ u ∈ A} := by
  unfold Spec.uniformLaw
  rw [ENNReal.ofReal_one, inv_one, one_smul, Measure.restrict_congr_set Ioo_ae_eq_Icc.symm,
    Measure.restrict_apply' measurableSet_Ioo]
  congr 1
  ext u
  exact and_comm

theorem uniformLaw_inside : ∀ᵐ u ∂(Spec.uniformLaw 1), u ∈ Set.Ioo (0 : ℝ) 1 := by
  unfold Spec.uniformLaw
  rw [ENNReal.ofReal_one, inv_one, one_smul, Measure.restrict_congr_set Ioo_ae_eq_Icc.symm]
  exact ae_restrict_mem measurableSet_Ioo

/-! ### Reading parameters -/

variable {G : Type}

/-- Reading a parameter changes the value of none. -/
theorem lumParam_keeps {b : Body ℝ} {o : Obj ℝ} {n : String} {v : ℝ} (h : Spec.LumHas b o n v) :
    ∃ o', lumParam b n o = .ok v o' ∧ ∀ m w, Spec.LumHas b o m w → Spec.LumHas b o' m w := by
  obtain ⟨d, hd, hv⟩ := h
  refine ⟨endState (paramGet d n o), ?_, fun m w ⟨d', hd', hw⟩ => ⟨d', hd', ?_⟩⟩
  · unfold lumParam
    rw [hd, Option.getD_some, outcome_get, hv]
    rfl
  · rw [← hw, inForce_eq, storage_after_get]
    by_cases hm : n = m
    · subst hm
      rw [hd] at hd'; cases hd'
      rw [inForce_eq]
      rcases Dict.get? o.storage n with _ | _ | x <;> cases d.default <;> simp
    · simp [hm, inForce_eq]

/-! ### Arrays -/

theorem lumNumbers_repeats {α : Type} [MeasurableSpace G] [MeasurableSpace α] (next : G → α × G) (k : ℕ) :
    ∀ (l : List α) (g g' : G), Repeats (fun _ g x g' => next g = (x, g')) k l g g' →
      lumNumbers next l.length g = (l, g')
  | [], g, g', h => by cases h; rfl
  | x :: l, g, g', ⟨g1, h1, h2⟩ => by
    have := lumNumbers_repeats next k l g1 g' h2
    simp only [List.length_cons, lumNumbers, h1, this]

theorem array_samples {α : Type} [MeasurableSpace G] [MeasurableSpace α] {P : Measure G}
    [IsProbabilityMeasure P] {μ : Measure α} [IsProbabilityMeasure μ] {next : G → α × G}
    (h : Spec.Samples P μ fun _ g x g' => next g = (x, g')) (n : ℕ) :
    Spec.Samples P (Spec.iid n μ) fun _ g v g' => lumNumbers next n g = (List.ofFn v, g') := by
  refine Samples.mono (Samples.repeat h n) fun k g v g' hr => ?_
  have := lumNumbers_repeats next k _ _ _ hr
  rwa [List.length_ofFn] at this

theorem allOk_map {f : ℝ → Except Err ℝ} {S : ℝ → ℝ} : ∀ l : List ℝ,
    (∀ x ∈ l, f x = .ok (S x)) → allOk f l = .ok (l.map S)
  | [], _ => rfl
  | x :: l, h => by
    simp only [allOk, h x (List.mem_cons_self ..),
      allOk_map l fun y hy => h y (List.mem_cons_of_mem _ hy), List.map_cons]

theorem finiteAll_map {α : Type} {f : α → Option ℝ} {S : α → ℝ} : ∀ l : List α,
    (∀ x ∈ l, f x = some (S x)) → finiteAll (l.map f) = .ok (l.map S)
  | [], _ => rfl
  | x :: l, h => by
    simp only [List.map_cons, finiteAll, h x (List.mem_cons_self ..),
      finiteAll_map l fun y hy => h y (List.mem_cons_of_mem _ hy)]

/-- From one luminosity to many. -/
theorem luminous_of {α : Type} [MeasurableSpace G] [MeasurableSpace α] {P : Measure G}
    [IsProbabilityMeasure P] {μ : Measure α} [IsProbabilityMeasure μ] {ν : Measure ℝ}
    {N : ℕ → G → List α → G → Prop}
    (hN : ∀ n, Spec.Samples P (Spec.iid n μ) fun _ g v g' => N n g (List.ofFn v) g')
    {S : α → ℝ} (hS : MeasurePreserving S μ ν) {p : α → Prop} (hp : ∀ᵐ x ∂μ, p x)
    {c : LumCode ℝ G} {lum : Lum ℝ} {f : ℝ → ℝ}
    (hdraw : ∀ n g (l : List α) g', l.length = n → (∀ x ∈ l, p x) → N n g l g' → ∃ lum',
      c.draw n { lum, rng := g } = .ok (l.map S) { lum := lum', rng := g' } ∧
      ∃ o, c.phi (l.map S) lum'.params = .ok ((l.map S).map f) o) :
    Spec.Luminous P c lum ν f := by
  have i1 : IsProbabilityMeasure ν := by
    rw [← hS.map_eq]; exact Measure.isProbabilityMeasure_map hS.measurable.aemeasurable
  refine ⟨i1, fun n => ?_⟩
  have h1 : MeasurePreserving (fun (v : Fin n → α) i => S (v i)) (Spec.iid n μ) (Spec.iid n ν) :=
    measurePreserving_pi _ _ fun _ => hS
  refine Samples.mapTo (Samples.and_ae (hN n) (iid_ae hp n)) h1 fun k g v g' h => ?_
  have e : (List.ofFn fun i => S (v i)) = (List.ofFn v).map S := by
    rw [List.map_ofFn]; rfl
  simp only [e]
  exact hdraw n g _ g' (List.length_ofFn ..) (fun x hx => by
    obtain ⟨i, rfl⟩ := (List.mem_ofFn' _ _).1 hx
    exact h.2 i) h.1

end Popsynth
