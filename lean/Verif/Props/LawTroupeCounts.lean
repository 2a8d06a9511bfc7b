import Verif.Props.LawAttachedCounts
import Verif.Props.LawFamilyExample
import Verif.Lemmas.ProcessSums

/-!
# What a survey with secondary samplers and derived luminosities detects (C84)
-/

set_option autoImplicit false
set_option linter.unusedSectionVars false

open MeasureTheory Filter
open scoped NNReal ENNReal

namespace Popsynth

/-- `Q` is a population with the detected objects `d` and the undetected objects `u`; every
sampler, also every secondary one, has a variable that shows its values for them. -/
structure Spec.SplitsAll (Q : Population ℝ) (flux : ℝ → ℝ → ℝ) (obs : ℝ → ℝ → ℝ) (L : Spec.Lamp) {N : ℕ}
    (A : Fin N → Spec.Troupe) (d u : List (Spec.Fate L A)) : Prop where
  sources : Spec.Splits Q flux obs (d.map (Spec.sourceOf L A)) (u.map (Spec.sourceOf L A))
  names : Q.attrs.map Prod.fst = (Spec.everyone L A).map fun p => p.1
  lamp : ∀ j, ∃ v, ((L.members.get j).1, v) ∈ Q.attrs ∧
    Spec.Parts v (d.map fun x => (Spec.lampOutcome L A x j).2.1) (d.map fun x => (Spec.lampOutcome L A x j).1)
      (u.map fun x => (Spec.lampOutcome L A x j).2.1) (u.map fun x => (Spec.lampOutcome L A x j).1)
  attached : ∀ i j, ∃ v, (((A i).members.get j).1, v) ∈ Q.attrs ∧
    Spec.Parts v (d.map fun x => (Spec.troupeOutcome L A x i j).2.1) (d.map fun x => (Spec.troupeOutcome L A x i j).1)
      (u.map fun x => (Spec.troupeOutcome L A x i j).2.1) (u.map fun x => (Spec.troupeOutcome L A x i j).1)

theorem holdsAll_splits {Q : Population ℝ} {flux obs : ℝ → ℝ → ℝ} {L : Spec.Lamp} {N : ℕ} {A : Fin N → Spec.Troupe}
    {l : List (Spec.Fate L A × Bool)} (h : Spec.HoldsAll Q flux obs L A l) :
    Spec.SplitsAll Q flux obs L A (split l).1 (split l).2 := by
  have hs : Q.selection = l.map fun x => x.2 := by
    rw [h.sources.selection, List.map_map]; rfl
  have hq := h.quantities
  rw [hs] at hq
  refine ⟨?_, ?_, fun j => ⟨_, ?_, parts_splitting l (fun x => (Spec.lampOutcome L A x j).2.1)
    fun x => (Spec.lampOutcome L A x j).1⟩, fun i j => ⟨_, ?_, parts_splitting l
    (fun x => (Spec.troupeOutcome L A x i j).2.1) fun x => (Spec.troupeOutcome L A x i j).1⟩⟩
  · have := holds_splits h.sources
    rw [split_map] at this
    exact this
  · rw [hq]
    unfold Spec.everyone
    rw [List.map_append, List.map_append, List.map_ofFn, List.map_flatten, List.map_flatten, List.map_ofFn, List.map_ofFn]
    congr 1
    · exact List.ext_get (by simp) (by simp)
    · congr 1
      congr 1
      funext i
      simp only [Function.comp_def, List.map_ofFn]
      exact List.ext_get (by simp) (by simp)
  · rw [hq]
    exact List.mem_append_left _ (List.mem_ofFn.2 ⟨j, rfl⟩)
  · rw [hq]
    exact List.mem_append_right _ (List.mem_flatten.2 ⟨_, List.mem_ofFn.2 ⟨i, rfl⟩, List.mem_ofFn.2 ⟨j, rfl⟩⟩)

variable {G : Type} [MeasurableSpace G] {P : Measure G} [IsProbabilityMeasure P]
  {e : SurveyEnv ℝ G} {env : DistEnv ℝ G} {c : SpClass ℝ}
  {tr : List ℝ → List ℝ → Except Err (List ℝ)} {y : Synth ℝ} {a : SurveyArgs ℝ} {s : SurvSt ℝ G}
  {flux : ℝ → ℝ → ℝ} {rm m : ℝ} {vs : List ℝ} {Λ : ℝ≥0} {p : ℝ → ℝ≥0∞}
  {L : Spec.Lamp} {N : ℕ} {A : Fin N → Spec.Troupe}

/-- Intensity of the objects: mean number times law of an object. -/
noncomputable def Spec.fates (y : Synth ℝ) (a : SurveyArgs ℝ) (s : SurvSt ℝ G) (c : SpClass ℝ)
    (rm m : ℝ) (vs : List ℝ) (Λ : ℝ≥0) (L : Spec.Lamp) {N : ℕ} (A : Fin N → Spec.Troupe) : Measure (Spec.Fate L A) :=
  (Λ : ℝ≥0∞) • Spec.surveyFate y a s c rm m vs L A

/-- The probability that an object is detected: that of its observed flux, if all samplers select
it. -/
noncomputable def Spec.fateSeen (e : SurveyEnv ℝ G) (y : Synth ℝ) (a : SurveyArgs ℝ) (s : SurvSt ℝ G)
    (flux : ℝ → ℝ → ℝ) (p : ℝ → ℝ≥0∞) (L : Spec.Lamp) {N : ℕ} (A : Fin N → Spec.Troupe) (x : Spec.Fate L A) : ℝ≥0∞ :=
  if Spec.approved L A x = true then p (Spec.fluxOf e y a s flux (Spec.sourceOf L A x)) else 0

theorem Spec.Staged.le_one (h : Spec.Staged P e env c tr y a s flux rm m vs p) (x : ℝ) : p x ≤ 1 := by
  obtain ⟨ν, D, _, hν, hD, hp, -⟩ := h.detects
  rw [← hp x]
  exact prob_le_one

theorem Spec.Staged.detection_measurable (h : Spec.Staged P e env c tr y a s flux rm m vs p) : Measurable p := by
  obtain ⟨ν, D, _, hν, hD, hp, -⟩ := h.detects
  have : p = fun x => ν (Prod.mk x ⁻¹' D) := funext fun x => (hp x).symm
  rw [this]
  exact measurable_measure_prodMk_left hD

theorem fateSeen_le (h : Spec.Staged P e env c tr y a s flux rm m vs p) (x : Spec.Fate L A) :
    Spec.fateSeen e y a s flux p L A x ≤ 1 := by
  unfold Spec.fateSeen
  split
  · exact h.le_one _
  · exact zero_le

theorem fateSeen_measurable (h : Spec.Staged P e env c tr y a s flux rm m vs p) (hA : Spec.Company P e y s L A) :
    Measurable (Spec.fateSeen e y a s flux p L A) := by
  have ha := approved_measurable hA.lights.shine hA.lights.response fun i => (hA.performs i).response
  have hf := h.detection_measurable.comp (h.flux_measurable.comp (sourceOf_measurable (A := A) hA.lights.shine))
  exact Measurable.ite (ha (measurableSet_singleton true)) hf measurable_const

section
variable (h : Spec.Staged P e env c tr y a s flux rm m vs p)
    (hA : Spec.Company P e y s L A) (hfx : Spec.FiniteFluxes e c y a s flux rm m vs L A)
    (hc : Spec.Counted P e env c a rm vs Λ) (showProgress : Bool) (galB : List ℝ → List ℝ → List ℝ)
include h hA

theorem fates_finite : IsFiniteMeasure (Spec.fates y a s c rm m vs Λ L A) := by
  have i1 := surveyFate_prob h hA
  unfold Spec.fates
  exact (inferInstance : IsFiniteMeasure (Λ • Spec.surveyFate y a s c rm m vs L A))

include hfx hc

/-- **C84** (detected and undetected objects): whatever gives the luminosities, and with secondary
samplers, what a survey detects is a Poisson process, what it misses another, and the two are
independent; the quantities of all samplers show the values of the same objects. -/
theorem C84_thinning :
    Spec.Samples P
      ((Spec.poissonProcess ((Spec.fates y a s c rm m vs Λ L A).withDensity (Spec.fateSeen e y a s flux p L A))).prod
        (Spec.poissonProcess ((Spec.fates y a s c rm m vs Λ L A).withDensity
          fun x => 1 - Spec.fateSeen e y a s flux p L A x)))
      fun k g v g' => ∃ Q s',
        drawSurvey (Spec.surveyEnv e env c.code showProgress tr galB k g) y a s = .ok Q s' ∧
        s'.heap.rng = g' ∧ Spec.SplitsAll Q flux (Spec.observed e
          (Spec.sigmaUsed (s.heap.selectors y.fluxSel).kind a) a.log10Draw) L A v.1 v.2 := by
  have i1 := surveyLaw_prob h hA
  have i2 := fates_finite (Λ := Λ) h hA
  have i3 := finite_withDensity (Spec.fates y a s c rm m vs Λ L A)
    (f := Spec.fateSeen e y a s flux p L A) (fateSeen_le h)
  have i4 := finite_withDensity (Spec.fates y a s c rm m vs Λ L A)
    (f := fun x => 1 - Spec.fateSeen e y a s flux p L A x) (fun x => tsub_le_self)
  have e1 : Spec.poissonSample Λ (Spec.surveyLaw e c y a s flux rm m vs p L A) =
      Spec.poissonProcess (mixed ((Spec.fates y a s c rm m vs Λ L A).withDensity
        (Spec.fateSeen e y a s flux p L A)) ((Spec.fates y a s c rm m vs Λ L A).withDensity
          fun x => 1 - Spec.fateSeen e y a s flux p L A x)) := by
    rw [sample_process]
    congr 1
    unfold Spec.surveyLaw Spec.flagged mixed Spec.fates
    have en : ∀ {α : Type} [MeasurableSpace α] (μ : Measure α), Λ • μ = (Λ : ℝ≥0∞) • μ := fun _ => rfl
    rw [en, smul_add, withDensity_smul_measure, withDensity_smul_measure, Measure.map_smul, Measure.map_smul]
    rfl
  have hs := C84_catalogue h hA hfx hc showProgress galB
  rw [e1] at hs
  refine Samples.mapTo hs ⟨measurable_split, process_split _ _⟩ ?_
  rintro k g v g' ⟨Q, s', q1, q2, q3⟩
  exact ⟨Q, s', q1, q2, holdsAll_splits q3⟩

/-- **C84** (numbers): the numbers of detected and of undetected objects are independent Poisson
numbers, and the mean number of detected objects is the mean number of objects times the mean
probability of detection. -/
theorem C84_counts :
    Spec.Samples P
      ((ProbabilityTheory.poissonMeasure (Λ * (∫⁻ x, Spec.fateSeen e y a s flux p L A x
          ∂(Spec.surveyFate y a s c rm m vs L A)).toNNReal)).prod
        (ProbabilityTheory.poissonMeasure (Λ * (∫⁻ x, 1 - Spec.fateSeen e y a s flux p L A x
          ∂(Spec.surveyFate y a s c rm m vs L A)).toNNReal)))
      fun k g v g' => ∃ Q s',
        drawSurvey (Spec.surveyEnv e env c.code showProgress tr galB k g) y a s = .ok Q s' ∧
        s'.heap.rng = g' ∧ Q.nDetections = v.1 ∧ Q.nNonDetections = v.2 := by
  have i2 := fates_finite (Λ := Λ) h hA
  have i3 := finite_withDensity (Spec.fates y a s c rm m vs Λ L A)
    (f := Spec.fateSeen e y a s flux p L A) (fateSeen_le h)
  have i4 := finite_withDensity (Spec.fates y a s c rm m vs Λ L A)
    (f := fun x => 1 - Spec.fateSeen e y a s flux p L A x) (fun x => tsub_le_self)
  refine Samples.mapTo (C84_thinning h hA hfx hc showProgress galB)
    (f := Prod.map List.length List.length) ⟨measurable_length.prodMap measurable_length, ?_⟩ ?_
  · rw [← Measure.map_prod_map _ _ measurable_length measurable_length, process_length, process_length,
      withDensity_apply _ MeasurableSet.univ, withDensity_apply _ MeasurableSet.univ,
      Measure.restrict_univ]
    unfold Spec.fates
    rw [lintegral_smul_measure, lintegral_smul_measure, smul_eq_mul, smul_eq_mul, ENNReal.toNNReal_mul,
      ENNReal.toNNReal_mul, ENNReal.toNNReal_coe]
  · rintro k g v g' ⟨Q, s', q1, q2, q3⟩
    have := q3.sources.counts
    rw [List.length_map, List.length_map] at this
    exact ⟨Q, s', q1, q2, this⟩

/-- **C84** (classes of objects): for any class of objects, told by positions, luminosity, measured
flux or the quantities of any samplers, the numbers of detected objects in it and outside it are
independent Poisson numbers. -/
theorem C84_classes {B : Set (Spec.Fate L A)} [DecidablePred (· ∈ B)] (hB : MeasurableSet B) :
    Spec.Samples P
      ((ProbabilityTheory.poissonMeasure (Λ * (∫⁻ x in B, Spec.fateSeen e y a s flux p L A x
          ∂(Spec.surveyFate y a s c rm m vs L A)).toNNReal)).prod
        (ProbabilityTheory.poissonMeasure (Λ * (∫⁻ x in Bᶜ, Spec.fateSeen e y a s flux p L A x
          ∂(Spec.surveyFate y a s c rm m vs L A)).toNNReal)))
      fun k g v g' => ∃ Q s' d u,
        drawSurvey (Spec.surveyEnv e env c.code showProgress tr galB k g) y a s = .ok Q s' ∧
        s'.heap.rng = g' ∧ Spec.SplitsAll Q flux (Spec.observed e
          (Spec.sigmaUsed (s.heap.selectors y.fluxSel).kind a) a.log10Draw) L A d u ∧
        d.countP (· ∈ B) = v.1 ∧ d.countP (· ∉ B) = v.2 := by
  have i2 := fates_finite (Λ := Λ) h hA
  have i3 := finite_withDensity (Spec.fates y a s c rm m vs Λ L A)
    (f := Spec.fateSeen e y a s flux p L A) (fateSeen_le h)
  have i4 := finite_withDensity (Spec.fates y a s c rm m vs Λ L A)
    (f := fun x => 1 - Spec.fateSeen e y a s flux p L A x) (fun x => tsub_le_self)
  have hm : ∀ B : Set (Spec.Fate L A), MeasurableSet B →
      ((Spec.fates y a s c rm m vs Λ L A).withDensity (Spec.fateSeen e y a s flux p L A) B).toNNReal =
      Λ * (∫⁻ x in B, Spec.fateSeen e y a s flux p L A x ∂(Spec.surveyFate y a s c rm m vs L A)).toNNReal := by
    intro B hB
    rw [withDensity_apply _ hB]
    unfold Spec.fates
    rw [Measure.restrict_smul, lintegral_smul_measure, smul_eq_mul, ENNReal.toNNReal_mul, ENNReal.toNNReal_coe]
  have hp := (process_classes ((Spec.fates y a s c rm m vs Λ L A).withDensity (Spec.fateSeen e y a s flux p L A)) hB).comp
    (measurePreserving_fst (μ := Spec.poissonProcess ((Spec.fates y a s c rm m vs Λ L A).withDensity
      (Spec.fateSeen e y a s flux p L A))) (ν := Spec.poissonProcess ((Spec.fates y a s c rm m vs Λ L A).withDensity
        fun x => 1 - Spec.fateSeen e y a s flux p L A x)))
  rw [hm B hB, hm Bᶜ hB.compl] at hp
  refine Samples.mapTo (C84_thinning h hA hfx hc showProgress galB) hp ?_
  rintro k g v g' ⟨Q, s', q1, q2, q3⟩
  exact ⟨Q, s', v.1, v.2, q1, q2, q3, rfl, rfl⟩

end

namespace FamilyExample
open LawExample

/-- The survey with a derived luminosity and attached samplers: the detected objects. -/
example (showProgress : Bool) :
    Spec.Samples seeds
      ((ProbabilityTheory.poissonMeasure (mean * (∫⁻ x, Spec.fateSeen survey synth args state
          (fun l d => l / (4 * Real.pi * d ^ 2)) (fun x => ENNReal.ofReal (selEnv.softLog 2 (1 / 1000) x)) lamp troupe x
          ∂(Spec.surveyFate synth args state constantSpherical 10 (constantSpherical.dens [5] 10) [5] lamp troupe)).toNNReal)).prod
        (ProbabilityTheory.poissonMeasure (mean * (∫⁻ x, 1 - Spec.fateSeen survey synth args state
          (fun l d => l / (4 * Real.pi * d ^ 2)) (fun x => ENNReal.ofReal (selEnv.softLog 2 (1 / 1000) x)) lamp troupe x
          ∂(Spec.surveyFate synth args state constantSpherical 10 (constantSpherical.dens [5] 10) [5] lamp troupe)).toNNReal)))
      fun k g v g' => ∃ Q s', drawSurvey (Spec.surveyEnv survey LawExample.env constantSpherical.code showProgress
          (fun ls ds => .ok (List.zipWith (fun l d => l / (4 * Real.pi * d ^ 2)) ls ds)) (fun a _ => a) k g)
            synth args state = .ok Q s' ∧
        s'.heap.rng = g' ∧ Q.nDetections = v.1 ∧ Q.nNonDetections = v.2 :=
  C84_counts staged company (Eventually.of_forall fun _ _ => rfl) counted showProgress _

end FamilyExample
end Popsynth
