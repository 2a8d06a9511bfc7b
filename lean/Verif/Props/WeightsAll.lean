import Verif.Props.LawTroupeCounts
import Verif.Props.Weights
import Mathlib.MeasureTheory.Measure.Decomposition.RadonNikodym

/-!
# Weighting detected objects in surveys with samplers (C103)
-/

set_option autoImplicit false
set_option linter.unusedSectionVars false

open MeasureTheory Filter
open scoped NNReal ENNReal

namespace Popsynth

variable {G : Type} [MeasurableSpace G] {P : Measure G} [IsProbabilityMeasure P]
  {e : SurveyEnv ℝ G} {env : DistEnv ℝ G} {c : SpClass ℝ}
  {tr : List ℝ → List ℝ → Except Err (List ℝ)} {y : Synth ℝ} {a : SurveyArgs ℝ} {s : SurvSt ℝ G}
  {flux : ℝ → ℝ → ℝ} {rm m : ℝ} {vs : List ℝ} {Λ : ℝ≥0} {p : ℝ → ℝ≥0∞}
  {L : Spec.Lamp} {N : ℕ} {A : Fin N → Spec.Troupe}

/-- `η t` is the probability that an object of which the features `T` are `t` is detected, if an
object has the law `μ` and is detected with the probability `seen`. -/
structure Spec.Completeness {α β : Type} [MeasurableSpace α] [MeasurableSpace β] (μ : Measure α) (seen : α → ℝ≥0∞)
    (T : α → β) (η : β → ℝ≥0∞) : Prop where
  measurable : Measurable η
  le_one : ∀ t, η t ≤ 1
  is : ∀ B, MeasurableSet B → ∫⁻ x in T ⁻¹' B, seen x ∂μ = ∫⁻ t in B, η t ∂(μ.map T)

section
variable {α β : Type} [MeasurableSpace α] [MeasurableSpace β] {μ : Measure α} [IsFiniteMeasure μ] {seen : α → ℝ≥0∞}
  {T : α → β} {η : β → ℝ≥0∞}

theorem completeness_map (hT : Measurable T) (h : Spec.Completeness μ seen T η) :
    (μ.withDensity seen).map T = (μ.map T).withDensity η := by
  refine Measure.ext fun B hB => ?_
  rw [Measure.map_apply hT hB, withDensity_apply _ (hT hB), withDensity_apply _ hB, h.is B hB]

/-- There is such a probability for any features. -/
theorem completeness_exists (hT : Measurable T) (h1 : ∀ x, seen x ≤ 1) : ∃ η, Spec.Completeness μ seen T η := by
  have i1 := finite_withDensity μ (f := seen) h1
  have hle : (μ.withDensity seen).map T ≤ μ.map T := by
    refine Measure.le_iff.2 fun B hB => ?_
    rw [Measure.map_apply hT hB, Measure.map_apply hT hB, withDensity_apply _ (hT hB)]
    calc ∫⁻ x in T ⁻¹' B, seen x ∂μ ≤ ∫⁻ _ in T ⁻¹' B, 1 ∂μ := lintegral_mono fun x => h1 x
      _ = μ (T ⁻¹' B) := by simp
  have hac : (μ.withDensity seen).map T ≪ μ.map T := Measure.absolutelyContinuous_of_le hle
  have hr := Measure.withDensity_rnDeriv_eq _ _ hac
  have h2 : ∀ᵐ t ∂(μ.map T), ((μ.withDensity seen).map T).rnDeriv (μ.map T) t ≤ 1 := Measure.rnDeriv_le_one_of_le hle
  refine ⟨fun t => min (((μ.withDensity seen).map T).rnDeriv (μ.map T) t) 1,
    (Measure.measurable_rnDeriv _ _).min measurable_const, fun t => min_le_right _ _, fun B hB => ?_⟩
  rw [← withDensity_apply _ (hT hB), ← Measure.map_apply hT hB, ← hr, withDensity_apply _ hB, hr]
  refine lintegral_congr_ae (ae_restrict_of_ae ?_)
  filter_upwards [h2] with t ht
  exact (min_eq_left ht).symm

end

section
variable (h : Spec.Staged P e env c tr y a s flux rm m vs p)
    (hA : Spec.Company P e y s L A) (hfx : Spec.FiniteFluxes e c y a s flux rm m vs L A)
    (hc : Spec.Counted P e env c a rm vs Λ) (showProgress : Bool) (galB : List ℝ → List ℝ → List ℝ)
    {β : Type} [MeasurableSpace β] {T : Spec.Fate L A → β} (hT : Measurable T)
include h hA

/-- **C103** (features): whatever features of the objects are looked at (positions, luminosities,
observed fluxes, quantities of samplers and of their secondaries), there is a probability of detection
of objects with these features. -/
theorem C103_completeness (hT : Measurable T) :
    ∃ η, Spec.Completeness (Spec.surveyFate y a s c rm m vs L A) (Spec.fateSeen e y a s flux p L A) T η := by
  have i1 := surveyFate_prob h hA
  exact completeness_exists hT (fateSeen_le h)

include hfx hc

/-- Sums over the detected objects: for all weights, their mean and their mean square. -/
theorem detected_sums :
    ∃ D : G → List (Spec.Fate L A),
      (∀ᵐ g ∂P, ∀ᶠ k in atTop, ∃ Q s' u,
        drawSurvey (Spec.surveyEnv e env c.code showProgress tr galB k g) y a s = .ok Q s' ∧
        Spec.SplitsAll Q flux (Spec.observed e (Spec.sigmaUsed (s.heap.selectors y.fluxSel).kind a) a.log10Draw)
          L A (D g) u) ∧
      ∀ w : Spec.Fate L A → ℝ≥0∞, Measurable w →
        ∫⁻ g, ((D g).map w).sum ∂P =
          Λ * ∫⁻ x, w x ∂((Spec.surveyFate y a s c rm m vs L A).withDensity (Spec.fateSeen e y a s flux p L A)) ∧
        ∫⁻ g, ((D g).map w).sum ^ 2 ∂P =
          (∫⁻ g, ((D g).map w).sum ∂P) ^ 2 + ∫⁻ g, ((D g).map fun x => w x ^ 2).sum ∂P := by
  have i2 := fates_finite (Λ := Λ) h hA
  have i3 := finite_withDensity (Spec.fates y a s c rm m vs Λ L A)
    (f := Spec.fateSeen e y a s flux p L A) (fateSeen_le h)
  have i4 := finite_withDensity (Spec.fates y a s c rm m vs Λ L A)
    (f := fun x => 1 - Spec.fateSeen e y a s flux p L A x) (fun x => tsub_le_self)
  have h1 := Samples.mapTo (C84_thinning h hA hfx hc showProgress galB) (f := Prod.fst) measurePreserving_fst
    (Q := fun k g v g' => ∃ Q s' u,
        drawSurvey (Spec.surveyEnv e env c.code showProgress tr galB k g) y a s = .ok Q s' ∧
        Spec.SplitsAll Q flux (Spec.observed e (Spec.sigmaUsed (s.heap.selectors y.fluxSel).kind a) a.log10Draw)
          L A v u) (by
    rintro k g v g' ⟨Q, s', q1, q2, q3⟩
    exact ⟨Q, s', v.2, q1, q3⟩)
  obtain ⟨D, h1, h2⟩ := process_moments h1
  refine ⟨D, ?_, fun w hw => ⟨?_, ?_⟩⟩
  · filter_upwards [h1] with g hg
    filter_upwards [hg] with k hk
    obtain ⟨_, q⟩ := hk
    exact q
  · rw [(h2 w hw).1]
    unfold Spec.fates
    rw [withDensity_smul_measure, lintegral_smul_measure, smul_eq_mul]
  · rw [(h2 w hw).2, (h2 w hw).1, (h2 _ (hw.pow_const 2)).1, add_comm]

include hT

/-- **C103** (unbiased numbers): the sum over the detected objects with features in `B` of one over the
probability of detection of objects with these features has as mean the mean number of objects with
features in `B` that can be detected; the mean of its square exceeds the square of its mean by the
mean of the sum of the squares. -/
theorem C103_unbiased {η : β → ℝ≥0∞}
    (hη : Spec.Completeness (Spec.surveyFate y a s c rm m vs L A) (Spec.fateSeen e y a s flux p L A) T η)
    {B : Set β} (hB : MeasurableSet B) :
    ∃ D : G → List (Spec.Fate L A),
      (∀ᵐ g ∂P, ∀ᶠ k in atTop, ∃ Q s' u,
        drawSurvey (Spec.surveyEnv e env c.code showProgress tr galB k g) y a s = .ok Q s' ∧
        Spec.SplitsAll Q flux (Spec.observed e (Spec.sigmaUsed (s.heap.selectors y.fluxSel).kind a) a.log10Draw)
          L A (D g) u) ∧
      ∫⁻ g, ((D g).map fun x => B.indicator (fun t => (η t)⁻¹) (T x)).sum ∂P =
        Λ * Spec.surveyFate y a s c rm m vs L A {x | T x ∈ B ∧ η (T x) ≠ 0} ∧
      ∫⁻ g, ((D g).map fun x => B.indicator (fun t => (η t)⁻¹) (T x)).sum ^ 2 ∂P =
        (Λ * Spec.surveyFate y a s c rm m vs L A {x | T x ∈ B ∧ η (T x) ≠ 0}) ^ 2 +
          ∫⁻ g, ((D g).map fun x => B.indicator (fun t => (η t)⁻¹) (T x) ^ 2).sum ∂P := by
  have i1 := surveyFate_prob h hA
  obtain ⟨D, h1, h2⟩ := detected_sums h hA hfx hc showProgress galB
  have hw : Measurable (B.indicator fun t => (η t)⁻¹) := hη.measurable.inv.indicator hB
  have hz : MeasurableSet {t | η t ≠ 0} := (measurableSet_eq_fun hη.measurable measurable_const).compl
  obtain ⟨a1, a2⟩ := h2 _ (hw.comp hT)
  have key : ∫⁻ x, ((B.indicator fun t => (η t)⁻¹) ∘ T) x
      ∂((Spec.surveyFate y a s c rm m vs L A).withDensity (Spec.fateSeen e y a s flux p L A)) =
      Spec.surveyFate y a s c rm m vs L A {x | T x ∈ B ∧ η (T x) ≠ 0} := by
    rw [show {x | T x ∈ B ∧ η (T x) ≠ 0} = T ⁻¹' (B ∩ {t | η t ≠ 0}) from rfl, ← Measure.map_apply hT (hB.inter hz)]
    simp only [Function.comp_def]
    rw [← lintegral_map hw hT, completeness_map hT hη,
      lintegral_withDensity_eq_lintegral_mul _ hη.measurable hw, ← setLIntegral_one, ← lintegral_indicator (hB.inter hz)]
    refine lintegral_congr fun t => ?_
    rw [Pi.mul_apply]
    by_cases ht : t ∈ B
    · rw [Set.indicator_of_mem ht]
      by_cases h0 : η t = 0
      · rw [Set.indicator_of_notMem (show t ∉ B ∩ {t | η t ≠ 0} from fun h => h.2 h0), h0, zero_mul]
      · rw [Set.indicator_of_mem (show t ∈ B ∩ {t | η t ≠ 0} from ⟨ht, h0⟩),
          ENNReal.mul_inv_cancel h0 ((hη.le_one t).trans_lt ENNReal.one_lt_top).ne]
    · rw [Set.indicator_of_notMem ht, mul_zero,
        Set.indicator_of_notMem (show t ∉ B ∩ {t | η t ≠ 0} from fun h => ht h.1)]
  rw [key] at a1
  refine ⟨D, h1, a1, ?_⟩
  rw [← a1]
  exact a2

/-- **C103** (no other weights): weights that depend on the features and give the right mean number of
objects for all classes of features are one over the probability of detection, wherever there are
objects.  In particular they do not exist if there are objects that cannot be detected. -/
theorem C103_only {η : β → ℝ≥0∞}
    (hη : Spec.Completeness (Spec.surveyFate y a s c rm m vs L A) (Spec.fateSeen e y a s flux p L A) T η)
    (hΛ : Λ ≠ 0) :
    ∃ D : G → List (Spec.Fate L A),
      (∀ᵐ g ∂P, ∀ᶠ k in atTop, ∃ Q s' u,
        drawSurvey (Spec.surveyEnv e env c.code showProgress tr galB k g) y a s = .ok Q s' ∧
        Spec.SplitsAll Q flux (Spec.observed e (Spec.sigmaUsed (s.heap.selectors y.fluxSel).kind a) a.log10Draw)
          L A (D g) u) ∧
      ∀ w : β → ℝ≥0∞, Measurable w →
        ((∀ B, MeasurableSet B → ∫⁻ g, ((D g).map fun x => B.indicator w (T x)).sum ∂P =
            Λ * Spec.surveyFate y a s c rm m vs L A {x | T x ∈ B}) ↔
          ∀ᵐ x ∂(Spec.surveyFate y a s c rm m vs L A), w (T x) = (η (T x))⁻¹ ∧ η (T x) ≠ 0) := by
  have i1 := surveyFate_prob h hA
  have i5 : IsProbabilityMeasure ((Spec.surveyFate y a s c rm m vs L A).map T) :=
    Measure.isProbabilityMeasure_map hT.aemeasurable
  obtain ⟨D, h1, h2⟩ := detected_sums h hA hfx hc showProgress galB
  refine ⟨D, h1, fun w hw => ?_⟩
  have hΛ0 : (Λ : ℝ≥0∞) ≠ 0 := by exact_mod_cast hΛ
  have hsum : ∀ B, MeasurableSet B → ∫⁻ g, ((D g).map fun x => B.indicator w (T x)).sum ∂P =
      Λ * ∫⁻ t in B, η t * w t ∂((Spec.surveyFate y a s c rm m vs L A).map T) := by
    intro B hB
    refine ((h2 (fun x => B.indicator w (T x)) ((hw.indicator hB).comp hT)).1).trans ?_
    rw [← lintegral_map (hw.indicator hB) hT, completeness_map hT hη,
      lintegral_withDensity_eq_lintegral_mul _ hη.measurable (hw.indicator hB), ← lintegral_indicator hB]
    congr 1
    refine lintegral_congr fun t => ?_
    by_cases ht : t ∈ B <;> simp [ht]
  have hae : (∀ᵐ x ∂(Spec.surveyFate y a s c rm m vs L A), w (T x) = (η (T x))⁻¹ ∧ η (T x) ≠ 0) ↔
      ∀ᵐ t ∂((Spec.surveyFate y a s c rm m vs L A).map T), η t * w t = 1 := by
    have hme : Measurable fun t => η t * w t := hη.measurable.mul hw
    rw [ae_map_iff hT.aemeasurable (measurableSet_eq_fun hme measurable_const)]
    refine eventually_congr (Eventually.of_forall fun x => ?_)
    have ht : η (T x) ≠ ∞ := ((hη.le_one _).trans_lt ENNReal.one_lt_top).ne
    constructor
    · rintro ⟨q1, q2⟩
      rw [q1, ENNReal.mul_inv_cancel q2 ht]
    · intro q
      have q2 : η (T x) ≠ 0 := by
        intro q2
        rw [q2, zero_mul] at q
        exact zero_ne_one q
      refine ⟨?_, q2⟩
      rw [← ENNReal.eq_inv_of_mul_eq_one_left (by rw [mul_comm]; exact q)]
  rw [hae]
  constructor
  · intro q
    refine ae_eq_of_forall_setLIntegral_eq_of_sigmaFinite (hη.measurable.mul hw) measurable_const fun B hB _ => ?_
    have := q B hB
    rw [hsum B hB] at this
    have e1 := (ENNReal.mul_right_inj hΛ0 ENNReal.coe_ne_top).1 this
    refine e1.trans ?_
    rw [setLIntegral_one, Measure.map_apply hT hB]
    rfl
  · intro q B hB
    rw [hsum B hB, lintegral_congr_ae (ae_restrict_of_ae q), setLIntegral_one, Measure.map_apply hT hB]
    rfl

omit hT
/-- **C103** (weights from the fluxes alone): one over the probability of detection of the observed
flux corrects the selection of fluxes, but not those of the samplers: the mean is the mean number of
the objects that all samplers select and whose flux can be detected. -/
theorem C103_flux_weights {B : Set (Spec.Fate L A)} (hB : MeasurableSet B) :
    ∃ D : G → List (Spec.Fate L A),
      (∀ᵐ g ∂P, ∀ᶠ k in atTop, ∃ Q s' u,
        drawSurvey (Spec.surveyEnv e env c.code showProgress tr galB k g) y a s = .ok Q s' ∧
        Spec.SplitsAll Q flux (Spec.observed e (Spec.sigmaUsed (s.heap.selectors y.fluxSel).kind a) a.log10Draw)
          L A (D g) u) ∧
      ∫⁻ g, ((D g).map (B.indicator fun x => (p (Spec.fluxOf e y a s flux (Spec.sourceOf L A x)))⁻¹)).sum ∂P =
        Λ * Spec.surveyFate y a s c rm m vs L A
          {x | x ∈ B ∧ Spec.approved L A x = true ∧ p (Spec.fluxOf e y a s flux (Spec.sourceOf L A x)) ≠ 0} := by
  have i1 := surveyFate_prob h hA
  obtain ⟨D, h1, h2⟩ := detected_sums h hA hfx hc showProgress galB
  have hp := h.detection_measurable.comp (h.flux_measurable.comp (sourceOf_measurable (A := A) hA.lights.shine))
  have ha := approved_measurable hA.lights.shine hA.lights.response fun i => (hA.performs i).response
  have hs := fateSeen_measurable h hA
  refine ⟨D, h1, ((h2 _ (hp.inv.indicator hB)).1).trans ?_⟩
  have hset : MeasurableSet {x | x ∈ B ∧ Spec.approved L A x = true ∧
      p (Spec.fluxOf e y a s flux (Spec.sourceOf L A x)) ≠ 0} :=
    hB.inter ((ha (measurableSet_singleton true)).inter (measurableSet_eq_fun hp measurable_const).compl)
  rw [lintegral_withDensity_eq_lintegral_mul _ hs (hp.inv.indicator hB), ← setLIntegral_one,
    ← lintegral_indicator hset]
  congr 1
  refine lintegral_congr fun x => ?_
  rw [Pi.mul_apply]
  unfold Spec.fateSeen
  by_cases hx : x ∈ B <;> by_cases hap : Spec.approved L A x = true <;>
    by_cases h0 : p (Spec.fluxOf e y a s flux (Spec.sourceOf L A x)) = 0 <;>
    simp [Set.indicator, hx, hap, h0, ENNReal.mul_inv_cancel, ((h.le_one _).trans_lt ENNReal.one_lt_top).ne]

end

namespace FamilyExample
open LawExample

/-- In the survey with a derived luminosity and attached samplers, the luminosities can be weighted. -/
example : ∃ η, Spec.Completeness
    (Spec.surveyFate synth args state constantSpherical 10 (constantSpherical.dens [5] 10) [5] lamp troupe)
    (Spec.fateSeen survey synth args state (fun l d => l / (4 * Real.pi * d ^ 2))
      (fun x => ENNReal.ofReal (selEnv.softLog 2 (1 / 1000) x)) lamp troupe)
    (fun x => (Spec.sourceOf lamp troupe x).luminosity) η :=
  C103_completeness staged company
    (SkySource.measurable_luminosity.comp (sourceOf_measurable company.lights.shine))

end FamilyExample
end Popsynth
