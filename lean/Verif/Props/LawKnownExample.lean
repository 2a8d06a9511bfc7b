import Verif.Props.LawKnown
import Verif.Props.LawCounts
import Verif.Props.LawSurveyExample

/-!
# A survey whose distances are known by chance (C88)
-/

set_option autoImplicit false
set_option linter.unusedSectionVars false

open MeasureTheory Filter
open scoped NNReal ENNReal

namespace Popsynth
namespace LawExample

/-- `BernoulliSelection` with probability 1/4. -/
noncomputable def quarter : Selector ℝ (ℕ → Triple) where
  kind := .bernoulli
  params := { storage := [("probability", some (1 / 4))] }

theorem fresh_quarter : Spec.FreshCoin survey.world quarter (1 / 4) where
  kind := rfl
  stored := rfl
  fresh := rfl
  valid := by
    show decide ((0 : ℝ) ≤ 1 / 4 ∧ (1 / 4 : ℝ) ≤ 1) = true
    rw [decide_eq_true_iff]; constructor <;> norm_num
  range := by constructor <;> norm_num

theorem detects_some : 0 < (∫⁻ x, Spec.detection survey synth args state
    (fun l d => l / (4 * Real.pi * d ^ 2)) (fun x => ENNReal.ofReal (selEnv.softLog 2 (1 / 1000) x)) x
    ∂(Spec.intensity synth args state constantSpherical 10 (constantSpherical.dens [5] 10) [5] mean
      (Spec.uniformLaw 1))).toReal := by
  have i2 := lawful.intensity_finite (Λ := mean)
  have i3 := finite_withDensity (Spec.intensity synth args state constantSpherical 10
    (constantSpherical.dens [5] 10) [5] mean (Spec.uniformLaw 1))
    (f := Spec.detection survey synth args state (fun l d => l / (4 * Real.pi * d ^ 2))
      fun x => ENNReal.ofReal (selEnv.softLog 2 (1 / 1000) x)) (fun x => lawful.le_one _)
  have hpos : ∀ x, Spec.detection survey synth args state (fun l d => l / (4 * Real.pi * d ^ 2))
      (fun x => ENNReal.ofReal (selEnv.softLog 2 (1 / 1000) x)) x ≠ 0 := by
    intro x
    unfold Spec.detection
    simp only [selEnv, ne_eq, ENNReal.ofReal_eq_zero, not_le]
    positivity
  have hm : Measurable (Spec.detection survey synth args state (fun l d => l / (4 * Real.pi * d ^ 2))
      fun x => ENNReal.ofReal (selEnv.softLog 2 (1 / 1000) x)) :=
    lawful.detection_measurable.comp lawful.observed_measurable
  refine ENNReal.toReal_pos ?_ ?_
  · refine ((lintegral_pos_iff_support hm).2 ?_).ne'
    have : Function.support (Spec.detection survey synth args state (fun l d => l / (4 * Real.pi * d ^ 2))
      fun x => ENNReal.ofReal (selEnv.softLog 2 (1 / 1000) x)) = Set.univ := by
      ext x; simpa using hpos x
    rw [this, lawful.intensity_univ]
    have h : (0 : ℝ) < mean := by
      show (0 : ℝ) < 20000 * Real.pi / 3
      have := Real.pi_pos; positivity
    exact_mod_cast h
  · have := measure_ne_top ((Spec.intensity synth args state constantSpherical 10
      (constantSpherical.dens [5] 10) [5] mean (Spec.uniformLaw 1)).withDensity
        (Spec.detection survey synth args state (fun l d => l / (4 * Real.pi * d ^ 2))
          fun x => ENNReal.ofReal (selEnv.softLog 2 (1 / 1000) x))) Set.univ
    rwa [withDensity_apply _ MeasurableSet.univ, Measure.restrict_univ] at this

/-- With a quarter of the distances known, the survey has independent Poisson numbers of known
distances, unknown distances and undetected objects, and it fails with positive probability. -/
example (showProgress : Bool) :
    (∃ D : ℝ, 0 < D ∧ ∃ E : Set (ℕ → Triple), MeasurableSet E ∧
      seeds E = ENNReal.ofReal (Real.exp (-(1 / 4 * D)) * (1 - Real.exp (-((1 - 1 / 4) * D)))) ∧
      ∀ᵐ g ∂seeds, ∀ᶠ k in atTop,
        (g ∈ E → ∃ s', drawSurvey (Spec.surveyEnv survey env constantSpherical.code showProgress
          (fun ls ds => .ok (List.zipWith (fun l d => l / (4 * Real.pi * d ^ 2)) ls ds)) (fun a _ => a) k g)
          synth args (Spec.withDistSel synth state quarter) = .error .value s') ∧
        (g ∉ E → ∃ Q s', drawSurvey (Spec.surveyEnv survey env constantSpherical.code showProgress
          (fun ls ds => .ok (List.zipWith (fun l d => l / (4 * Real.pi * d ^ 2)) ls ds)) (fun a _ => a) k g)
          synth args (Spec.withDistSel synth state quarter) = .ok Q s')) ∧
    ∃ E : Set (ℕ → Triple), MeasurableSet E ∧ 0 < seeds E ∧ ∀ᵐ g ∂seeds, ∀ᶠ k in atTop, g ∈ E →
      ∃ s', drawSurvey (Spec.surveyEnv survey env constantSpherical.code showProgress
          (fun ls ds => .ok (List.zipWith (fun l d => l / (4 * Real.pi * d ^ 2)) ls ds)) (fun a _ => a) k g)
          synth args (Spec.withDistSel synth state quarter) = .error .value s' :=
  ⟨⟨_, detects_some, C88_fails lawful counted fairBern fresh_quarter rfl showProgress _⟩,
    C88_violated_coin lawful counted fairBern fresh_quarter (by norm_num) detects_some showProgress _⟩

end LawExample
end Popsynth
