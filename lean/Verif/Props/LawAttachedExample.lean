import Verif.Props.LawAttachedChoice
import Verif.Props.LawAuxExample

/-!
# A survey with two attached samplers (C80)

The survey of `Verif.Props.LawSurveyExample` with a normal sampler `size` that is observed with
errors and selects observed values of at least 1, and a power law sampler `mass` that is not
observed and selects every object with probability 1/3.
-/

set_option autoImplicit false
set_option linter.unusedSectionVars false

open MeasureTheory Filter
open scoped NNReal ENNReal

namespace Popsynth
namespace AttachedExample
open LawExample

/-- The survey with the code of the two samplers. -/
noncomputable def survey : SurveyEnv ℝ (ℕ → Triple) :=
  { LawExample.survey with world := { LawExample.survey.world with
      code := fun i => auxCode auxEnv (if i = 7 then .normal else .powerLaw) } }

/-- The synth with the two samplers. -/
def synth : Synth ℝ := { LawExample.synth with aux := [("size", 7), ("mass", 9)] }

/-- The sampler `size`. -/
noncomputable def size : Sampler ℝ :=
  { auxNew .normal "size" true 8 with
    params := { storage := [("mu", some 1), ("tau", some 2), ("sigma", some (1 / 10))] } }

/-- The sampler `mass`. -/
noncomputable def mass : Sampler ℝ :=
  { auxNew .powerLaw "mass" false 10 with
    params := { storage := [("xmin", some 1), ("xmax", some 9), ("alpha", some (1 / 2)), ("sigma", some (1 / 10))] } }

/-- The state with the two samplers. -/
noncomputable def state : SurvSt ℝ (ℕ → Triple) where
  heap := { samplers := fun i => if i = 7 then size else mass
            selectors := fun i => if i = 1 then limit else if i = 8 then
                { kind := .lower, data := { useObs := true }, params := { storage := [("boundary", some 1)] } }
              else if i = 10 then { kind := .bernoulli, params := { storage := [("probability", some (1 / 3))] } }
              else { kind := .unity }
            rng := fun _ => (0, 0, 0) }
  sp := LawExample.sp
  lum := {}
  graph := {}

theorem lawful : Spec.Lawful seeds survey env constantSpherical
    (fun ls ds => .ok (List.zipWith (fun l d => l / (4 * Real.pi * d ^ 2)) ls ds))
    { synth with aux := [] } args state
    (fun l d => l / (4 * Real.pi * d ^ 2)) 10 (constantSpherical.dens [5] 10) [5]
    (Spec.uniformLaw 1) (fun x => ENNReal.ofReal (selEnv.softLog 2 (1 / 1000) x)) where
  plain := ⟨rfl, by simp [synth, LawExample.synth], rfl, rfl, by simp [synth, LawExample.synth], ⟨rfl, rfl⟩, rfl,
    by simp [synth, LawExample.synth], fun t => ⟨_, rfl⟩⟩
  uniform := LawExample.lawful.uniform
  lt := LawExample.lawful.lt
  thetaOf := LawExample.lawful.thetaOf
  twoPi := LawExample.lawful.twoPi
  plainCount := LawExample.lawful.plainCount
  declared := LawExample.lawful.declared
  unique := LawExample.lawful.unique
  norm := LawExample.lawful.norm
  radius := LawExample.lawful.radius
  values := LawExample.lawful.values
  highest := LawExample.lawful.highest
  density := LawExample.lawful.density
  somewhere := LawExample.lawful.somewhere
  fluxes := LawExample.lawful.fluxes
  transforms := LawExample.lawful.transforms
  lumProb := LawExample.lawful.lumProb
  luminosity := LawExample.lawful.luminosity
  noise := LawExample.lawful.noise
  observed := LawExample.lawful.observed
  finite := LawExample.lawful.finite
  detects := LawExample.lawful.detects

theorem counted : Spec.Counted seeds survey env constantSpherical args 10 [5] mean :=
  ⟨LawExample.counted.drawn, LawExample.counted.poisson, LawExample.counted.mean⟩

theorem size_values : Spec.HasValues auxEnv .normal values size.params := by
  intro name d hd
  simp only [auxDecl, Dict.get?, List.find?, List.map] at hd
  by_cases h1 : name = "mu"
  · subst h1; simp [Spec.inForce, size, Dict.get?, values]
  by_cases h2 : name = "tau"
  · subst h2; simp [Spec.inForce, size, Dict.get?, values]
  by_cases h3 : name = "sigma"
  · subst h3; simp [Spec.inForce, size, Dict.get?, values]
  simp [Ne.symm h1, Ne.symm h2, Ne.symm h3] at hd

theorem mass_values : Spec.HasValues auxEnv .powerLaw values mass.params := by
  intro name d hd
  simp only [auxDecl, Dict.get?, List.find?, List.map] at hd
  by_cases h1 : name = "xmin"
  · subst h1; simp [Spec.inForce, mass, Dict.get?, values]
  by_cases h2 : name = "xmax"
  · subst h2; simp [Spec.inForce, mass, Dict.get?, values]
  by_cases h3 : name = "alpha"
  · subst h3; simp [Spec.inForce, mass, Dict.get?, values]
  by_cases h4 : name = "sigma"
  · subst h4; simp [Spec.inForce, mass, Dict.get?, values]
  simp [Ne.symm h1, Ne.symm h2, Ne.symm h3, Ne.symm h4] at hd

open Classical in
/-- The rule of `size`. -/
theorem size_plays : Spec.Plays seeds survey.world survey.frames state.heap
    (Spec.additive "size" 7 8 true (Spec.normalLaw 1 2) (Spec.normalLaw 0 (1 / 10)) (Measure.dirac 0)
      ({x : ℝ × ℝ × ℝ | 1 ≤ x.2.2} ×ˢ Set.univ)) := by
  refine C80_builtin_plays (env := auxEnv) (k := .normal) (V := values) (h₀ := state.heap) (by decide) rfl rfl
    ⟨rfl, rfl, rfl, rfl, rfl⟩ ?_ ?_ ?_ ?_
  · exact size_values
  · have a := C79_normal (V := values) exactAux fairAux (by simp [values])
    simp only [values, String.reduceEq, if_true, if_false] at a
    exact a
  · have h := C79_errors (V := values) (k := .normal) (by simp [Spec.Observable]) exactAux fairAux
      (by simp [values])
    simp only [values, String.reduceEq, if_true, if_false] at h
    exact h
  · exact C80_chooses_lower survey.world rfl (.obsValue rfl rfl rfl) rfl

theorem mass_plays : ∃ (ν : Measure ℝ) (D : Set ((ℝ × ℝ × ℝ) × ℝ)) (_ : DecidablePred (· ∈ D)),
    IsProbabilityMeasure ν ∧ MeasurableSet D ∧ (∀ x, ν {u | (x, u) ∈ D} = ENNReal.ofReal (1 / 3)) ∧
    Spec.Plays seeds survey.world survey.frames state.heap
      (Spec.additive "mass" 9 10 false (Spec.lumLaw (Spec.powerDensity 1 9 (1 / 2)) (Set.Icc 1 9))
        (Measure.dirac 0) ν D) := by
  obtain ⟨ν, D, i, h1, h2⟩ := C80_chooses_coin (P := seeds) survey.world (sel := state.heap.selectors 10)
    (b := false) fairBern rfl rfl (q := 1 / 3)
    (by show decide _ = true; rw [decide_eq_true_eq]; constructor <;> norm_num)
  refine ⟨ν, D, i, h1.law, h1.rule, h2, ?_⟩
  refine C80_builtin_plays (env := auxEnv) (k := .powerLaw) (V := values) (h₀ := state.heap) (by decide) rfl rfl
    ⟨rfl, rfl, rfl, rfl, rfl⟩ ?_ ?_ rfl h1
  · exact mass_values
  · have a := C79_powerLaw (V := values) exactAux fairAux (by simp [values]) (by simp [values])
    simp only [values, String.reduceEq, if_true, if_false] at a
    exact a

/-- Half of a normal population lies above its mean. -/
theorem gaussian_half {m : ℝ} {v : ℝ≥0} (hv : v ≠ 0) :
    ProbabilityTheory.gaussianReal m v {x | m ≤ x} = 1 / 2 := by
  have := ProbabilityTheory.nullSingletonClass_gaussianReal (μ := m) hv
  have hsym : (ProbabilityTheory.gaussianReal m v).map (fun x => 2 * m - x) =
      ProbabilityTheory.gaussianReal m v := by
    rw [ProbabilityTheory.gaussianReal_map_const_sub]
    congr 1; ring
  have e1 : ProbabilityTheory.gaussianReal m v (Set.Iic m) = ProbabilityTheory.gaussianReal m v (Set.Ici m) := by
    conv_lhs => rw [← hsym]
    rw [Measure.map_apply (by fun_prop) measurableSet_Iic]
    congr 1
    ext x; simp; constructor <;> intro h <;> linarith
  have e2 : ProbabilityTheory.gaussianReal m v (Set.Iio m) + ProbabilityTheory.gaussianReal m v (Set.Ici m) = 1 := by
    have hdj : Disjoint (Set.Iio m) (Set.Ici m) :=
      Set.disjoint_left.2 fun x h1 h2 => absurd (Set.mem_Iio.1 h1) (not_lt.2 (Set.mem_Ici.1 h2))
    rw [← measure_union hdj measurableSet_Ici, Set.Iio_union_Ici, measure_univ]
  rw [measure_congr Iio_ae_eq_Iic, e1, ← two_mul] at e2
  show ProbabilityTheory.gaussianReal m v (Set.Ici m) = _
  rw [ENNReal.eq_div_iff (by simp) (by simp)]
  exact e2

open Classical in
/-- `size` selects half of the objects. -/
theorem size_selects (x : Spec.Seen) :
    (Spec.additive "size" 7 8 true (Spec.normalLaw 1 2) (Spec.normalLaw 0 (1 / 10)) (Measure.dirac 0)
      ({x : ℝ × ℝ × ℝ | 1 ≤ x.2.2} ×ˢ Set.univ)).selects x = 1 / 2 := by
  have i1 : IsProbabilityMeasure (Spec.normalLaw 1 2) := by unfold Spec.normalLaw; infer_instance
  have i2 : IsProbabilityMeasure (Spec.normalLaw 0 (1 / 10)) := by unfold Spec.normalLaw; infer_instance
  have hm : MeasurableSet ({x : ℝ × ℝ × ℝ | 1 ≤ x.2.2} ×ˢ (Set.univ : Set ℝ)) :=
    (measurableSet_le measurable_const (by fun_prop)).prod MeasurableSet.univ
  rw [C80_selects hm]
  have e : ∀ t z : ℝ, Measure.dirac (0 : ℝ) {u | ((x.1, x.2.2, if true = true then t + z else t), u) ∈
      ({x : ℝ × ℝ × ℝ | 1 ≤ x.2.2} ×ˢ (Set.univ : Set ℝ))} = Set.indicator {y : ℝ | 1 ≤ y} 1 (t + z) := by
    intro t z
    by_cases h : 1 ≤ t + z <;> simp [Set.indicator, h]
  rw [lintegral_congr fun t => lintegral_congr fun z => e t z]
  have hs : MeasurableSet {y : ℝ | 1 ≤ y} := measurableSet_Ici
  rw [← Measure.lintegral_conv (measurable_one.indicator hs), lintegral_indicator_one hs]
  unfold Spec.normalLaw
  rw [ProbabilityTheory.gaussianReal_conv_gaussianReal, add_zero]
  refine gaussian_half ?_
  rw [← Real.toNNReal_add (by positivity) (by positivity)]
  simp only [ne_eq, Real.toNNReal_eq_zero, not_le]
  norm_num

/-- The flux in this survey. -/
noncomputable abbrev fluxOf : ℝ → ℝ → ℝ := fun l d => l / (4 * Real.pi * d ^ 2)

/-- The probability of detection in this survey, given the observed flux. -/
noncomputable abbrev chanceOf : ℝ → ℝ≥0∞ := fun x => ENNReal.ofReal (selEnv.softLog 2 (1 / 1000) x)

/-- The two samplers of this survey; each object is detected with a sixth of the probability it has
without them.  The numbers of detected and of other objects are independent Poisson numbers. -/
example (showProgress : Bool) : ∃ A : List Spec.Player,
    A.map Spec.Player.who = [("size", 7, 8), ("mass", 9, 10)] ∧
    Spec.Entourage seeds survey synth state.heap A ∧
    (∀ x, Spec.detectionAll survey synth args state fluxOf chanceOf A x =
      Spec.detection survey synth args state fluxOf chanceOf x * (1 / 2 * ENNReal.ofReal (1 / 3))) ∧
    (Spec.Samples seeds (Spec.poissonSample mean (Spec.catalogueAux survey constantSpherical synth args
        state fluxOf 10 (constantSpherical.dens [5] 10) [5] (Spec.uniformLaw 1) chanceOf A))
      fun k g v g' => ∃ Q s', drawSurvey (Spec.surveyEnv survey env constantSpherical.code showProgress
          (fun ls ds => .ok (List.zipWith fluxOf ls ds)) (fun a _ => a) k g) synth args state = .ok Q s' ∧
        s'.heap.rng = g' ∧ Spec.HoldsAux Q fluxOf (Spec.observed survey (some (1 / 2)) true) A v) ∧
    Spec.Samples seeds
      ((ProbabilityTheory.poissonMeasure (∫⁻ x, Spec.detection survey synth args state fluxOf chanceOf x *
          (1 / 2 * ENNReal.ofReal (1 / 3)) ∂(Spec.intensity synth args state constantSpherical 10
            (constantSpherical.dens [5] 10) [5] mean (Spec.uniformLaw 1))).toNNReal).prod
        (ProbabilityTheory.poissonMeasure (∫⁻ x, 1 - Spec.detection survey synth args state fluxOf chanceOf x *
          (1 / 2 * ENNReal.ofReal (1 / 3)) ∂(Spec.intensity synth args state constantSpherical 10
            (constantSpherical.dens [5] 10) [5] mean (Spec.uniformLaw 1))).toNNReal))
      fun k g v g' => ∃ Q s', drawSurvey (Spec.surveyEnv survey env constantSpherical.code showProgress
          (fun ls ds => .ok (List.zipWith fluxOf ls ds)) (fun a _ => a) k g) synth args state = .ok Q s' ∧
        s'.heap.rng = g' ∧ Q.nDetections = v.1 ∧ Q.nNonDetections = v.2 := by
  classical
  obtain ⟨ν, D, i, h1, h2, h3, hmass⟩ := mass_plays
  have hp : IsProbabilityMeasure (Spec.lumLaw (Spec.powerDensity 1 9 (1 / 2)) (Set.Icc 1 9)) := by
    have a := C79_powerLaw (V := values) exactAux fairAux (by simp [values]) (by simp [values])
    simp only [values, String.reduceEq, if_true, if_false] at a
    exact a.1
  let A : List Spec.Player := [Spec.additive "size" 7 8 true (Spec.normalLaw 1 2) (Spec.normalLaw 0 (1 / 10))
      (Measure.dirac 0) ({x : ℝ × ℝ × ℝ | 1 ≤ x.2.2} ×ˢ Set.univ),
    Spec.additive "mass" 9 10 false (Spec.lumLaw (Spec.powerDensity 1 9 (1 / 2)) (Set.Icc 1 9))
      (Measure.dirac 0) ν D]
  have hA : Spec.Entourage seeds survey synth state.heap A := by
    refine ⟨?_, ?_, ?_, by decide, fun t => ⟨_, rfl⟩⟩
    · exact ⟨rfl, by simp [A, Spec.Player.who, Spec.additive], by simp [A, Spec.Player.who, Spec.additive],
        by simp [A, Spec.Player.who, Spec.additive], by simp [A, Spec.Player.who, Spec.additive, synth, LawExample.synth],
        by simp [A, Spec.Player.who, Spec.additive, synth, LawExample.synth],
        by simp [A, Spec.Player.who, Spec.additive, readOnlyNames]⟩
    · intro p hp
      rcases List.mem_cons.1 hp with rfl | hp
      · exact ⟨rfl, rfl, rfl, rfl, rfl⟩
      · obtain rfl := List.mem_singleton.1 hp
        exact ⟨rfl, rfl, rfl, rfl, rfl⟩
    · intro p hp
      rcases List.mem_cons.1 hp with rfl | hp
      · exact size_plays
      · obtain rfl := List.mem_singleton.1 hp
        exact hmass
  have hd : ∀ x, Spec.detectionAll survey synth args state fluxOf chanceOf A x =
      Spec.detection survey synth args state fluxOf chanceOf x * (1 / 2 * ENNReal.ofReal (1 / 3)) := by
    intro x
    unfold Spec.detectionAll
    congr 1
    show ∏ j : Fin 2, (A.get j).selects x.seen = _
    rw [Fin.prod_univ_two]
    congr 1
    · exact size_selects x.seen
    · show (Spec.additive _ _ _ _ _ _ _ _).selects x.seen = _
      rw [C80_selects h2]
      simp only [h3, lintegral_const, measure_univ, mul_one]
  have hc := C80_counts lawful hA counted showProgress (fun a _ => a)
  simp only [hd] at hc
  exact ⟨A, rfl, hA, hd, C80_catalogue lawful hA counted showProgress (fun a _ => a), hc⟩

end AttachedExample
end Popsynth
