import Verif.Props.LawSurveyExample
import Verif.Props.LawEuclid

/-!
# Luminosities and detections of known law (C76, C77, C78)

The generator of `Verif.Props.LawSurveyExample`.  A sphere of constant density, log-uniform
luminosities between 1 and 10, and a hard flux limit of 1/100.
-/

set_option autoImplicit false
set_option linter.unusedSectionVars false

open MeasureTheory
open scoped NNReal ENNReal

namespace Popsynth

/-- There is a function like `scipy.special.gammaincinv`. -/
theorem gammaincinv_exists : ∃ inv, Spec.IsGammaincinv inv := by
  have key : ∀ a > 0, ∀ y ∈ Set.Ico (0 : ℝ) 1, ∃ x ≥ 0,
      Spec.gammaInc a x = y * Real.Gamma a := by
    intro a ha y hy
    have hg := Real.Gamma_pos_of_pos ha
    have hlim : Filter.Tendsto (Spec.gammaInc a) Filter.atTop (nhds (Real.Gamma a)) := by
      have := intervalIntegral_tendsto_integral_Ioi (μ := volume) (0 : ℝ) (gammaInc_integrable ha)
        Filter.tendsto_id
      rw [Real.Gamma_eq_integral ha]
      simp only [mul_comm (Real.exp _)]
      exact this
    have hlt : y * Real.Gamma a < Real.Gamma a := by
      have := mul_lt_mul_of_pos_right hy.2 hg
      rwa [one_mul] at this
    obtain ⟨b, hb0, hb⟩ := ((Filter.eventually_ge_atTop (0 : ℝ)).and
      (hlim.eventually (lt_mem_nhds hlt))).exists
    have hc : ContinuousOn (Spec.gammaInc a) (Set.Icc 0 b) := by
      have := intervalIntegral.continuousOn_primitive_interval
        (f := fun s : ℝ => s ^ (a - 1) * Real.exp (-s)) (μ := volume) (a := 0) (b := b) (by
          rw [Set.uIcc_of_le hb0, integrableOn_Icc_iff_integrableOn_Ioc]
          exact (gammaInc_integrable ha).mono_set Set.Ioc_subset_Ioi_self)
      rwa [Set.uIcc_of_le hb0] at this
    have h0 : Spec.gammaInc a 0 = 0 := by unfold Spec.gammaInc; exact intervalIntegral.integral_same
    obtain ⟨x, hx, e⟩ := intermediate_value_Icc hb0 hc
      ⟨by rw [h0]; exact mul_nonneg hy.1 hg.le, hb.le⟩
    exact ⟨x, hx.1, e⟩
  classical
  refine ⟨fun a y => if h : 0 < a ∧ y ∈ Set.Ico (0 : ℝ) 1 then
    some (key a h.1 y h.2).choose else none, ⟨fun a ha y hy => ?_, fun a ha => ?_⟩⟩
  · exact ⟨_, (key a ha y hy).choose_spec.1, dif_pos ⟨ha, hy⟩, (key a ha y hy).choose_spec.2⟩
  · exact dif_neg fun h => lt_irrefl _ h.2.2

namespace LawExample

open Classical in
/-- Random numbers of the luminosity distributions. -/
noncomputable def lumEnv : LumEnv (ℕ → Triple) where
  uniform g := ((Stream.next g).1.1, (Stream.next g).2)
  normal g := ((Stream.next g).1.2.2, (Stream.next g).2)
  bern q g := (decide ((Stream.next g).1.1 < q), (Stream.next g).2)
  gammaincinv := gammaincinv_exists.choose

open Classical in
theorem fairNumbers : Spec.FairNumbers seeds lumEnv (ProbabilityTheory.gaussianReal 0 1) where
  uniform := ⟨_, draws draws_uniform, Filter.Eventually.of_forall fun g =>
    Filter.Eventually.of_forall fun k => rfl⟩
  normal := ⟨_, draws draws_normal, Filter.Eventually.of_forall fun g =>
    Filter.Eventually.of_forall fun k => rfl⟩
  bern q h0 h1 := by
    have hm : Measurable fun u : ℝ => decide (u < q) := by
      refine measurable_to_bool ?_
      have : (fun u : ℝ => decide (u < q)) ⁻¹' {true} = Set.Iio q := by ext u; simp
      rw [this]; exact measurableSet_Iio
    have hc : MeasurePreserving (fun u : ℝ => decide (u < q)) (Spec.uniformLaw 1) (Spec.coinLaw q) := by
      refine ⟨hm, ?_⟩
      have hprob := coinLaw_prob h0 h1
      have i1 : IsProbabilityMeasure ((Spec.uniformLaw 1).map fun u : ℝ => decide (u < q)) :=
        Measure.isProbabilityMeasure_map hm.aemeasurable
      have ht : ((Spec.uniformLaw 1).map fun u : ℝ => decide (u < q)) {true} =
          Spec.coinLaw q {true} := by
        rw [Measure.map_apply hm (measurableSet_singleton _)]
        have : (fun u : ℝ => decide (u < q)) ⁻¹' {true} = {u | u < q} := by ext u; simp
        rw [this, uniform_below h0 h1]
        simp [Spec.coinLaw]
      have hcompl : ({false} : Set Bool) = {true}ᶜ := by ext b; cases b <;> simp
      refine Measure.ext_of_singleton fun b => ?_
      cases b
      · rw [hcompl, prob_compl_eq_one_sub (measurableSet_singleton _),
          prob_compl_eq_one_sub (measurableSet_singleton _), ht]
      · exact ht
    have i2 := coinLaw_prob h0 h1
    exact ⟨_, draws (hc.comp draws_uniform), Filter.Eventually.of_forall fun g =>
      Filter.Eventually.of_forall fun k => rfl⟩

/-- A distribution with the given parameters. -/
noncomputable def lumOf (l : Dict (Option ℝ)) : Lum ℝ := { params := { storage := l } }

/-- Luminosity functions with concrete parameters. -/
example :
    Spec.Luminous seeds (paretoLum lumEnv) (lumOf [("Lmin", some 2), ("alpha", some 3)])
      (Spec.lumLaw (Spec.paretoDensity 2 3) (Set.Ici 2)) (Spec.paretoDensity 2 3) ∧
    Spec.Luminous seeds (schechterLum lumEnv) (lumOf [("Lmin", some 2), ("alpha", some (1 / 2))])
      (Spec.lumLaw (Spec.schechterDensity 2 (1 / 2)) (Set.Ioi 0)) (Spec.schechterDensity 2 (1 / 2)) ∧
    Spec.Luminous seeds (logNormalLum lumEnv) (lumOf [("mu", some 1), ("tau", some 2)])
      (Spec.lumLaw (Spec.logNormalDensity 1 2) (Set.Ioi 0)) (Spec.logNormalDensity 1 2) ∧
    Spec.Luminous seeds (log10NormalLum lumEnv) (lumOf [("mu", some 1), ("tau", some 2)])
      (Spec.lumLaw (Spec.log10NormalDensity 1 2) (Set.Ioi 0))
      (fun x => Real.log 10 * Spec.log10NormalDensity 1 2 x) ∧
    Spec.Luminous seeds deltaLum (lumOf [("Lp", some 7)]) (Measure.dirac 7) (deltaPhi 7) ∧
    ∃ p, Spec.IsBrokenPowerLaw p 1 3 9 (-1 / 2) (-2) ∧
      Spec.Luminous seeds (bplLum lumEnv) (lumOf [("Lmin", some 1), ("Lbreak", some 3),
        ("Lmax", some 9), ("alpha", some (-1 / 2)), ("beta", some (-2))])
        (Spec.lumLaw p Set.univ) p := by
  refine ⟨C76_pareto fairNumbers ⟨_, rfl, rfl⟩ ⟨_, rfl, rfl⟩ (by norm_num) (by norm_num),
    C76_schechter fairNumbers gammaincinv_exists.choose_spec ⟨_, rfl, rfl⟩ ⟨_, rfl, rfl⟩ (by norm_num) (by norm_num),
    C76_logNormal fairNumbers ⟨_, rfl, rfl⟩ ⟨_, rfl, rfl⟩ (by norm_num),
    C76_log10Normal_partial fairNumbers ⟨_, rfl, rfl⟩ ⟨_, rfl, rfl⟩ (by norm_num), (C76_delta (lum := lumOf [("Lp", some 7)]) (lp := 7) ⟨_, rfl, rfl⟩).1, ?_⟩
  obtain ⟨p, -, h1, -, h2⟩ := C76_bpl fairNumbers
    (lum := lumOf [("Lmin", some 1), ("Lbreak", some 3), ("Lmax", some 9), ("alpha", some (-1 / 2)),
      ("beta", some (-2))])
    (lmin := 1) (lbreak := 3) (lmax := 9) (alpha := -1 / 2) (beta := -2) ⟨_, rfl, rfl⟩ ⟨_, rfl, rfl⟩
    ⟨_, rfl, rfl⟩ ⟨_, rfl, rfl⟩ ⟨_, rfl, rfl⟩
    (by constructor <;> norm_num)
  exact ⟨p, h1, h2⟩

/-- The survey with log-uniform luminosities. -/
noncomputable def survey2 : SurveyEnv ℝ (ℕ → Triple) := { survey with lum := logUniLum lumEnv }

/-- The hard flux limit. -/
noncomputable def limit2 : Selector ℝ (ℕ → Triple) where
  kind := .lower
  data := { useFlux := true }
  params := { storage := [("boundary", some (1 / 100))] }

/-- The attached objects. -/
noncomputable def state2 : SurvSt ℝ (ℕ → Triple) where
  heap := { samplers := fun _ => { name := "", obsName := "" }
            selectors := fun i => if i = 1 then limit2 else { kind := .unity }
            rng := fun _ => (0, 0, 0) }
  sp := LawExample.sp
  lum := lumOf [("Lmin", some 1), ("Lmax", some 10)]
  graph := {}

/-- The law of the luminosities. -/
noncomputable abbrev lums : Measure ℝ := Spec.lumLaw (Spec.logUniDensity 1 10) (Set.Icc 1 10)

theorem luminous2 : Spec.Luminous seeds (logUniLum lumEnv) (lumOf [("Lmin", some 1), ("Lmax", some 10)])
    lums (Spec.logUniDensity 1 10) :=
  C76_logUniform fairNumbers ⟨_, rfl, rfl⟩ ⟨_, rfl, rfl⟩ (by norm_num) (by norm_num)

/-- All assumptions of C77 and C78 hold for this survey. -/
theorem lawful2 : Spec.Lawful seeds survey2 env constantSpherical
    (fun ls ds => .ok (List.zipWith sphericalFluxes ls ds)) synth {} state2
    sphericalFluxes 10 (constantSpherical.dens [5] 10) [5] lums ((Set.Ici (1 / 100)).indicator 1) := by
  have hsel : state2.heap.selectors synth.fluxSel = limit2 := rfl
  have hsig : Spec.sigmaUsed (state2.heap.selectors synth.fluxSel).kind ({} : SurveyArgs ℝ) = none := rfl
  have h := lawful
  refine
    { plain := ⟨rfl, by simp [synth], rfl, rfl, by simp [synth], ⟨rfl, rfl⟩, rfl, by simp [synth], fun t => ⟨_, rfl⟩⟩
      uniform := fair
      lt := h.lt
      thetaOf := h.thetaOf
      twoPi := h.twoPi
      plainCount := rfl
      declared := h.declared
      unique := h.unique
      norm := h.norm
      radius := h.radius
      values := h.values
      highest := h.highest
      density := h.density
      somewhere := h.somewhere
      fluxes := sphericalFluxes_measurable
      transforms := fun _ _ _ => rfl
      lumProb := luminous2.1
      luminosity := fun n => (C76_survey luminous2 n).2
      noise := fun sigma hs => by rw [hsig] at hs; cases hs
      observed := by rw [hsig]; exact measurable_fst
      finite := Filter.Eventually.of_forall fun x _ => rfl
      detects := ?_ }
  rw [hsel]
  exact C74_detects_hard survey2.world rfl rfl rfl

/-- The number of detections of this survey. -/
example (showProgress : Bool) :
    Spec.Samples seeds (ProbabilityTheory.poissonMeasure
        (Spec.ballCounts 5 (fun L => √(L / (4 * Real.pi * (1 / 100))) - 1) lums).toNNReal)
      fun k g n g' => ∃ Q s', drawSurvey (Spec.surveyEnv survey2 env constantSpherical.code showProgress
          (fun ls ds => .ok (List.zipWith sphericalFluxes ls ds)) (fun a _ => a) k g)
          synth {} state2 = .ok Q s' ∧ s'.heap.rng = g' ∧ Q.nDetections = n := by
  have hp := Real.pi_gt_three
  refine C78_survey (by norm_num) (by norm_num) lawful2 rfl gridMax ?_
    ⟨rfl, counted.poisson, counted.mean⟩ ?_ showProgress _
  · rw [← counted.mean]
    simp only [constantSpherical_dens, sphereVolume]
    rw [show (fun r : ℝ => 5 * (4 * Real.pi * r * r) / 1) = fun r => 20 * Real.pi * r ^ 2 by
      funext r; ring, intervalIntegral.integral_const_mul, integral_pow]
    show (20000 * Real.pi / 3 : ℝ) = _
    norm_num
    ring
  · have h1 : ∀ᵐ L ∂lums, L ∈ Set.Icc (1 : ℝ) 10 :=
      (withDensity_absolutelyContinuous _ _).ae_le (ae_restrict_mem measurableSet_Icc)
    filter_upwards [h1] with L hL
    have : √(L / (4 * Real.pi * (1 / 100))) ≤ 11 := by
      rw [Real.sqrt_le_left (by norm_num), div_le_iff₀ (by positivity)]
      nlinarith [hL.2]
    linarith

end LawExample
end Popsynth
