import Verif.Props.Malmquist
import Verif.Props.LawLumExample

/-!
# Weights of the detected objects of a sphere of constant density (C93)
-/

set_option autoImplicit false
set_option linter.unusedSectionVars false

open MeasureTheory Filter
open scoped NNReal ENNReal

namespace Popsynth

/-- The volume of the ball of the given radius. -/
noncomputable def Spec.ballVolume (r : ℝ) : ℝ := 4 / 3 * Real.pi * max 0 r ^ 3

/-- The distance up to which an object of luminosity `L` is brighter than `F` in this package. -/
noncomputable def Spec.reach (F L : ℝ) : ℝ := √(L / (4 * Real.pi * F)) - 1

/-- That distance if fluxes were `L / 4πr²`. -/
noncomputable def Spec.euclidReach (F L : ℝ) : ℝ := √(L / (4 * Real.pi * F))

variable {G : Type} [MeasurableSpace G] {P : Measure G} [IsProbabilityMeasure P]
  {e : SurveyEnv ℝ G} {env : DistEnv ℝ G}
  {tr : List ℝ → List ℝ → Except Err (List ℝ)} {y : Synth ℝ} {a : SurveyArgs ℝ} {s : SurvSt ℝ G}

theorem reach_measurable (F lambda : ℝ) :
    Measurable fun L => ENNReal.ofReal (lambda * Spec.ballVolume (Spec.reach F L)) := by
  unfold Spec.ballVolume Spec.reach
  fun_prop

/-- The mean over the distances of a survey whose number of objects is the exact integral of its
density. -/
theorem distance_lintegral {c : SpClass ℝ} {flux : ℝ → ℝ → ℝ} {rm m : ℝ} {vs : List ℝ} {Λ : ℝ≥0}
    {μL : Measure ℝ} {p : ℝ → ℝ≥0∞} (h : Spec.Lawful P e env c tr y a s flux rm m vs μL p)
    (hm : ∀ r ∈ Set.Icc 0 rm, c.dens vs r ≤ m)
    (hΛ : (Λ : ℝ≥0∞) = ∫⁻ r in Set.Icc 0 rm, ENNReal.ofReal (c.dens vs r))
    {f : ℝ → ℝ≥0∞} (hf : Measurable f) :
    Λ * ∫⁻ r, f r ∂(Spec.densityLaw (fun r => min (c.dens vs r) m) rm) =
      ∫⁻ r in Set.Icc 0 rm, ENNReal.ofReal (c.dens vs r) * f r := by
  have hcut : ∀ r ∈ Set.Icc 0 rm, ENNReal.ofReal (min (c.dens vs r) m) =
      ENNReal.ofReal (c.dens vs r) := fun r hr => by rw [min_eq_left (hm r hr)]
  have hI : ∫⁻ r in Set.Icc 0 rm, ENNReal.ofReal (min (c.dens vs r) m) = Λ := by
    rw [hΛ]; exact setLIntegral_congr_fun measurableSet_Icc hcut
  have h0 : (Λ : ℝ≥0∞) ≠ 0 := hI ▸ h.somewhere
  unfold Spec.densityLaw
  rw [lintegral_smul_measure, hI, smul_eq_mul, ← mul_assoc,
    ENNReal.mul_inv_cancel h0 ENNReal.coe_ne_top, one_mul, lintegral_withDensity_eq_lintegral_mul _ _ hf]
  · refine setLIntegral_congr_fun measurableSet_Icc fun r hr => ?_
    simp only [Pi.mul_apply, hcut r hr]
  · have := h.density; fun_prop

section sphere
variable {rm m lambda F : ℝ} {Λ : ℝ≥0} {μL : Measure ℝ} (hF : 0 < F) (hl : 0 ≤ lambda)
  (h : Spec.Lawful P e env constantSpherical tr y a s sphericalFluxes rm m [lambda] μL
    ((Set.Ici F).indicator 1))
  (hs : Spec.sigmaUsed (s.heap.selectors y.fluxSel).kind a = none)
  (hg : Spec.GridMax env)
  (hq : (env.quad rm).eval (constantSpherical.dens [lambda]) =
    ∫ r in (0)..rm, constantSpherical.dens [lambda] r)
  (hc : Spec.Counted P e env constantSpherical a rm [lambda] Λ)
  (hin : ∀ᵐ L ∂μL, Spec.reach F L ≤ rm)
include hF hl h hs hg hq hc hin

theorem sphere_intensity :
    ((Spec.intensity y a s constantSpherical rm m [lambda] Λ μL).withDensity
      (Spec.detection e y a s sphericalFluxes ((Set.Ici F).indicator 1))).map Spec.SkySource.luminosity =
    μL.withDensity fun L => ENNReal.ofReal (lambda * Spec.ballVolume (Spec.reach F L)) := by
  have i1 := h.lumProb
  obtain ⟨hm, hΛ⟩ := sphere_mean hl h hg hq hc
  refine Measure.ext fun B hB => ?_
  have hB' : MeasurableSet {b : ℝ × ℝ | b.2 ∈ B} := measurable_snd hB
  rw [Measure.map_apply SkySource.measurable_luminosity hB,
    withDensity_apply _ (SkySource.measurable_luminosity hB), withDensity_apply _ hB]
  refine (intensity_lintegral (Λ := Λ) h hB' h.detection_measurable).trans ?_
  rw [hs]
  simp only [Spec.noiseLaw, lintegral_dirac, Spec.observed]
  have e1 : ∀ r : ℝ, ∫⁻ l, {b : ℝ × ℝ | b.2 ∈ B}.indicator (fun _ =>
      (Set.Ici F).indicator (1 : ℝ → ℝ≥0∞) (sphericalFluxes l r)) (r, l) ∂μL =
      ∫⁻ l in B, (Set.Ici F).indicator (1 : ℝ → ℝ≥0∞) (sphericalFluxes l r) ∂μL := fun r => by
    rw [← lintegral_indicator hB]
    rfl
  simp only [e1]
  have hmf : Measurable fun q : ℝ × ℝ => (Set.Ici F).indicator (1 : ℝ → ℝ≥0∞) (sphericalFluxes q.2 q.1) :=
    (measurable_one.indicator measurableSet_Ici).comp (sphericalFluxes_measurable.comp measurable_swap)
  rw [distance_lintegral h hm hΛ hmf.lintegral_prod_right']
  have k1 := C78_counts (μL := μL.restrict B) hl hF
    (ae_restrict_of_ae hin) (fun f _ => f) fun _ => rfl
  unfold Spec.expected Spec.ballCounts at k1
  simp only [Spec.noiseLaw, lintegral_dirac] at k1
  exact k1

/-- **C93**: the luminosities of the detected objects of a flux-limited survey of a sphere of
constant density are a Poisson process; the intensity is that of the population, times the
volume in which an object of that luminosity is detected. -/
theorem C93_luminosities (showProgress : Bool) (galB : List ℝ → List ℝ → List ℝ) :
    Spec.Samples P (Spec.poissonProcess (μL.withDensity fun L =>
        ENNReal.ofReal (lambda * Spec.ballVolume (Spec.reach F L))))
      fun k g v g' => ∃ Q s' d,
        drawSurvey (Spec.surveyEnv e env constantSpherical.code showProgress tr galB k g) y a s =
          .ok Q s' ∧ s'.heap.rng = g' ∧ (Q.luminosities.toSVar .float).selected = .ok d ∧
        d.latent = v := by
  have i1 := h.lumProb
  obtain ⟨hm, hΛ⟩ := sphere_mean hl h hg hq hc
  have i2 := h.intensity_finite (Λ := Λ)
  have i3 := finite_withDensity (Spec.intensity y a s constantSpherical rm m [lambda] Λ μL)
    (f := Spec.detection e y a s sphericalFluxes ((Set.Ici F).indicator 1)) (fun x => h.le_one _)
  have i4 := finite_withDensity (Spec.intensity y a s constantSpherical rm m [lambda] Λ μL)
    (f := fun x => 1 - Spec.detection e y a s sphericalFluxes ((Set.Ici F).indicator 1) x)
    (fun x => tsub_le_self)
  refine Samples.mapTo (C75_thinning h hc showProgress galB) (f := fun v => v.1.map Spec.SkySource.luminosity)
    ⟨(measurable_map_list SkySource.measurable_luminosity).comp measurable_fst, ?_⟩ ?_
  · rw [← Function.comp_def (List.map Spec.SkySource.luminosity) Prod.fst, ← Measure.map_map
      (measurable_map_list SkySource.measurable_luminosity) measurable_fst, measurePreserving_fst.map_eq,
      process_map _ SkySource.measurable_luminosity]
    rw [sphere_intensity hF hl h hs hg hq hc hin]
  · rintro k g v g' ⟨Q, s', q1, q2, q3⟩
    obtain ⟨⟨d, a1, b1⟩, -⟩ := selected_obs q3
    exact ⟨Q, s', d, q1, q2, a1, b1⟩

/-- **C93** (sums): the mean over the seeds of the sum of a weight over the detected objects. -/
theorem C93_sums (showProgress : Bool) (galB : List ℝ → List ℝ → List ℝ) :
    ∃ D : G → List ℝ,
      (∀ᵐ g ∂P, ∀ᶠ k in atTop, ∃ Q s' d,
        drawSurvey (Spec.surveyEnv e env constantSpherical.code showProgress tr galB k g) y a s =
          .ok Q s' ∧ (Q.luminosities.toSVar .float).selected = .ok d ∧ d.latent = D g) ∧
      ∀ w : ℝ → ℝ≥0∞, Measurable w → ∫⁻ g, ((D g).map w).sum ∂P =
        ∫⁻ L, ENNReal.ofReal (lambda * Spec.ballVolume (Spec.reach F L)) * w L ∂μL := by
  have i2 := h.intensity_finite (Λ := Λ)
  have i3 := finite_withDensity (Spec.intensity y a s constantSpherical rm m [lambda] Λ μL)
    (f := Spec.detection e y a s sphericalFluxes ((Set.Ici F).indicator 1)) (fun x => h.le_one _)
  have i4 : IsFiniteMeasure (μL.withDensity fun L =>
      ENNReal.ofReal (lambda * Spec.ballVolume (Spec.reach F L))) := by
    rw [← sphere_intensity hF hl h hs hg hq hc hin]
    infer_instance
  obtain ⟨T, hT, hR⟩ := C93_luminosities hF hl h hs hg hq hc hin showProgress galB
  refine ⟨fun g => (T g).1, ?_, fun w hw => ?_⟩
  · filter_upwards [hR] with g hg
    filter_upwards [hg] with k hk
    obtain ⟨Q, s', d, q1, -, q2, q3⟩ := hk
    exact ⟨Q, s', d, q1, q2, q3⟩
  · have h1 := (measurePreserving_fst.comp hT).lintegral_comp (measurable_sum_map hw)
    refine h1.trans ?_
    rw [process_sum _ hw, lintegral_withDensity_eq_lintegral_mul _ (reach_measurable _ _) hw]
    rfl

/-- **C93** (`1/Vmax`): the sum over the detected objects with luminosities in `B` of one over the
volume in which an object of its luminosity is detected has as mean the number of objects per unit
volume with luminosities in `B` that can be detected at all. -/
theorem C93_unbiased (showProgress : Bool) (galB : List ℝ → List ℝ → List ℝ) :
    ∃ D : G → List ℝ,
      (∀ᵐ g ∂P, ∀ᶠ k in atTop, ∃ Q s' d,
        drawSurvey (Spec.surveyEnv e env constantSpherical.code showProgress tr galB k g) y a s =
          .ok Q s' ∧ (Q.luminosities.toSVar .float).selected = .ok d ∧ d.latent = D g) ∧
      ∀ B : Set ℝ, MeasurableSet B → ∫⁻ g, ((D g).map (B.indicator fun L =>
          (ENNReal.ofReal (Spec.ballVolume (Spec.reach F L)))⁻¹)).sum ∂P =
        ENNReal.ofReal lambda * μL (B ∩ {L | 0 < Spec.reach F L}) := by
  obtain ⟨D, h1, h2⟩ := C93_sums hF hl h hs hg hq hc hin showProgress galB
  refine ⟨D, h1, fun B hB => ?_⟩
  have hv : Measurable fun L => ENNReal.ofReal (Spec.ballVolume (Spec.reach F L)) := by
    simpa using reach_measurable F 1
  have hr : MeasurableSet {L | 0 < Spec.reach F L} :=
    measurableSet_lt measurable_const (by unfold Spec.reach; fun_prop)
  have hv' : Measurable fun L => (ENNReal.ofReal (Spec.ballVolume (Spec.reach F L)))⁻¹ := hv.inv
  rw [h2 _ (hv'.indicator hB), ← setLIntegral_const, ← lintegral_indicator (hB.inter hr)]
  refine lintegral_congr fun L => ?_
  by_cases hL : L ∈ B
  · rw [Set.indicator_of_mem hL]
    by_cases h0 : 0 < Spec.reach F L
    · rw [Set.indicator_of_mem (show L ∈ B ∩ {L | 0 < Spec.reach F L} from ⟨hL, h0⟩),
        ENNReal.ofReal_mul hl, mul_assoc, ENNReal.mul_inv_cancel, mul_one]
      · have := Real.pi_pos
        rw [Ne, ENNReal.ofReal_eq_zero, not_le]
        unfold Spec.ballVolume
        rw [max_eq_right h0.le]
        positivity
      · exact ENNReal.ofReal_ne_top
    · rw [Set.indicator_of_notMem (show L ∉ B ∩ {L | 0 < Spec.reach F L} from fun h => h0 h.2)]
      unfold Spec.ballVolume
      rw [max_eq_left (not_lt.1 h0)]
      simp
  · rw [Set.indicator_of_notMem hL, mul_zero,
      Set.indicator_of_notMem (show L ∉ B ∩ {L | 0 < Spec.reach F L} from fun h => hL h.1)]

/-- **C93 is violated** with the volumes of textbooks: if fluxes were `L / 4πr²`, an object would
be detected in a ball of radius `√(L / 4πF)`.  With these volumes, the number of objects per unit
volume is underestimated by a factor of at least eight if no luminosity exceeds `16πF`. -/
theorem C93_violated_textbook (hb : ∀ᵐ L ∂μL, 0 < L ∧ L ≤ 16 * Real.pi * F) (showProgress : Bool)
    (galB : List ℝ → List ℝ → List ℝ) :
    ∃ D : G → List ℝ,
      (∀ᵐ g ∂P, ∀ᶠ k in atTop, ∃ Q s' d,
        drawSurvey (Spec.surveyEnv e env constantSpherical.code showProgress tr galB k g) y a s =
          .ok Q s' ∧ (Q.luminosities.toSVar .float).selected = .ok d ∧ d.latent = D g) ∧
      ∫⁻ g, ((D g).map fun L => (ENNReal.ofReal (Spec.ballVolume (Spec.euclidReach F L)))⁻¹).sum ∂P ≤
        ENNReal.ofReal (lambda / 8) := by
  have i1 := h.lumProb
  obtain ⟨D, h1, h2⟩ := C93_sums hF hl h hs hg hq hc hin showProgress galB
  refine ⟨D, h1, ?_⟩
  have hp := Real.pi_pos
  have hv : Measurable fun L => (ENNReal.ofReal (Spec.ballVolume (Spec.euclidReach F L)))⁻¹ := by
    unfold Spec.ballVolume Spec.euclidReach
    fun_prop
  rw [h2 _ hv]
  have e1 : ENNReal.ofReal (lambda / 8) = ∫⁻ _, ENNReal.ofReal (lambda / 8) ∂μL := by simp
  rw [e1]
  refine lintegral_mono_ae (hb.mono fun L hL => ?_)
  set x := √(L / (4 * Real.pi * F)) with hx
  have x0 : 0 < x := Real.sqrt_pos.2 (div_pos hL.1 (by positivity))
  have x2 : x ≤ 2 := by
    rw [hx, Real.sqrt_le_left (by norm_num), div_le_iff₀ (by positivity)]
    linarith [hL.2]
  have k1 : Spec.reach F L = x - 1 := rfl
  have k2 : Spec.euclidReach F L = x := rfl
  have hpos : 0 < Spec.ballVolume x := by
    unfold Spec.ballVolume
    rw [max_eq_right x0.le]; positivity
  have key : max 0 (x - 1) ^ 3 ≤ (x / 2) ^ 3 := by
    refine pow_le_pow_left₀ (le_max_left _ _) (max_le (by positivity) (by linarith)) 3
  rw [k1, k2, ← ENNReal.ofReal_inv_of_pos hpos, ← ENNReal.ofReal_mul' (by positivity)]
  refine ENNReal.ofReal_le_ofReal ?_
  rw [← div_eq_mul_inv, div_le_iff₀ hpos]
  unfold Spec.ballVolume
  rw [max_eq_right x0.le]
  calc lambda * (4 / 3 * Real.pi * max 0 (x - 1) ^ 3) ≤ lambda * (4 / 3 * Real.pi * (x / 2) ^ 3) := by gcongr
    _ = lambda / 8 * (4 / 3 * Real.pi * x ^ 3) := by ring

end sphere

namespace LawExample

/-- Five objects per unit volume, luminosities from 1 to 10 and a flux limit of 1/100: the sum of
`1/Vmax` over the detected objects has mean five. -/
example (showProgress : Bool) : ∃ D : (ℕ → Triple) → List ℝ,
    (∀ᵐ g ∂seeds, ∀ᶠ k in atTop, ∃ Q s' d,
      drawSurvey (Spec.surveyEnv survey2 LawExample.env constantSpherical.code showProgress
          (fun ls ds => .ok (List.zipWith sphericalFluxes ls ds)) (fun a _ => a) k g)
          synth {} state2 = .ok Q s' ∧ (Q.luminosities.toSVar .float).selected = .ok d ∧ d.latent = D g) ∧
    ∫⁻ g, ((D g).map fun L => (ENNReal.ofReal (Spec.ballVolume (Spec.reach (1 / 100) L)))⁻¹).sum ∂seeds = 5 := by
  have hp := Real.pi_gt_three
  have hp4 := Real.pi_lt_four
  have i1 := luminous2.1
  have h1 : ∀ᵐ L ∂lums, L ∈ Set.Icc (1 : ℝ) 10 :=
    (withDensity_absolutelyContinuous _ _).ae_le (ae_restrict_mem measurableSet_Icc)
  obtain ⟨D, h2, h3⟩ := C93_unbiased (F := 1 / 100) (by norm_num) (by norm_num) lawful2 rfl gridMax (by
      rw [← counted.mean]
      simp only [constantSpherical_dens, sphereVolume]
      rw [show (fun r : ℝ => 5 * (4 * Real.pi * r * r) / 1) = fun r => 20 * Real.pi * r ^ 2 by
        funext r; ring, intervalIntegral.integral_const_mul, integral_pow]
      show (20000 * Real.pi / 3 : ℝ) = _
      norm_num
      ring)
    ⟨rfl, counted.poisson, counted.mean⟩ (by
      filter_upwards [h1] with L hL
      unfold Spec.reach
      have : √(L / (4 * Real.pi * (1 / 100))) ≤ 11 := by
        rw [Real.sqrt_le_left (by norm_num), div_le_iff₀ (by positivity)]
        nlinarith [hL.2]
      linarith) showProgress fun a _ => a
  refine ⟨D, h2, ?_⟩
  have h4 := h3 Set.univ MeasurableSet.univ
  simp only [Set.indicator_univ, Set.univ_inter] at h4
  rw [h4, (prob_compl_eq_zero_iff₀ ?_).1 (ae_iff.1 ?_)]
  · simp
  · exact (measurableSet_lt measurable_const (by unfold Spec.reach; fun_prop)).nullMeasurableSet
  · filter_upwards [h1] with L hL
    unfold Spec.reach
    rw [sub_pos, Real.lt_sqrt (by norm_num), lt_div_iff₀ (by positivity)]
    nlinarith [hL.1]

end LawExample
end Popsynth
