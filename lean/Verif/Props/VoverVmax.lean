import Verif.Props.Vmax

/-!
# The V/Vmax test (C94)
-/

set_option autoImplicit false
set_option linter.unusedSectionVars false

open MeasureTheory Filter
open scoped NNReal ENNReal

namespace Popsynth

/-- The objects up to a distance that depends on the luminosity. -/
theorem ball_integral {μL : Measure ℝ} [SFinite μL] {lambda rm : ℝ} (hl : 0 ≤ lambda) {H : ℝ → ℝ}
    (hH : Measurable H) (hin : ∀ᵐ L ∂μL, H L ≤ rm) :
    ∫⁻ r in Set.Icc 0 rm, ENNReal.ofReal (constantSpherical.dens [lambda] r) * μL {l | r ≤ H l} =
      ∫⁻ L, ENNReal.ofReal (lambda * Spec.ballVolume (H L)) ∂μL := by
  have hd : Measurable fun r => ENNReal.ofReal (constantSpherical.dens [lambda] r) := by
    rw [constantSpherical_dens]; unfold sphereVolume; fun_prop
  have hA : MeasurableSet {q : ℝ × ℝ | q.1 ≤ H q.2} :=
    measurableSet_le measurable_fst (hH.comp measurable_snd)
  have e1 : ∀ r, ENNReal.ofReal (constantSpherical.dens [lambda] r) * μL {l | r ≤ H l} =
      ∫⁻ L, {q : ℝ × ℝ | q.1 ≤ H q.2}.indicator
        (fun q => ENNReal.ofReal (constantSpherical.dens [lambda] q.1)) (r, L) ∂μL := fun r => by
    have hs : MeasurableSet {l | r ≤ H l} := measurable_prodMk_left hA
    rw [← lintegral_indicator_const hs]
    rfl
  rw [lintegral_congr e1, lintegral_lintegral_swap]
  · refine lintegral_congr_ae (hin.mono fun L hL => ?_)
    have e2 : ∀ r, {q : ℝ × ℝ | q.1 ≤ H q.2}.indicator
        (fun q => ENNReal.ofReal (constantSpherical.dens [lambda] q.1)) (r, L) =
        (Set.Iic (H L)).indicator
          (fun r => ENNReal.ofReal (constantSpherical.dens [lambda] r)) r := fun r => rfl
    simp only [e2]
    unfold Spec.ballVolume
    rw [lintegral_indicator measurableSet_Iic, Measure.restrict_restrict measurableSet_Iic]
    by_cases h0 : 0 ≤ H L
    · have : Set.Iic (H L) ∩ Set.Icc 0 rm = Set.Icc 0 (H L) := by
        ext r
        simp only [Set.mem_inter_iff, Set.mem_Iic, Set.mem_Icc]
        exact ⟨fun h => ⟨h.2.1, h.1⟩, fun h => ⟨h.2, h.1, h.2.trans hL⟩⟩
      rw [this, sphere_integral hl h0, max_eq_right h0]
    · have : Set.Iic (H L) ∩ Set.Icc 0 rm = ∅ := by
        ext r
        refine ⟨fun h => h0 (h.2.1.trans h.1), fun h => h.elim⟩
      rw [this, max_eq_left (not_le.1 h0).le]
      simp
  · exact Measurable.aemeasurable ((hd.comp measurable_fst).indicator hA)

/-- The share of the ball of its horizon that lies nearer than an object. -/
noncomputable def Spec.volumeShare (F L r : ℝ) : ℝ := (r / Spec.reach F L) ^ 3

theorem uniform_Iic (t : ℝ) : Spec.uniformLaw 1 (Set.Iic t) = ENNReal.ofReal (max 0 (min 1 t)) := by
  unfold Spec.uniformLaw
  rw [Measure.smul_apply, Measure.restrict_apply measurableSet_Iic]
  have : Set.Iic t ∩ Set.Icc 0 1 = Set.Icc 0 (min 1 t) := by
    ext u
    simp only [Set.mem_inter_iff, Set.mem_Iic, Set.mem_Icc, le_min_iff]
    tauto
  rw [this, Real.volume_Icc, sub_zero]
  rcases le_total 0 (min 1 t) with h | h
  · rw [max_eq_right h]; simp
  · rw [max_eq_left h, ENNReal.ofReal_of_nonpos h]; simp

/-- Being seen, and lying in the nearer part of the ball of the horizon. -/
theorem share_iff {F L r t : ℝ} (hr : 0 < r) (ht : 0 ≤ t) :
    (Spec.volumeShare F L r ≤ t ∧ r ≤ Spec.reach F L) ↔
      r ≤ Spec.reach F L * (min 1 t) ^ (1 / 3 : ℝ) := by
  have hm : 0 ≤ min 1 t := le_min zero_le_one ht
  have h3 : ((min 1 t) ^ (1 / 3 : ℝ)) ^ 3 = min 1 t := by
    rw [← Real.rpow_natCast, ← Real.rpow_mul hm]; norm_num
  have hc : 0 ≤ (min 1 t) ^ (1 / 3 : ℝ) := Real.rpow_nonneg hm _
  by_cases h : 0 < Spec.reach F L
  · have e1 : r ≤ Spec.reach F L * (min 1 t) ^ (1 / 3 : ℝ) ↔
        r / Spec.reach F L ≤ (min 1 t) ^ (1 / 3 : ℝ) := by rw [div_le_iff₀ h, mul_comm]
    have e2 : r / Spec.reach F L ≤ (min 1 t) ^ (1 / 3 : ℝ) ↔ (r / Spec.reach F L) ^ 3 ≤ min 1 t := by
      have h4 := pow_le_pow_iff_left₀ (div_nonneg hr.le h.le) hc (n := 3) (by norm_num)
      rw [h3] at h4
      exact h4.symm
    have e3 : (r / Spec.reach F L) ^ 3 ≤ 1 ↔ r ≤ Spec.reach F L := by
      rw [← div_le_one h]
      exact pow_le_one_iff_of_nonneg (by positivity) (by norm_num)
    rw [e1, e2, le_min_iff, e3]
    exact and_comm
  · have h0 := not_lt.1 h
    refine ⟨fun hh => absurd (hr.trans_le hh.2) h, fun hh => ?_⟩
    have := mul_nonpos_of_nonpos_of_nonneg h0 hc
    linarith

variable {G : Type} [MeasurableSpace G] {P : Measure G} [IsProbabilityMeasure P]
  {e : SurveyEnv ℝ G} {env : DistEnv ℝ G}
  {tr : List ℝ → List ℝ → Except Err (List ℝ)} {y : Synth ℝ} {a : SurveyArgs ℝ} {s : SurvSt ℝ G}
  {rm m lambda F : ℝ} {Λ : ℝ≥0} {μL : Measure ℝ} (hF : 0 < F) (hl : 0 ≤ lambda)
  (h : Spec.Lawful P e env constantSpherical tr y a s sphericalFluxes rm m [lambda] μL
    ((Set.Ici F).indicator 1))
  (hs : Spec.sigmaUsed (s.heap.selectors y.fluxSel).kind a = none)
  (hg : Spec.GridMax env)
  (hq : (env.quad rm).eval (constantSpherical.dens [lambda]) =
    ∫ r in (0)..rm, constantSpherical.dens [lambda] r)
  (hc : Spec.Counted P e env constantSpherical a rm [lambda] Λ)
  (hin : ∀ᵐ L ∂μL, Spec.reach F L ≤ rm)

theorem share_measurable (F : ℝ) : Measurable fun q : ℝ × ℝ => Spec.volumeShare F q.2 q.1 := by
  unfold Spec.volumeShare Spec.reach
  fun_prop

include hF hl h hs hg hq hc hin

theorem share_intensity :
    ((Spec.intensity y a s constantSpherical rm m [lambda] Λ μL).withDensity
      (Spec.detection e y a s sphericalFluxes ((Set.Ici F).indicator 1))).map
      (fun x => Spec.volumeShare F x.luminosity x.distance) =
    (Spec.ballCounts lambda (Spec.reach F) μL) • Spec.uniformLaw 1 := by
  have i1 := h.lumProb
  obtain ⟨hm, hΛ⟩ := sphere_mean hl h hg hq hc
  have i2 := h.intensity_finite (Λ := Λ)
  have i3 := finite_withDensity (Spec.intensity y a s constantSpherical rm m [lambda] Λ μL)
    (f := Spec.detection e y a s sphericalFluxes ((Set.Ici F).indicator 1)) (fun x => h.le_one _)
  have hms : Measurable fun x : Spec.SkySource => Spec.volumeShare F x.luminosity x.distance :=
    (share_measurable F).comp (SkySource.measurable_distance.prodMk SkySource.measurable_luminosity)
  have hr : Measurable (Spec.reach F) := by unfold Spec.reach; fun_prop
  refine Measure.ext_of_Iic _ _ fun t => ?_
  rw [Measure.map_apply hms measurableSet_Iic, withDensity_apply _ (hms measurableSet_Iic),
    Measure.smul_apply, uniform_Iic, smul_eq_mul]
  have hB : MeasurableSet {b : ℝ × ℝ | Spec.volumeShare F b.2 b.1 ≤ t} :=
    share_measurable F measurableSet_Iic
  refine (intensity_lintegral (Λ := Λ) h hB h.detection_measurable).trans ?_
  rw [hs]
  simp only [Spec.noiseLaw, lintegral_dirac, Spec.observed]
  have hE : MeasurableSet {q : ℝ × ℝ | Spec.volumeShare F q.2 q.1 ≤ t ∧ F ≤ sphericalFluxes q.2 q.1} :=
    hB.inter (measurableSet_le measurable_const (sphericalFluxes_measurable.comp measurable_swap))
  have e1 : ∀ r : ℝ, ∫⁻ l, {b : ℝ × ℝ | Spec.volumeShare F b.2 b.1 ≤ t}.indicator (fun _ =>
      (Set.Ici F).indicator (1 : ℝ → ℝ≥0∞) (sphericalFluxes l r)) (r, l) ∂μL =
      μL {l | Spec.volumeShare F l r ≤ t ∧ F ≤ sphericalFluxes l r} := fun r => by
    have hs : MeasurableSet {l | Spec.volumeShare F l r ≤ t ∧ F ≤ sphericalFluxes l r} :=
      measurable_prodMk_left hE
    rw [← lintegral_indicator_one hs]
    refine lintegral_congr fun l => ?_
    by_cases h1 : Spec.volumeShare F l r ≤ t <;> by_cases h2 : F ≤ sphericalFluxes l r <;>
      simp [Set.indicator, h1, h2]
  simp only [e1]
  have hM : Measurable fun r : ℝ => μL {l | Spec.volumeShare F l r ≤ t ∧ F ≤ sphericalFluxes l r} :=
    measurable_measure_prodMk_left hE
  rw [distance_lintegral h hm hΛ hM]
  by_cases ht : 0 ≤ t
  · have hc0 : 0 ≤ (min 1 t) ^ (1 / 3 : ℝ) := Real.rpow_nonneg (le_min zero_le_one ht) _
    have hc1 : (min 1 t) ^ (1 / 3 : ℝ) ≤ 1 :=
      Real.rpow_le_one (le_min zero_le_one ht) (min_le_left _ _) (by norm_num)
    have e2 : ∫⁻ r in Set.Icc 0 rm, ENNReal.ofReal (constantSpherical.dens [lambda] r) *
        μL {l | Spec.volumeShare F l r ≤ t ∧ F ≤ sphericalFluxes l r} =
        ∫⁻ r in Set.Icc 0 rm, ENNReal.ofReal (constantSpherical.dens [lambda] r) *
          μL {l | r ≤ Spec.reach F l * (min 1 t) ^ (1 / 3 : ℝ)} := by
      rw [← Measure.restrict_congr_set Ioc_ae_eq_Icc]
      refine setLIntegral_congr_fun measurableSet_Ioc fun r hr => ?_
      have : {l | Spec.volumeShare F l r ≤ t ∧ F ≤ sphericalFluxes l r} =
          {l | r ≤ Spec.reach F l * (min 1 t) ^ (1 / 3 : ℝ)} := by
        ext l
        rw [Set.mem_setOf_eq, bright_iff hF hr.1.le]
        exact share_iff hr.1 ht
      simp only [this]
    have hin' : ∀ᵐ L ∂μL, Spec.reach F L * (min 1 t) ^ (1 / 3 : ℝ) ≤ rm := hin.mono fun L hL => by
      have := h.radius.2
      rcases le_total 0 (Spec.reach F L) with h0 | h0
      · exact (mul_le_of_le_one_right h0 hc1).trans hL
      · exact (mul_nonpos_of_nonpos_of_nonneg h0 hc0).trans this.le
    rw [e2, ball_integral hl (by fun_prop) hin', max_eq_right (le_min zero_le_one ht)]
    unfold Spec.ballCounts
    rw [← lintegral_mul_const]
    · refine lintegral_congr fun L => ?_
      have h3 : ((min 1 t) ^ (1 / 3 : ℝ)) ^ 3 = min 1 t := by
        rw [← Real.rpow_natCast, ← Real.rpow_mul (le_min zero_le_one ht)]; norm_num
      have hp := Real.pi_pos
      rw [← ENNReal.ofReal_mul (by positivity)]
      congr 1
      unfold Spec.ballVolume
      have : max 0 (Spec.reach F L * (min 1 t) ^ (1 / 3 : ℝ)) =
          max 0 (Spec.reach F L) * (min 1 t) ^ (1 / 3 : ℝ) := by
        rw [max_mul_of_nonneg _ _ hc0, zero_mul]
      rw [this, mul_pow, h3]
      ring
    · fun_prop
  · have ht' := not_le.1 ht
    rw [max_eq_left ((min_le_right 1 t).trans ht'.le), ENNReal.ofReal_zero, mul_zero]
    rw [← Measure.restrict_congr_set Ioc_ae_eq_Icc]
    refine (setLIntegral_congr_fun (g := fun _ => 0) measurableSet_Ioc fun r hr => ?_).trans (by simp)
    have : {l | Spec.volumeShare F l r ≤ t ∧ F ≤ sphericalFluxes l r} = ∅ := by
      ext l
      refine ⟨fun hl => ?_, fun hl => hl.elim⟩
      have h1 := (bright_iff hF hr.1.le).1 hl.2
      have h2 : 0 < Spec.reach F l := hr.1.trans_le h1
      have h3 : 0 ≤ Spec.volumeShare F l r := by
        have := hr.1
        unfold Spec.volumeShare
        positivity
      exact absurd (h3.trans hl.1) ht
    simp only [this, measure_empty, mul_zero]

/-- **C94**: in a flux-limited survey of a sphere of constant density, `V/Vmax` of the detected
objects is uniform between zero and one: a Poisson number of independent uniform numbers. -/
theorem C94_uniform (showProgress : Bool) (galB : List ℝ → List ℝ → List ℝ) :
    Spec.Samples P (Spec.poissonSample (Spec.ballCounts lambda (Spec.reach F) μL).toNNReal
        (Spec.uniformLaw 1))
      fun k g v g' => ∃ Q s' dl dr,
        drawSurvey (Spec.surveyEnv e env constantSpherical.code showProgress tr galB k g) y a s =
          .ok Q s' ∧ s'.heap.rng = g' ∧ (Q.luminosities.toSVar .float).selected = .ok dl ∧
        (Q.distances.toSVar .float).selected = .ok dr ∧
        List.zipWith (Spec.volumeShare F) dl.latent dr.latent = v := by
  have i1 := h.lumProb
  have i2 := h.intensity_finite (Λ := Λ)
  have i3 := finite_withDensity (Spec.intensity y a s constantSpherical rm m [lambda] Λ μL)
    (f := Spec.detection e y a s sphericalFluxes ((Set.Ici F).indicator 1)) (fun x => h.le_one _)
  have i4 := finite_withDensity (Spec.intensity y a s constantSpherical rm m [lambda] Λ μL)
    (f := fun x => 1 - Spec.detection e y a s sphericalFluxes ((Set.Ici F).indicator 1) x)
    (fun x => tsub_le_self)
  have i5 := uniformLaw_prob (h := 1) one_pos
  have hi := share_intensity hF hl h hs hg hq hc hin
  have hfin : Spec.ballCounts lambda (Spec.reach F) μL ≠ ⊤ := by
    have h1 := congrArg (fun μ : Measure ℝ => μ Set.univ) hi
    simp only [Measure.smul_apply, measure_univ, smul_eq_mul, mul_one] at h1
    rw [← h1]
    exact measure_ne_top _ _
  have hms : Measurable fun x : Spec.SkySource => Spec.volumeShare F x.luminosity x.distance :=
    (share_measurable F).comp (SkySource.measurable_distance.prodMk SkySource.measurable_luminosity)
  refine Samples.mapTo (C75_thinning h hc showProgress galB)
    (f := fun v => v.1.map fun x => Spec.volumeShare F x.luminosity x.distance)
    ⟨(measurable_map_list hms).comp measurable_fst, ?_⟩ ?_
  · rw [← Function.comp_def (List.map fun x : Spec.SkySource => Spec.volumeShare F x.luminosity x.distance)
      Prod.fst, ← Measure.map_map (measurable_map_list hms) measurable_fst,
      measurePreserving_fst.map_eq, process_map _ hms, hi, sample_process]
    congr 1
    rw [show ((Spec.ballCounts lambda (Spec.reach F) μL).toNNReal • Spec.uniformLaw 1 : Measure ℝ) =
      ((Spec.ballCounts lambda (Spec.reach F) μL).toNNReal : ℝ≥0∞) • Spec.uniformLaw 1 from rfl,
      ENNReal.coe_toNNReal hfin]
  · rintro k g v g' ⟨Q, s', q1, q2, q3⟩
    obtain ⟨⟨dl, a1, b1⟩, -, ⟨dr, a2, b2⟩, -⟩ := selected_obs q3
    refine ⟨Q, s', dl, dr, q1, q2, a1, a2, ?_⟩
    rw [b1, b2]
    simp [List.zipWith_map]

omit hF hl h hs hg hq hc hin in
theorem uniform_mean : ∫⁻ u, ENNReal.ofReal u ∂(Spec.uniformLaw 1) = 2⁻¹ := by
  unfold Spec.uniformLaw
  rw [lintegral_smul_measure, ← ofReal_integral_eq_lintegral_ofReal]
  · rw [integral_Icc_eq_integral_Ioc, ← intervalIntegral.integral_of_le zero_le_one, integral_id]
    norm_num
    rw [ENNReal.ofReal_div_of_pos (by norm_num)]
    simp
  · exact (continuous_id.integrableOn_Icc)
  · filter_upwards [ae_restrict_mem measurableSet_Icc] with u hu using hu.1

/-- **C94** (mean): the mean over the seeds of the sum of `V/Vmax` over the detected objects is one
half of the mean number of detected objects. -/
theorem C94_half (showProgress : Bool) (galB : List ℝ → List ℝ → List ℝ) :
    ∃ D : G → List ℝ,
      (∀ᵐ g ∂P, ∀ᶠ k in atTop, ∃ Q s' dl dr,
        drawSurvey (Spec.surveyEnv e env constantSpherical.code showProgress tr galB k g) y a s =
          .ok Q s' ∧ (Q.luminosities.toSVar .float).selected = .ok dl ∧
        (Q.distances.toSVar .float).selected = .ok dr ∧
        List.zipWith (Spec.volumeShare F) dl.latent dr.latent = D g) ∧
      ∫⁻ g, (D g).length ∂P = Spec.ballCounts lambda (Spec.reach F) μL ∧
      ∫⁻ g, ((D g).map ENNReal.ofReal).sum ∂P = Spec.ballCounts lambda (Spec.reach F) μL / 2 := by
  have i1 := h.lumProb
  have i2 := h.intensity_finite (Λ := Λ)
  have i3 := finite_withDensity (Spec.intensity y a s constantSpherical rm m [lambda] Λ μL)
    (f := Spec.detection e y a s sphericalFluxes ((Set.Ici F).indicator 1)) (fun x => h.le_one _)
  have i5 := uniformLaw_prob (h := 1) one_pos
  have hi := share_intensity hF hl h hs hg hq hc hin
  have hfin : Spec.ballCounts lambda (Spec.reach F) μL ≠ ⊤ := by
    have h1 := congrArg (fun μ : Measure ℝ => μ Set.univ) hi
    simp only [Measure.smul_apply, measure_univ, smul_eq_mul, mul_one] at h1
    rw [← h1]
    exact measure_ne_top _ _
  have hN : ((Spec.ballCounts lambda (Spec.reach F) μL).toNNReal : ℝ≥0∞) =
    Spec.ballCounts lambda (Spec.reach F) μL := ENNReal.coe_toNNReal hfin
  obtain ⟨T, hT, hR⟩ := C94_uniform hF hl h hs hg hq hc hin showProgress galB
  rw [sample_process] at hT
  have key : ∀ w : ℝ → ℝ≥0∞, Measurable w → ∫⁻ g, (((T g).1).map w).sum ∂P =
      Spec.ballCounts lambda (Spec.reach F) μL * ∫⁻ u, w u ∂(Spec.uniformLaw 1) := fun w hw => by
    have h1 := (measurePreserving_fst.comp hT).lintegral_comp (measurable_sum_map hw)
    refine h1.trans ?_
    rw [process_sum _ hw]
    refine (lintegral_smul_measure ..).trans ?_
    rw [← hN]
    rfl
  refine ⟨fun g => (T g).1, ?_, ?_, ?_⟩
  · filter_upwards [hR] with g hg
    filter_upwards [hg] with k hk
    obtain ⟨Q, s', dl, dr, q1, -, q2, q3, q4⟩ := hk
    exact ⟨Q, s', dl, dr, q1, q2, q3, q4⟩
  · have := key (fun _ => 1) measurable_const
    simpa using this
  · rw [key _ ENNReal.measurable_ofReal, ENNReal.div_eq_inv_mul, mul_comm]
    rw [uniform_mean]

/-- **C94 is violated** with the volumes of textbooks: with the ball of radius `√(L / 4πF)` in which
an object would be detected if fluxes were `L / 4πr²`, the mean of the sum of `V/Vmax` is at most one
sixteenth of the mean number of detected objects if no luminosity exceeds `16πF`. -/
theorem C94_violated_textbook (hb : ∀ᵐ L ∂μL, 0 < L ∧ L ≤ 16 * Real.pi * F) (showProgress : Bool)
    (galB : List ℝ → List ℝ → List ℝ) :
    ∃ D : G → List ℝ,
      (∀ᵐ g ∂P, ∀ᶠ k in atTop, ∃ Q s' dl dr,
        drawSurvey (Spec.surveyEnv e env constantSpherical.code showProgress tr galB k g) y a s =
          .ok Q s' ∧ (Q.luminosities.toSVar .float).selected = .ok dl ∧
        (Q.distances.toSVar .float).selected = .ok dr ∧
        List.zipWith (fun L r => (r / Spec.euclidReach F L) ^ 3) dl.latent dr.latent = D g) ∧
      ∫⁻ g, (D g).length ∂P = Spec.ballCounts lambda (Spec.reach F) μL ∧
      ∫⁻ g, ((D g).map ENNReal.ofReal).sum ∂P ≤ Spec.ballCounts lambda (Spec.reach F) μL / 16 := by
  have i1 := h.lumProb
  have i2 := h.intensity_finite (Λ := Λ)
  set κ := (Spec.intensity y a s constantSpherical rm m [lambda] Λ μL).withDensity
    (Spec.detection e y a s sphericalFluxes ((Set.Ici F).indicator 1)) with hκ
  have i3 : IsFiniteMeasure κ :=
    finite_withDensity (Spec.intensity y a s constantSpherical rm m [lambda] Λ μL)
    (f := Spec.detection e y a s sphericalFluxes ((Set.Ici F).indicator 1)) (fun x => h.le_one _)
  have i4 := finite_withDensity (Spec.intensity y a s constantSpherical rm m [lambda] Λ μL)
    (f := fun x => 1 - Spec.detection e y a s sphericalFluxes ((Set.Ici F).indicator 1) x)
    (fun x => tsub_le_self)
  have i5 := uniformLaw_prob (h := 1) one_pos
  have hi := share_intensity hF hl h hs hg hq hc hin
  have hms : Measurable fun x : Spec.SkySource => Spec.volumeShare F x.luminosity x.distance :=
    (share_measurable F).comp (SkySource.measurable_distance.prodMk SkySource.measurable_luminosity)
  have hmt : Measurable fun x : Spec.SkySource => (x.distance / Spec.euclidReach F x.luminosity) ^ 3 := by
    have := SkySource.measurable_distance
    have := SkySource.measurable_luminosity
    unfold Spec.euclidReach
    fun_prop
  obtain ⟨T, hT, hR⟩ := C75_thinning h hc showProgress galB
  have key : ∀ w : Spec.SkySource → ℝ≥0∞, Measurable w → ∫⁻ g, (((T g).1.1).map w).sum ∂P =
      ∫⁻ x, w x ∂κ := fun w hw => by
    have h1 := (measurePreserving_fst.comp (measurePreserving_fst.comp hT)).lintegral_comp
      (measurable_sum_map hw)
    refine h1.trans ?_
    rw [process_sum _ hw]
  have hmean : ∀ w : ℝ → ℝ≥0∞, Measurable w → ∫⁻ x, w (Spec.volumeShare F x.luminosity x.distance) ∂κ =
      Spec.ballCounts lambda (Spec.reach F) μL * ∫⁻ u, w u ∂(Spec.uniformLaw 1) := fun w hw => by
    rw [← lintegral_map hw hms, hκ, hi, lintegral_smul_measure]
    rfl
  refine ⟨fun g => (T g).1.1.map fun x => (x.distance / Spec.euclidReach F x.luminosity) ^ 3, ?_, ?_, ?_⟩
  · filter_upwards [hR] with g hg
    filter_upwards [hg] with k hk
    obtain ⟨Q, s', q1, -, q3⟩ := hk
    obtain ⟨⟨dl, a1, b1⟩, -, ⟨dr, a2, b2⟩, -⟩ := selected_obs q3
    refine ⟨Q, s', dl, dr, q1, a1, a2, ?_⟩
    rw [b1, b2]
    simp [List.zipWith_map]
  · have h1 := key (fun _ => 1) measurable_const
    have h2 := hmean (fun _ => 1) measurable_const
    rw [h2] at h1
    simpa using h1
  · simp only [List.map_map]
    rw [key _ (ENNReal.measurable_ofReal.comp hmt)]
    have h2 := hmean (fun u => ENNReal.ofReal u / 8) (by fun_prop)
    have h3 : ∫⁻ u, ENNReal.ofReal u / 8 ∂(Spec.uniformLaw 1) = 16⁻¹ := by
      simp only [div_eq_mul_inv]
      rw [lintegral_mul_const _ ENNReal.measurable_ofReal, uniform_mean, ← ENNReal.mul_inv (by simp) (by simp)]
      norm_num
    rw [h3] at h2
    rw [div_eq_mul_inv, ← h2]
    refine lintegral_mono_ae ?_
    have hre : Measurable fun b : ℝ × ℝ => Spec.reach F b.2 := by unfold Spec.reach; fun_prop
    have hB : MeasurableSet {b : ℝ × ℝ | ¬(0 < b.1 ∧ b.1 ≤ Spec.reach F b.2 ∧ Spec.reach F b.2 ≤ 1)} := by
      have b1 : MeasurableSet {b : ℝ × ℝ | 0 < b.1} := measurableSet_lt measurable_const measurable_fst
      have b2 : MeasurableSet {b : ℝ × ℝ | b.1 ≤ Spec.reach F b.2} := measurableSet_le measurable_fst hre
      have b3 : MeasurableSet {b : ℝ × ℝ | Spec.reach F b.2 ≤ 1} := measurableSet_le hre measurable_const
      exact (b1.inter (b2.inter b3)).compl
    have hBs : MeasurableSet {x : Spec.SkySource | (x.distance, x.luminosity) ∈
        {b : ℝ × ℝ | ¬(0 < b.1 ∧ b.1 ≤ Spec.reach F b.2 ∧ Spec.reach F b.2 ≤ 1)}} :=
      (SkySource.measurable_distance.prodMk SkySource.measurable_luminosity) hB
    have h0 : κ {x | (x.distance, x.luminosity) ∈
        {b : ℝ × ℝ | ¬(0 < b.1 ∧ b.1 ≤ Spec.reach F b.2 ∧ Spec.reach F b.2 ≤ 1)}} = 0 := by
      rw [hκ, withDensity_apply _ hBs]
      refine (intensity_lintegral (Λ := Λ) h hB h.detection_measurable).trans ?_
      have hmem := densityLaw_mem (f := fun r => min (constantSpherical.dens [lambda] r) m) rm
        ?_
      · rw [lintegral_congr_ae (g := fun _ => 0) (hmem.mono fun r hr => ?_)]
        · simp
        rw [lintegral_congr_ae (g := fun _ => 0) (hb.mono fun L hL => ?_)]
        · simp
        rw [hs]
        simp only [Spec.noiseLaw, lintegral_dirac, Spec.observed]
        have hr1 : Spec.reach F L ≤ 1 := by
          have hp := Real.pi_pos
          have : √(L / (4 * Real.pi * F)) ≤ 2 := by
            rw [Real.sqrt_le_left (by norm_num), div_le_iff₀ (by positivity)]
            linarith [hL.2]
          unfold Spec.reach
          linarith
        by_cases hr2 : r ≤ Spec.reach F L
        · have hn : (r, L) ∉ {b : ℝ × ℝ | ¬(0 < b.1 ∧ b.1 ≤ Spec.reach F b.2 ∧ Spec.reach F b.2 ≤ 1)} :=
            fun hn => hn ⟨hr.1, hr2, hr1⟩
          exact Set.indicator_of_notMem hn _
        · have : ¬ F ≤ sphericalFluxes L r := fun hn => hr2 ((bright_iff hF hr.1.le).1 hn)
          simp [Set.indicator, this]
      · rw [constantSpherical_dens]; unfold sphereVolume; fun_prop
    have h4 : ∀ᵐ x ∂κ, 0 < x.distance ∧ x.distance ≤ Spec.reach F x.luminosity ∧
        Spec.reach F x.luminosity ≤ 1 := h0
    filter_upwards [h4] with x hx
    obtain ⟨x1, x2, x3⟩ := hx
    have x4 : 0 < Spec.reach F x.luminosity := x1.trans_le x2
    have x5 : Spec.euclidReach F x.luminosity = Spec.reach F x.luminosity + 1 := by
      unfold Spec.euclidReach Spec.reach; ring
    rw [Function.comp_apply, show (8 : ℝ≥0∞) = ENNReal.ofReal 8 by norm_num,
      ← ENNReal.ofReal_div_of_pos (by norm_num), x5]
    refine ENNReal.ofReal_le_ofReal ?_
    have x6 : x.distance / (Spec.reach F x.luminosity + 1) ≤
        x.distance / Spec.reach F x.luminosity / 2 := by
      rw [div_div]
      exact div_le_div_of_nonneg_left x1.le (by positivity) (by linarith)
    calc (x.distance / (Spec.reach F x.luminosity + 1)) ^ 3
        ≤ (x.distance / Spec.reach F x.luminosity / 2) ^ 3 := by gcongr
      _ = Spec.volumeShare F x.luminosity x.distance / 8 := by unfold Spec.volumeShare; ring

omit hF hl h hs hg hq hc hin

namespace LawExample

/-- Five objects per unit volume, luminosities from 1 to 10 and a flux limit of 1/100: `V/Vmax` is a
sample of uniform numbers. -/
example (showProgress : Bool) : Spec.Samples seeds
    (Spec.poissonSample (Spec.ballCounts 5 (Spec.reach (1 / 100)) lums).toNNReal (Spec.uniformLaw 1))
    fun k g v g' => ∃ Q s' dl dr,
      drawSurvey (Spec.surveyEnv survey2 LawExample.env constantSpherical.code showProgress
        (fun ls ds => .ok (List.zipWith sphericalFluxes ls ds)) (fun a _ => a) k g)
        synth {} state2 = .ok Q s' ∧ s'.heap.rng = g' ∧
      (Q.luminosities.toSVar .float).selected = .ok dl ∧
      (Q.distances.toSVar .float).selected = .ok dr ∧
      List.zipWith (Spec.volumeShare (1 / 100)) dl.latent dr.latent = v := by
  have hp := Real.pi_gt_three
  have h1 : ∀ᵐ L ∂lums, L ∈ Set.Icc (1 : ℝ) 10 :=
    (withDensity_absolutelyContinuous _ _).ae_le (ae_restrict_mem measurableSet_Icc)
  exact C94_uniform (F := 1 / 100) (by norm_num) (by norm_num) lawful2 rfl gridMax (by
      rw [← counted.mean]
      simp only [constantSpherical_dens, sphereVolume]
      rw [show (fun r : ℝ => 5 * (4 * Real.pi * r * r) / 1) = fun r => 20 * Real.pi * r ^ 2 by
        funext r; ring, intervalIntegral.integral_const_mul, integral_pow]
      show (20000 * Real.pi / 3 : ℝ) = _
      norm_num
      ring)
    ⟨rfl, counted.poisson, counted.mean⟩ (by
      filter_upwards [h1] with L hL
      unfold Spec.reach
      have : √(L / (4 * Real.pi * (1 / 100))) ≤ 11 := by
        rw [Real.sqrt_le_left (by norm_num), div_le_iff₀ (by positivity)]
        nlinarith [hL.2]
      linarith) showProgress fun a _ => a

end LawExample
end Popsynth
