import Verif.Props.LawCounts
import Verif.Props.LawDetect
import Verif.Props.LawSky
import Verif.Props.Cosmology

/-!
# Source counts of a sphere of constant density (C78)
-/

set_option autoImplicit false
set_option linter.unusedSectionVars false

open MeasureTheory
open scoped NNReal ENNReal

namespace Popsynth
variable {G : Type} [MeasurableSpace G] {P : Measure G} [IsProbabilityMeasure P]

/-- The mean number of objects brighter than `F` in a sphere with `lambda` objects per unit
volume, when an object of luminosity `L` is brighter than `F` up to the distance `horizon L`. -/
noncomputable def Spec.ballCounts (lambda : ℝ) (horizon : ℝ → ℝ) (μL : Measure ℝ) : ℝ≥0∞ :=
  ∫⁻ L, ENNReal.ofReal (lambda * (4 / 3 * Real.pi * max 0 (horizon L) ^ 3)) ∂μL

/-- The flux of `SphericalDistribution.transform`. -/
noncomputable def sphericalFluxes (L r : ℝ) : ℝ := (sphericalFlux L r).getD 0

theorem sphericalFluxes_eq {L r : ℝ} (hr : 0 ≤ r) :
    sphericalFluxes L r = L / (4 * Real.pi * (r + 1) ^ 2) := by
  unfold sphericalFluxes
  rw [sphericalFlux_eq hr, Option.getD_some]

theorem sphericalFluxes_measurable : Measurable fun q : ℝ × ℝ => sphericalFluxes q.1 q.2 := by
  have : (fun q : ℝ × ℝ => sphericalFluxes q.1 q.2) = fun q =>
      q.1 / (4 * Real.pi * (q.2 + 1) * (q.2 + 1)) := by
    funext q
    unfold sphericalFluxes sphericalFlux npDiv
    dsimp only
    split
    · next h => rw [h, div_zero]; rfl
    · rfl
  rw [this]
  fun_prop

theorem sphere_integral {lambda x : ℝ} (hl : 0 ≤ lambda) (hx : 0 ≤ x) :
    ∫⁻ r in Set.Icc 0 x, ENNReal.ofReal (constantSpherical.dens [lambda] r) =
      ENNReal.ofReal (lambda * (4 / 3 * Real.pi * x ^ 3)) := by
  have hp := Real.pi_pos
  have e : ∀ r, constantSpherical.dens [lambda] r = lambda * (4 * Real.pi) * r ^ 2 := fun r => by
    simp only [constantSpherical_dens, sphereVolume, div_one]; ring
  simp only [e]
  rw [← ofReal_integral_eq_lintegral_ofReal]
  · congr 1
    rw [integral_Icc_eq_integral_Ioc, ← intervalIntegral.integral_of_le hx,
      intervalIntegral.integral_const_mul, integral_pow]
    norm_num
    ring
  · exact (Continuous.integrableOn_Icc (by fun_prop))
  · exact Filter.Eventually.of_forall fun r => by
      show 0 ≤ lambda * (4 * Real.pi) * r ^ 2
      positivity

/-- An object is brighter than the limit up to its horizon. -/
theorem bright_iff {F L r : ℝ} (hF : 0 < F) (hr : 0 ≤ r) :
    F ≤ sphericalFluxes L r ↔ r ≤ √(L / (4 * Real.pi * F)) - 1 := by
  have hp := Real.pi_pos
  rw [sphericalFluxes_eq hr, le_div_iff₀ (by positivity), le_sub_iff_add_le,
    Real.le_sqrt' (by linarith), le_div_iff₀ (by positivity)]
  constructor <;> intro h <;> linarith

/-- **C78**: the mean number of objects above a flux limit in a sphere of constant density that
contains the horizons of all objects is the number in balls of the radius of the horizon, which
is `√(L / 4πF) - 1`. -/
theorem C78_counts {μL : Measure ℝ} [SFinite μL] {lambda F rm : ℝ}
    (hl : 0 ≤ lambda) (hF : 0 < F)
    (hin : ∀ᵐ L ∂μL, √(L / (4 * Real.pi * F)) - 1 ≤ rm)
    (obs : ℝ → ℝ → ℝ) (ho : ∀ f, obs f 0 = f) :
    Spec.expected (constantSpherical.dens [lambda]) rm sphericalFluxes μL none obs
        ((Set.Ici F).indicator 1) =
      Spec.ballCounts lambda (fun L => √(L / (4 * Real.pi * F)) - 1) μL := by
  rw [C77_flux_limit sphericalFluxes_measurable _ _ ho]
  have hd : Measurable fun r => ENNReal.ofReal (constantSpherical.dens [lambda] r) := by
    rw [constantSpherical_dens]; unfold sphereVolume; fun_prop
  have hA : MeasurableSet {q : ℝ × ℝ | F ≤ sphericalFluxes q.2 q.1} :=
    measurableSet_le measurable_const (sphericalFluxes_measurable.comp measurable_swap)
  have e1 : ∀ r, ENNReal.ofReal (constantSpherical.dens [lambda] r) * μL {l | F ≤ sphericalFluxes l r} =
      ∫⁻ L, {q : ℝ × ℝ | F ≤ sphericalFluxes q.2 q.1}.indicator
        (fun q => ENNReal.ofReal (constantSpherical.dens [lambda] q.1)) (r, L) ∂μL := fun r => by
    have hs : MeasurableSet {l | F ≤ sphericalFluxes l r} := measurable_prodMk_left hA
    rw [← lintegral_indicator_const hs]
    rfl
  rw [lintegral_congr e1, lintegral_lintegral_swap]
  · unfold Spec.ballCounts
    refine lintegral_congr_ae (hin.mono fun L hL => ?_)
    have e2 : ∀ r ∈ Set.Icc 0 rm, {q : ℝ × ℝ | F ≤ sphericalFluxes q.2 q.1}.indicator
        (fun q => ENNReal.ofReal (constantSpherical.dens [lambda] q.1)) (r, L) =
        (Set.Iic (√(L / (4 * Real.pi * F)) - 1)).indicator
          (fun r => ENNReal.ofReal (constantSpherical.dens [lambda] r)) r := fun r hr => by
      by_cases hb : F ≤ sphericalFluxes L r
      · rw [Set.indicator_of_mem (show (r, L) ∈ _ from hb),
          Set.indicator_of_mem (show r ∈ _ from (bright_iff hF hr.1).1 hb)]
      · rw [Set.indicator_of_notMem (show (r, L) ∉ _ from hb),
          Set.indicator_of_notMem (show r ∉ _ from fun h => hb ((bright_iff hF hr.1).2 h))]
    show ∫⁻ r in Set.Icc 0 rm, _ = ENNReal.ofReal (lambda * (4 / 3 * Real.pi *
      max 0 (√(L / (4 * Real.pi * F)) - 1) ^ 3))
    rw [setLIntegral_congr_fun measurableSet_Icc e2, lintegral_indicator measurableSet_Iic,
      Measure.restrict_restrict measurableSet_Iic]
    by_cases h0 : 0 ≤ √(L / (4 * Real.pi * F)) - 1
    · have : Set.Iic (√(L / (4 * Real.pi * F)) - 1) ∩ Set.Icc 0 rm =
          Set.Icc 0 (√(L / (4 * Real.pi * F)) - 1) := by
        ext r
        simp only [Set.mem_inter_iff, Set.mem_Iic, Set.mem_Icc]
        exact ⟨fun h => ⟨h.2.1, h.1⟩, fun h => ⟨h.2, h.1, h.2.trans hL⟩⟩
      rw [this, sphere_integral hl h0, max_eq_right h0]
    · have : Set.Iic (√(L / (4 * Real.pi * F)) - 1) ∩ Set.Icc 0 rm = ∅ := by
        ext r
        refine ⟨fun h => h0 (h.2.1.trans h.1), fun h => h.elim⟩
      rw [this, max_eq_left (not_le.1 h0).le]
      simp
  · refine Measurable.aemeasurable ?_
    exact (hd.comp measurable_fst).indicator hA

/-- The highest value and the mean number of a sphere of constant density. -/
theorem sphere_mean {e : SurveyEnv ℝ G} {env : DistEnv ℝ G}
    {tr : List ℝ → List ℝ → Except Err (List ℝ)} {y : Synth ℝ} {a : SurveyArgs ℝ} {s : SurvSt ℝ G}
    {rm m lambda : ℝ} {Λ : ℝ≥0} {μL : Measure ℝ} {p : ℝ → ℝ≥0∞} (hl : 0 ≤ lambda)
    (h : Spec.Lawful P e env constantSpherical tr y a s sphericalFluxes rm m [lambda] μL p)
    (hg : Spec.GridMax env)
    (hq : (env.quad rm).eval (constantSpherical.dens [lambda]) =
      ∫ r in (0)..rm, constantSpherical.dens [lambda] r)
    (hc : Spec.Counted P e env constantSpherical a rm [lambda] Λ) :
    (∀ r ∈ Set.Icc 0 rm, constantSpherical.dens [lambda] r ≤ m) ∧
    (Λ : ℝ≥0∞) = ∫⁻ r in Set.Icc 0 rm, ENNReal.ofReal (constantSpherical.dens [lambda] r) := by
  have i1 := h.lumProb
  have hrm := h.radius.2
  have hp := Real.pi_pos
  have hmono : ∀ r t, 0 ≤ r → r ≤ t → t ≤ rm →
      constantSpherical.dens [lambda] r ≤ constantSpherical.dens [lambda] t := by
    intro r t h0 hrt _
    simp only [constantSpherical_dens, sphereVolume, div_one]
    have : r * r ≤ t * t := mul_self_le_mul_self h0 hrt
    nlinarith [mul_nonneg hl hp.le, mul_nonneg (mul_nonneg hl hp.le) (sub_nonneg.2 this)]
  have hm : ∀ r ∈ Set.Icc 0 rm, constantSpherical.dens [lambda] r ≤ m := by
    intro r hr
    rw [h.highest.1, hg.end hrm hmono]
    exact hmono r rm hr.1 hr.2 le_rfl
  have hΛ : (Λ : ℝ≥0∞) = ∫⁻ r in Set.Icc 0 rm, ENNReal.ofReal (constantSpherical.dens [lambda] r) := by
    rw [← ENNReal.ofReal_coe_nnreal, hc.mean, hq, ← ofReal_integral_eq_lintegral_ofReal]
    · rw [intervalIntegral.integral_of_le hrm.le, integral_Icc_eq_integral_Ioc]
    · refine Continuous.integrableOn_Icc ?_
      rw [constantSpherical_dens]; unfold sphereVolume; fun_prop
    · exact Filter.Eventually.of_forall fun r => by
        show 0 ≤ constantSpherical.dens [lambda] r
        simp only [constantSpherical_dens, sphereVolume, div_one]
        have := mul_self_nonneg r
        have : 0 ≤ lambda * (4 * Real.pi * (r * r)) := by positivity
        linarith
  exact ⟨hm, hΛ⟩

/-- **C78** (a survey): the number of detections of such a survey is a Poisson number with that
mean. -/
theorem C78_survey {e : SurveyEnv ℝ G} {env : DistEnv ℝ G}
    {tr : List ℝ → List ℝ → Except Err (List ℝ)} {y : Synth ℝ} {a : SurveyArgs ℝ} {s : SurvSt ℝ G}
    {rm m lambda F : ℝ} {Λ : ℝ≥0} {μL : Measure ℝ} (hF : 0 < F) (hl : 0 ≤ lambda)
    (h : Spec.Lawful P e env constantSpherical tr y a s sphericalFluxes rm m [lambda] μL
      ((Set.Ici F).indicator 1))
    (hs : Spec.sigmaUsed (s.heap.selectors y.fluxSel).kind a = none)
    (hg : Spec.GridMax env)
    (hq : (env.quad rm).eval (constantSpherical.dens [lambda]) =
      ∫ r in (0)..rm, constantSpherical.dens [lambda] r)
    (hc : Spec.Counted P e env constantSpherical a rm [lambda] Λ)
    (hin : ∀ᵐ L ∂μL, √(L / (4 * Real.pi * F)) - 1 ≤ rm)
    (showProgress : Bool) (galB : List ℝ → List ℝ → List ℝ) :
    Spec.Samples P (ProbabilityTheory.poissonMeasure
        (Spec.ballCounts lambda (fun L => √(L / (4 * Real.pi * F)) - 1) μL).toNNReal)
      fun k g n g' => ∃ Q s',
        drawSurvey (Spec.surveyEnv e env constantSpherical.code showProgress tr galB k g) y a s =
          .ok Q s' ∧ s'.heap.rng = g' ∧ Q.nDetections = n := by
  have i1 := h.lumProb
  obtain ⟨hm, hΛ⟩ := sphere_mean hl h hg hq hc
  have h1 := C77_counts h hc hm hΛ showProgress galB
  rw [hs, C78_counts hl hF hin (Spec.observed e none a.log10Draw) fun f => rfl] at h1
  exact Samples.mapTo h1 measurePreserving_fst fun k g v g' ⟨Q, s', q1, q2, q3, _⟩ => ⟨Q, s', q1, q2, q3⟩

/-- What Euclidean source counts are: had the flux been `L / 4πr²`, a survey deeper by a factor `k` would expect
`k ^ (3/2)` times as many objects, whatever the luminosity function. -/
theorem euclid_scaling {lambda F k : ℝ} {μL : Measure ℝ} (hF : 0 < F) (hk : 0 < k) :
    Spec.ballCounts lambda (fun L => √(L / (4 * Real.pi * (F / k)))) μL =
      ENNReal.ofReal (k ^ (3 / 2 : ℝ)) *
        Spec.ballCounts lambda (fun L => √(L / (4 * Real.pi * F))) μL := by
  unfold Spec.ballCounts
  have hp := Real.pi_pos
  rw [← lintegral_const_mul]
  · refine lintegral_congr fun L => ?_
    rw [← ENNReal.ofReal_mul (by positivity)]
    congr 1
    rw [max_eq_right (Real.sqrt_nonneg _), max_eq_right (Real.sqrt_nonneg _)]
    have e : L / (4 * Real.pi * (F / k)) = k * (L / (4 * Real.pi * F)) := by field_simp
    rw [e, Real.sqrt_mul hk.le, mul_pow]
    have : √k ^ 3 = k ^ (3 / 2 : ℝ) := by
      rw [Real.sqrt_eq_rpow, ← Real.rpow_natCast, ← Real.rpow_mul hk.le]; norm_num
    rw [this]; ring
  · fun_prop

/-- **C78 is violated**: a sphere of constant density does not have Euclidean source counts.  A
survey four times deeper expects 27 instead of 8 times as many objects of luminosity `16πF`,
because `transform` adds one to the distance. -/
theorem C78_violated_euclid {lambda F rm : ℝ} (hl : 0 < lambda) (hF : 0 < F) (hrm : 3 ≤ rm)
    (obs : ℝ → ℝ → ℝ) (ho : ∀ f, obs f 0 = f) :
    let N := fun limit => Spec.expected (constantSpherical.dens [lambda]) rm sphericalFluxes
      (Measure.dirac (16 * Real.pi * F)) none obs ((Set.Ici limit).indicator 1)
    N (F / 4) = 27 * N F ∧ 8 * N F < N (F / 4) := by
  intro N
  have hp := Real.pi_pos
  have s1 : √(16 * Real.pi * F / (4 * Real.pi * F)) = 2 := by
    rw [show 16 * Real.pi * F / (4 * Real.pi * F) = 2 ^ 2 by field_simp; norm_num]
    exact Real.sqrt_sq (by norm_num)
  have s2 : √(16 * Real.pi * F / (4 * Real.pi * (F / 4))) = 4 := by
    rw [show 16 * Real.pi * F / (4 * Real.pi * (F / 4)) = 4 ^ 2 by field_simp; norm_num]
    exact Real.sqrt_sq (by norm_num)
  have n1 : N F = ENNReal.ofReal (lambda * (4 / 3 * Real.pi)) := by
    show Spec.expected _ _ _ _ _ _ _ = _
    rw [C78_counts hl.le hF _ obs ho]
    · unfold Spec.ballCounts
      rw [lintegral_dirac]
      dsimp only
      rw [s1]
      norm_num
    · rw [ae_dirac_eq]
      show √(16 * Real.pi * F / (4 * Real.pi * F)) - 1 ≤ rm
      rw [s1]; linarith
  have n2 : N (F / 4) = ENNReal.ofReal (lambda * (4 / 3 * Real.pi * 27)) := by
    show Spec.expected _ _ _ _ _ _ _ = _
    rw [C78_counts hl.le (by positivity) _ obs ho]
    · unfold Spec.ballCounts
      rw [lintegral_dirac]
      dsimp only
      rw [s2]
      norm_num
    · rw [ae_dirac_eq]
      show √(16 * Real.pi * F / (4 * Real.pi * (F / 4))) - 1 ≤ rm
      rw [s2]; linarith
  have e27 : (27 : ℝ≥0∞) = ENNReal.ofReal 27 := by simp
  have e8 : (8 : ℝ≥0∞) = ENNReal.ofReal 8 := by simp
  rw [n1, n2, e27, e8, ← ENNReal.ofReal_mul (by norm_num), ← ENNReal.ofReal_mul (by norm_num)]
  refine ⟨by congr 1; ring, (ENNReal.ofReal_lt_ofReal_iff (by positivity)).2 ?_⟩
  have : 0 < lambda * Real.pi := by positivity
  nlinarith

end Popsynth
