import Verif.Props.Vmax
import Verif.Lemmas.ProcessSquares

/-!
# Weights of the detected objects of any survey (C99)
-/

set_option autoImplicit false
set_option linter.unusedSectionVars false

open MeasureTheory Filter
open scoped NNReal ENNReal

namespace Popsynth

variable {G : Type} [MeasurableSpace G] {P : Measure G} [IsProbabilityMeasure P]
  {e : SurveyEnv ℝ G} {env : DistEnv ℝ G} {c : SpClass ℝ}
  {tr : List ℝ → List ℝ → Except Err (List ℝ)} {y : Synth ℝ} {a : SurveyArgs ℝ} {s : SurvSt ℝ G}
  {flux : ℝ → ℝ → ℝ} {rm m : ℝ} {vs : List ℝ} {Λ : ℝ≥0} {μL : Measure ℝ} {p : ℝ → ℝ≥0∞}

/-- The probability that an object of luminosity `l` at distance `r` is detected. -/
noncomputable def Spec.seenAt (e : SurveyEnv ℝ G) (y : Synth ℝ) (a : SurveyArgs ℝ)
    (s : SurvSt ℝ G) (flux : ℝ → ℝ → ℝ) (p : ℝ → ℝ≥0∞) (l r : ℝ) : ℝ≥0∞ :=
  ∫⁻ z, p (Spec.observed e (Spec.sigmaUsed (s.heap.selectors y.fluxSel).kind a) a.log10Draw (flux l r) z)
    ∂(Spec.noiseLaw (Spec.sigmaUsed (s.heap.selectors y.fluxSel).kind a))

/-- The probability that an object of luminosity `l` is detected, if its distance is drawn. -/
noncomputable def Spec.seenLuminosity (e : SurveyEnv ℝ G) (y : Synth ℝ) (a : SurveyArgs ℝ)
    (s : SurvSt ℝ G) (flux : ℝ → ℝ → ℝ) (p : ℝ → ℝ≥0∞) (c : SpClass ℝ) (rm m : ℝ) (vs : List ℝ)
    (l : ℝ) : ℝ≥0∞ :=
  ∫⁻ r, Spec.seenAt e y a s flux p l r ∂(Spec.distanceLaw c rm m vs)

/-- The probability that an object at distance `r` is detected, if its luminosity is drawn. -/
noncomputable def Spec.seenDistance (e : SurveyEnv ℝ G) (y : Synth ℝ) (a : SurveyArgs ℝ)
    (s : SurvSt ℝ G) (flux : ℝ → ℝ → ℝ) (p : ℝ → ℝ≥0∞) (μL : Measure ℝ) (r : ℝ) : ℝ≥0∞ :=
  ∫⁻ l, Spec.seenAt e y a s flux p l r ∂μL

/-- If a program samples a Poisson process, sums over its points have these first and second
moments. -/
theorem process_moments {α : Type} [MeasurableSpace α] {κ : Measure α} [IsFiniteMeasure κ]
    {R : ℕ → G → List α → G → Prop} (h : Spec.Samples P (Spec.poissonProcess κ) R) :
    ∃ D : G → List α, (∀ᵐ g ∂P, ∀ᶠ k in atTop, ∃ g', R k g (D g) g') ∧
      ∀ w : α → ℝ≥0∞, Measurable w →
        ∫⁻ g, ((D g).map w).sum ∂P = ∫⁻ x, w x ∂κ ∧
        ∫⁻ g, ((D g).map w).sum ^ 2 ∂P = ∫⁻ x, w x ^ 2 ∂κ + (∫⁻ x, w x ∂κ) ^ 2 := by
  obtain ⟨T, hT, hR⟩ := h
  refine ⟨fun g => (T g).1, ?_, fun w hw => ⟨?_, ?_⟩⟩
  · filter_upwards [hR] with g hg
    filter_upwards [hg] with k hk
    exact ⟨_, hk⟩
  · rw [← process_sum _ hw]
    exact (measurePreserving_fst.comp hT).lintegral_comp (measurable_sum_map hw)
  · rw [← process_sq _ hw]
    exact (measurePreserving_fst.comp hT).lintegral_comp (measurable_sq_map hw)

theorem inverse_mean {μ : Measure ℝ} {f : ℝ → ℝ≥0∞} (hf : Measurable f) (h1 : ∀ x, f x ≤ 1)
    {B : Set ℝ} (hB : MeasurableSet B) :
    ∫⁻ x, B.indicator (fun x => (f x)⁻¹) x ∂(μ.withDensity fun x => Λ * f x) = Λ * μ (B ∩ {x | f x ≠ 0}) := by
  have h0 : MeasurableSet {x | f x ≠ 0} := (measurableSet_eq_fun hf measurable_const).compl
  have hi : Measurable fun x => (f x)⁻¹ := hf.inv
  rw [lintegral_withDensity_eq_lintegral_mul _ (hf.const_mul _) (hi.indicator hB),
    ← setLIntegral_const, ← lintegral_indicator (hB.inter h0)]
  refine lintegral_congr fun x => ?_
  rw [Pi.mul_apply]
  by_cases hx : x ∈ B
  · rw [Set.indicator_of_mem hx]
    by_cases hz : f x = 0
    · rw [Set.indicator_of_notMem (show x ∉ B ∩ {x | f x ≠ 0} from fun h => h.2 hz), hz]
      simp
    · rw [Set.indicator_of_mem (show x ∈ B ∩ {x | f x ≠ 0} from ⟨hx, hz⟩), mul_assoc,
        ENNReal.mul_inv_cancel hz ((h1 x).trans_lt ENNReal.one_lt_top).ne, mul_one]
  · rw [Set.indicator_of_notMem hx, mul_zero,
      Set.indicator_of_notMem (show x ∉ B ∩ {x | f x ≠ 0} from fun h => hx h.1)]

section weights
variable (h : Spec.Lawful P e env c tr y a s flux rm m vs μL p)
include h

theorem seenAt_measurable {p' : ℝ → ℝ≥0∞} (hp : Measurable p') :
    Measurable fun q : ℝ × ℝ => Spec.seenAt e y a s flux p' q.1 q.2 := by
  have i1 : IsProbabilityMeasure (Spec.noiseLaw (Spec.sigmaUsed (s.heap.selectors y.fluxSel).kind a)) :=
    noiseLaw_prob _
  have g1 : Measurable fun t : (ℝ × ℝ) × ℝ => (t.1.1, t.1.2) := by fun_prop
  have g2 : Measurable fun t : (ℝ × ℝ) × ℝ => t.2 := by fun_prop
  have := hp.comp (h.observed.comp ((h.fluxes.comp g1).prodMk g2))
  exact this.lintegral_prod_right'

theorem seenLuminosity_measurable {p' : ℝ → ℝ≥0∞} (hp : Measurable p') :
    Measurable (Spec.seenLuminosity e y a s flux p' c rm m vs) := by
  have i1 := h.distance_prob
  have : IsProbabilityMeasure (Spec.distanceLaw c rm m vs) := i1
  exact (seenAt_measurable h hp).lintegral_prod_right'

theorem seenDistance_measurable {p' : ℝ → ℝ≥0∞} (hp : Measurable p') :
    Measurable (Spec.seenDistance e y a s flux p' μL) := by
  have i1 := h.lumProb
  exact (seenAt_measurable h hp).lintegral_prod_left'

theorem seenAt_le (l r : ℝ) : Spec.seenAt e y a s flux p l r ≤ 1 := by
  have i1 : IsProbabilityMeasure (Spec.noiseLaw (Spec.sigmaUsed (s.heap.selectors y.fluxSel).kind a)) :=
    noiseLaw_prob _
  unfold Spec.seenAt
  calc _ ≤ ∫⁻ _, (1 : ℝ≥0∞) ∂(Spec.noiseLaw (Spec.sigmaUsed (s.heap.selectors y.fluxSel).kind a)) :=
        lintegral_mono fun z => h.le_one _
    _ = 1 := by simp

theorem seenLuminosity_le (l : ℝ) : Spec.seenLuminosity e y a s flux p c rm m vs l ≤ 1 := by
  have i1 := h.distance_prob
  have : IsProbabilityMeasure (Spec.distanceLaw c rm m vs) := i1
  calc _ ≤ ∫⁻ _, (1 : ℝ≥0∞) ∂(Spec.distanceLaw c rm m vs) := lintegral_mono fun r => seenAt_le h l r
    _ = 1 := by simp

theorem seenDistance_le (r : ℝ) : Spec.seenDistance e y a s flux p μL r ≤ 1 := by
  have i1 := h.lumProb
  calc _ ≤ ∫⁻ _, (1 : ℝ≥0∞) ∂μL := lintegral_mono fun l => seenAt_le h l r
    _ = 1 := by simp

theorem luminosity_intensity {p' : ℝ → ℝ≥0∞} (hp : Measurable p') :
    ((Spec.intensity y a s c rm m vs Λ μL).withDensity
      (Spec.detection e y a s flux p')).map Spec.SkySource.luminosity =
    μL.withDensity fun L => Λ * Spec.seenLuminosity e y a s flux p' c rm m vs L := by
  have i1 := h.lumProb
  have i2 := h.distance_prob
  refine Measure.ext fun B hB => ?_
  have hB' : MeasurableSet {b : ℝ × ℝ | b.2 ∈ B} := measurable_snd hB
  rw [Measure.map_apply SkySource.measurable_luminosity hB,
    withDensity_apply _ (SkySource.measurable_luminosity hB), withDensity_apply _ hB]
  refine (intensity_lintegral (Λ := Λ) h hB' hp).trans ?_
  rw [lintegral_const_mul _ (seenLuminosity_measurable h hp)]
  congr 1
  unfold Spec.seenLuminosity Spec.distanceLaw
  rw [lintegral_lintegral_swap (μ := μL.restrict B) (f := Spec.seenAt e y a s flux p')
    (seenAt_measurable h hp).aemeasurable]
  refine lintegral_congr fun r => ?_
  rw [← lintegral_indicator hB]
  rfl

theorem distance_intensity {p' : ℝ → ℝ≥0∞} (hp : Measurable p') :
    ((Spec.intensity y a s c rm m vs Λ μL).withDensity
      (Spec.detection e y a s flux p')).map Spec.SkySource.distance =
    (Spec.distanceLaw c rm m vs).withDensity fun r => Λ * Spec.seenDistance e y a s flux p' μL r := by
  refine Measure.ext fun B hB => ?_
  have hB' : MeasurableSet {b : ℝ × ℝ | b.1 ∈ B} := measurable_fst hB
  rw [Measure.map_apply SkySource.measurable_distance hB,
    withDensity_apply _ (SkySource.measurable_distance hB), withDensity_apply _ hB]
  refine (intensity_lintegral (Λ := Λ) h hB' hp).trans ?_
  rw [lintegral_const_mul _ (seenDistance_measurable h hp), ← lintegral_indicator hB]
  congr 1
  unfold Spec.distanceLaw
  refine lintegral_congr fun r => ?_
  by_cases hr : r ∈ B
  · rw [Set.indicator_of_mem hr]
    refine lintegral_congr fun l => ?_
    rw [Set.indicator_of_mem (show (r, l) ∈ {b : ℝ × ℝ | b.1 ∈ B} from hr)]
    rfl
  · rw [Set.indicator_of_notMem hr, ← lintegral_zero (μ := μL)]
    refine lintegral_congr fun l => ?_
    rw [Set.indicator_of_notMem (show (r, l) ∉ {b : ℝ × ℝ | b.1 ∈ B} from hr)]

variable (hc : Spec.Counted P e env c a rm vs Λ) (showProgress : Bool)
  (galB : List ℝ → List ℝ → List ℝ)
include hc

/-- **C99**: the luminosities of the detected objects are a Poisson process; the intensity is that
of the population, times the probability that an object of that luminosity is detected. -/
theorem C99_luminosities :
    Spec.Samples P (Spec.poissonProcess (μL.withDensity fun L =>
        Λ * Spec.seenLuminosity e y a s flux p c rm m vs L))
      fun k g v g' => ∃ Q s' d,
        drawSurvey (Spec.surveyEnv e env c.code showProgress tr galB k g) y a s = .ok Q s' ∧
        s'.heap.rng = g' ∧ (Q.luminosities.toSVar .float).selected = .ok d ∧ d.latent = v := by
  have i2 := h.intensity_finite (Λ := Λ)
  have i3 := finite_withDensity (Spec.intensity y a s c rm m vs Λ μL)
    (f := Spec.detection e y a s flux p) (fun x => h.le_one _)
  have i4 := finite_withDensity (Spec.intensity y a s c rm m vs Λ μL)
    (f := fun x => 1 - Spec.detection e y a s flux p x) (fun x => tsub_le_self)
  refine Samples.mapTo (C75_thinning h hc showProgress galB) (f := fun v => v.1.map Spec.SkySource.luminosity)
    ⟨(measurable_map_list SkySource.measurable_luminosity).comp measurable_fst, ?_⟩ ?_
  · rw [← Function.comp_def (List.map Spec.SkySource.luminosity) Prod.fst, ← Measure.map_map
      (measurable_map_list SkySource.measurable_luminosity) measurable_fst, measurePreserving_fst.map_eq,
      process_map _ SkySource.measurable_luminosity, luminosity_intensity h h.detection_measurable]
  · rintro k g v g' ⟨Q, s', q1, q2, q3⟩
    obtain ⟨⟨d, a1, b1⟩, -⟩ := selected_obs q3
    exact ⟨Q, s', d, q1, q2, a1, b1⟩

/-- **C99** (distances). -/
theorem C99_distances :
    Spec.Samples P (Spec.poissonProcess ((Spec.distanceLaw c rm m vs).withDensity fun r =>
        Λ * Spec.seenDistance e y a s flux p μL r))
      fun k g v g' => ∃ Q s' d,
        drawSurvey (Spec.surveyEnv e env c.code showProgress tr galB k g) y a s = .ok Q s' ∧
        s'.heap.rng = g' ∧ (Q.distances.toSVar .float).selected = .ok d ∧ d.latent = v := by
  have i2 := h.intensity_finite (Λ := Λ)
  have i3 := finite_withDensity (Spec.intensity y a s c rm m vs Λ μL)
    (f := Spec.detection e y a s flux p) (fun x => h.le_one _)
  have i4 := finite_withDensity (Spec.intensity y a s c rm m vs Λ μL)
    (f := fun x => 1 - Spec.detection e y a s flux p x) (fun x => tsub_le_self)
  refine Samples.mapTo (C75_thinning h hc showProgress galB) (f := fun v => v.1.map Spec.SkySource.distance)
    ⟨(measurable_map_list SkySource.measurable_distance).comp measurable_fst, ?_⟩ ?_
  · rw [← Function.comp_def (List.map Spec.SkySource.distance) Prod.fst, ← Measure.map_map
      (measurable_map_list SkySource.measurable_distance) measurable_fst, measurePreserving_fst.map_eq,
      process_map _ SkySource.measurable_distance, distance_intensity h h.detection_measurable]
  · rintro k g v g' ⟨Q, s', q1, q2, q3⟩
    obtain ⟨-, -, ⟨d, a1, b1⟩, -⟩ := selected_obs q3
    exact ⟨Q, s', d, q1, q2, a1, b1⟩

/-- **C99** (unbiased numbers): the sum over the detected objects with luminosities in `B` of one
over the probability of detection has as mean the mean number of objects with luminosities in `B`
that can be detected, and the mean of its square exceeds the square of its mean by the mean of the
sum of the squares. -/
theorem C99_unbiased :
    ∃ D : G → List ℝ,
      (∀ᵐ g ∂P, ∀ᶠ k in atTop, ∃ Q s' d,
        drawSurvey (Spec.surveyEnv e env c.code showProgress tr galB k g) y a s = .ok Q s' ∧
        (Q.luminosities.toSVar .float).selected = .ok d ∧ d.latent = D g) ∧
      (∀ B : Set ℝ, MeasurableSet B → ∫⁻ g, ((D g).map (B.indicator fun L =>
          (Spec.seenLuminosity e y a s flux p c rm m vs L)⁻¹)).sum ∂P =
        Λ * μL (B ∩ {L | Spec.seenLuminosity e y a s flux p c rm m vs L ≠ 0})) ∧
      ∀ w : ℝ → ℝ≥0∞, Measurable w → ∫⁻ g, ((D g).map w).sum ^ 2 ∂P =
        (∫⁻ g, ((D g).map w).sum ∂P) ^ 2 + ∫⁻ g, ((D g).map fun L => w L ^ 2).sum ∂P := by
  have i2 := h.intensity_finite (Λ := Λ)
  have i3 := finite_withDensity (Spec.intensity y a s c rm m vs Λ μL)
    (f := Spec.detection e y a s flux p) (fun x => h.le_one _)
  have i4 : IsFiniteMeasure (μL.withDensity fun L => Λ * Spec.seenLuminosity e y a s flux p c rm m vs L) := by
    rw [← luminosity_intensity h h.detection_measurable]
    infer_instance
  obtain ⟨D, h1, h2⟩ := process_moments (C99_luminosities h hc showProgress galB)
  have ms := seenLuminosity_measurable h h.detection_measurable
  refine ⟨D, ?_, fun B hB => ?_, fun w hw => ?_⟩
  · filter_upwards [h1] with g hg
    filter_upwards [hg] with k hk
    obtain ⟨g', Q, s', d, q1, -, q2, q3⟩ := hk
    exact ⟨Q, s', d, q1, q2, q3⟩
  · refine (h2 _ (ms.inv.indicator hB)).1.trans ?_
    exact inverse_mean ms (seenLuminosity_le h) hB
  · rw [(h2 w hw).2, (h2 w hw).1, (h2 _ (hw.pow_const 2)).1, add_comm]

/-- **C99** (the same at every distance). -/
theorem C99_unbiased_distances :
    ∃ D : G → List ℝ,
      (∀ᵐ g ∂P, ∀ᶠ k in atTop, ∃ Q s' d,
        drawSurvey (Spec.surveyEnv e env c.code showProgress tr galB k g) y a s = .ok Q s' ∧
        (Q.distances.toSVar .float).selected = .ok d ∧ d.latent = D g) ∧
      (∀ B : Set ℝ, MeasurableSet B → ∫⁻ g, ((D g).map (B.indicator fun r =>
          (Spec.seenDistance e y a s flux p μL r)⁻¹)).sum ∂P =
        Λ * Spec.distanceLaw c rm m vs (B ∩ {r | Spec.seenDistance e y a s flux p μL r ≠ 0})) ∧
      ∀ w : ℝ → ℝ≥0∞, Measurable w → ∫⁻ g, ((D g).map w).sum ^ 2 ∂P =
        (∫⁻ g, ((D g).map w).sum ∂P) ^ 2 + ∫⁻ g, ((D g).map fun r => w r ^ 2).sum ∂P := by
  have i2 := h.intensity_finite (Λ := Λ)
  have i3 := finite_withDensity (Spec.intensity y a s c rm m vs Λ μL)
    (f := Spec.detection e y a s flux p) (fun x => h.le_one _)
  have i4 : IsFiniteMeasure ((Spec.distanceLaw c rm m vs).withDensity fun r =>
      Λ * Spec.seenDistance e y a s flux p μL r) := by
    rw [← distance_intensity h h.detection_measurable]
    infer_instance
  obtain ⟨D, h1, h2⟩ := process_moments (C99_distances h hc showProgress galB)
  have ms := seenDistance_measurable h h.detection_measurable
  refine ⟨D, ?_, fun B hB => ?_, fun w hw => ?_⟩
  · filter_upwards [h1] with g hg
    filter_upwards [hg] with k hk
    obtain ⟨g', Q, s', d, q1, -, q2, q3⟩ := hk
    exact ⟨Q, s', d, q1, q2, q3⟩
  · refine (h2 _ (ms.inv.indicator hB)).1.trans ?_
    exact inverse_mean ms (seenDistance_le h) hB
  · rw [(h2 w hw).2, (h2 w hw).1, (h2 _ (hw.pow_const 2)).1, add_comm]

/-- **C99** (total number): if no luminosity of the population is out of reach, the weights of the
detected objects add up, in the mean, to the mean number of all objects. -/
theorem C99_total (hs : ∀ᵐ L ∂μL, Spec.seenLuminosity e y a s flux p c rm m vs L ≠ 0) :
    ∃ D : G → List ℝ,
      (∀ᵐ g ∂P, ∀ᶠ k in atTop, ∃ Q s' d,
        drawSurvey (Spec.surveyEnv e env c.code showProgress tr galB k g) y a s = .ok Q s' ∧
        (Q.luminosities.toSVar .float).selected = .ok d ∧ d.latent = D g) ∧
      ∫⁻ g, ((D g).map fun L => (Spec.seenLuminosity e y a s flux p c rm m vs L)⁻¹).sum ∂P = Λ := by
  have i1 := h.lumProb
  obtain ⟨D, h1, h2, -⟩ := C99_unbiased h hc showProgress galB
  refine ⟨D, h1, ?_⟩
  have h3 := h2 Set.univ MeasurableSet.univ
  simp only [Set.indicator_univ, Set.univ_inter] at h3
  have h4 : MeasurableSet {L | Spec.seenLuminosity e y a s flux p c rm m vs L ≠ 0} :=
    (measurableSet_eq_fun (seenLuminosity_measurable h h.detection_measurable) measurable_const).compl
  rw [h3, (prob_compl_eq_zero_iff h4).1 (ae_iff.1 hs), mul_one]

end weights

/-- **C99** (sphere): in a flux-limited survey of a sphere of constant density, the probability of
detection is the volume within reach over the volume of the survey. -/
theorem C99_sphere {lambda F : ℝ} (hF : 0 < F) (hl : 0 ≤ lambda)
    (h : Spec.Lawful P e env constantSpherical tr y a s sphericalFluxes rm m [lambda] μL
      ((Set.Ici F).indicator 1))
    (hs : Spec.sigmaUsed (s.heap.selectors y.fluxSel).kind a = none)
    (hg : Spec.GridMax env)
    (hq : (env.quad rm).eval (constantSpherical.dens [lambda]) =
      ∫ r in (0)..rm, constantSpherical.dens [lambda] r)
    (hc : Spec.Counted P e env constantSpherical a rm [lambda] Λ) {L : ℝ} (hL : Spec.reach F L ≤ rm) :
    Λ * Spec.seenLuminosity e y a s sphericalFluxes ((Set.Ici F).indicator 1) constantSpherical rm m
      [lambda] L = ENNReal.ofReal (lambda * Spec.ballVolume (Spec.reach F L)) := by
  obtain ⟨hm, hΛ⟩ := sphere_mean hl h hg hq hc
  unfold Spec.seenLuminosity Spec.distanceLaw
  have mf : Measurable fun r => Spec.seenAt e y a s sphericalFluxes ((Set.Ici F).indicator 1) L r :=
    (seenAt_measurable h h.detection_measurable).comp (measurable_const.prodMk measurable_id)
  rw [distance_lintegral h hm hΛ mf]
  unfold Spec.seenAt
  rw [hs]
  simp only [Spec.noiseLaw, lintegral_dirac, Spec.observed]
  have k1 := C78_counts (μL := Measure.dirac L) (lambda := lambda) (rm := rm) hl hF
    (by rw [ae_dirac_eq]; exact hL) (fun f _ => f) fun _ => rfl
  unfold Spec.expected Spec.ballCounts at k1
  simp only [Spec.noiseLaw, lintegral_dirac] at k1
  exact k1

namespace LawExample

/-- Five objects per unit volume out to distance ten, luminosities from 1 to 10 and a flux limit of
1/100: the inverse probabilities of detection of the detected objects add up, in the mean, to the
number of all objects. -/
example (showProgress : Bool) : ∃ D : (ℕ → Triple) → List ℝ,
    (∀ᵐ g ∂seeds, ∀ᶠ k in atTop, ∃ Q s' d,
      drawSurvey (Spec.surveyEnv survey2 LawExample.env constantSpherical.code showProgress
          (fun ls ds => .ok (List.zipWith sphericalFluxes ls ds)) (fun a _ => a) k g)
          synth {} state2 = .ok Q s' ∧ (Q.luminosities.toSVar .float).selected = .ok d ∧ d.latent = D g) ∧
    ∫⁻ g, ((D g).map fun L => (Spec.seenLuminosity survey2 synth {} state2 sphericalFluxes
      ((Set.Ici (1 / 100)).indicator 1) constantSpherical 10 (constantSpherical.dens [5] 10) [5]
      L)⁻¹).sum ∂seeds = mean := by
  have hp := Real.pi_gt_three
  have hp4 := Real.pi_lt_four
  have i1 := luminous2.1
  have hc : Spec.Counted seeds survey2 LawExample.env constantSpherical {} 10 [5] mean :=
    ⟨rfl, counted.poisson, counted.mean⟩
  have h1 : ∀ᵐ L ∂lums, L ∈ Set.Icc (1 : ℝ) 10 :=
    (withDensity_absolutelyContinuous _ _).ae_le (ae_restrict_mem measurableSet_Icc)
  refine C99_total lawful2 hc showProgress _ ?_
  filter_upwards [h1] with L hL hz
  have hr : Spec.reach (1 / 100) L ≤ 10 := by
    unfold Spec.reach
    have : √(L / (4 * Real.pi * (1 / 100))) ≤ 11 := by
      rw [Real.sqrt_le_left (by norm_num), div_le_iff₀ (by positivity)]
      nlinarith [hL.2]
    linarith
  have h0 : 0 < Spec.reach (1 / 100) L := by
    unfold Spec.reach
    rw [sub_pos, Real.lt_sqrt (by norm_num), lt_div_iff₀ (by positivity)]
    nlinarith [hL.1]
  have k := C99_sphere (F := 1 / 100) (by norm_num) (by norm_num) lawful2 rfl gridMax (by
      rw [← counted.mean]
      simp only [constantSpherical_dens, sphereVolume]
      rw [show (fun r : ℝ => 5 * (4 * Real.pi * r * r) / 1) = fun r => 20 * Real.pi * r ^ 2 by
        funext r; ring, intervalIntegral.integral_const_mul, integral_pow]
      show (20000 * Real.pi / 3 : ℝ) = _
      norm_num
      ring) hc hr
  rw [hz, mul_zero, eq_comm, ENNReal.ofReal_eq_zero] at k
  unfold Spec.ballVolume at k
  rw [max_eq_right h0.le] at k
  have : 0 < 5 * (4 / 3 * Real.pi * Spec.reach (1 / 100) L ^ 3) := by positivity
  linarith

end LawExample
end Popsynth
