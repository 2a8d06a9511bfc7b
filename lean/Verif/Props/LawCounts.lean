import Verif.Props.LawThinning
import Verif.Props.LawLum

/-!
# How many objects a survey detects (C77)
-/

set_option autoImplicit false
set_option linter.unusedSectionVars false

open MeasureTheory
open scoped NNReal ENNReal

namespace Popsynth
variable {G : Type} [MeasurableSpace G] {P : Measure G} [IsProbabilityMeasure P]

/-- The integral over space (density `dens` up to `rm`), luminosity (law `μL`) and measurement
error (standard deviation `sigma`) of the probability `p` with which an object there is
detected. -/
noncomputable def Spec.expected (dens : ℝ → ℝ) (rm : ℝ) (flux : ℝ → ℝ → ℝ) (μL : Measure ℝ)
    (sigma : Option ℝ) (obs : ℝ → ℝ → ℝ) (p : ℝ → ℝ≥0∞) : ℝ≥0∞ :=
  ∫⁻ r in Set.Icc 0 rm, ENNReal.ofReal (dens r) *
    ∫⁻ l, ∫⁻ z, p (obs (flux l r) z) ∂(Spec.noiseLaw sigma) ∂μL

variable {e : SurveyEnv ℝ G} {env : DistEnv ℝ G} {c : SpClass ℝ}
  {tr : List ℝ → List ℝ → Except Err (List ℝ)} {y : Synth ℝ} {a : SurveyArgs ℝ} {s : SurvSt ℝ G}
  {flux : ℝ → ℝ → ℝ} {rm m : ℝ} {vs : List ℝ} {Λ : ℝ≥0} {μL : Measure ℝ} {p : ℝ → ℝ≥0∞}

/-- The integral of something that does not depend on the position in the sky. -/
theorem sourceLaw_lintegral (μd μL : Measure ℝ) [IsProbabilityMeasure μd] [IsProbabilityMeasure μL]
    (sigma : Option ℝ) {f : ℝ → ℝ → ℝ → ℝ≥0∞}
    (hf : Measurable fun q : ℝ × ℝ × ℝ => f q.1 q.2.1 q.2.2) :
    ∫⁻ x, f x.distance x.luminosity x.noise ∂(Spec.sourceLaw μd μL sigma) =
      ∫⁻ r, ∫⁻ l, ∫⁻ z, f r l z ∂(Spec.noiseLaw sigma) ∂μL ∂μd := by
  have i1 := sin_law_prob
  have i2 := uniformLaw_prob (h := 2 * Real.pi) (by have := Real.pi_pos; positivity)
  unfold Spec.sourceLaw
  have hm : Measurable fun x : Spec.SkySource => f x.distance x.luminosity x.noise :=
    hf.comp (SkySource.measurable_distance.prodMk
      (SkySource.measurable_luminosity.prodMk SkySource.measurable_noise))
  rw [lintegral_map hm SkySource.measurable_ofTuple]
  have h1 : MeasurePreserving (Prod.map id Prod.snd : ℝ × (ℝ × ℝ) × ℝ × ℝ → ℝ × ℝ × ℝ)
      (μd.prod (((Spec.densityLaw Real.sin Real.pi).prod (Spec.uniformLaw (2 * Real.pi))).prod
        (μL.prod (Spec.noiseLaw sigma)))) (μd.prod (μL.prod (Spec.noiseLaw sigma))) :=
    (MeasurePreserving.id μd).prod measurePreserving_snd
  have h2 := h1.lintegral_comp hf
  refine Eq.trans (lintegral_congr fun q => rfl) (h2.trans ?_)
  rw [lintegral_prod _ hf.aemeasurable]
  refine lintegral_congr fun r => ?_
  have h3 : Measurable fun t : ℝ × ℝ => f r t.1 t.2 := hf.comp measurable_prodMk_left
  exact lintegral_prod _ h3.aemeasurable

theorem Spec.Lawful.detection_measurable
    (h : Spec.Lawful P e env c tr y a s flux rm m vs μL p) : Measurable p := by
  obtain ⟨ν, D, _, hν, hD, hp, -⟩ := h.detects
  have := measurable_measure_prodMk_left (ν := ν) hD
  convert this using 1
  funext x
  exact (hp x).symm

/-- The mean of `C75_counts` when the highest value of the density on the grid is its highest
value and the number of objects is the exact integral of the density. -/
theorem mean_expected (h : Spec.Lawful P e env c tr y a s flux rm m vs μL p)
    (hm : ∀ r ∈ Set.Icc 0 rm, c.dens vs r ≤ m)
    (hΛ : (Λ : ℝ≥0∞) = ∫⁻ r in Set.Icc 0 rm, ENNReal.ofReal (c.dens vs r))
    {q : ℝ → ℝ≥0∞} (hq : Measurable q) :
    ∫⁻ x, Spec.detection e y a s flux q x ∂(Spec.intensity y a s c rm m vs Λ μL) =
      Spec.expected (c.dens vs) rm flux μL (Spec.sigmaUsed (s.heap.selectors y.fluxSel).kind a)
        (Spec.observed e (Spec.sigmaUsed (s.heap.selectors y.fluxSel).kind a) a.log10Draw) q := by
  have i1 := h.distance_prob
  have i2 := h.lumProb
  have hf : Measurable fun t : ℝ × ℝ × ℝ => q (Spec.observed e
      (Spec.sigmaUsed (s.heap.selectors y.fluxSel).kind a) a.log10Draw (flux t.2.1 t.1) t.2.2) := by
    have g1 : Measurable fun t : ℝ × ℝ × ℝ => (t.2.1, t.1) := by fun_prop
    have g2 : Measurable fun t : ℝ × ℝ × ℝ => t.2.2 := by fun_prop
    exact hq.comp (h.observed.comp ((h.fluxes.comp g1).prodMk g2))
  have hcut : ∀ r ∈ Set.Icc 0 rm, ENNReal.ofReal (min (c.dens vs r) m) =
      ENNReal.ofReal (c.dens vs r) := fun r hr => by rw [min_eq_left (hm r hr)]
  have hI : ∫⁻ r in Set.Icc 0 rm, ENNReal.ofReal (min (c.dens vs r) m) = Λ := by
    rw [hΛ]; exact setLIntegral_congr_fun measurableSet_Icc hcut
  have h0 : (Λ : ℝ≥0∞) ≠ 0 := hI ▸ h.somewhere
  unfold Spec.intensity Spec.detection
  have en : ∀ μ : Measure Spec.SkySource, Λ • μ = (Λ : ℝ≥0∞) • μ := fun _ => rfl
  rw [en, lintegral_smul_measure, sourceLaw_lintegral _ _ _
    (f := fun r l z => q (Spec.observed e (Spec.sigmaUsed (s.heap.selectors y.fluxSel).kind a)
      a.log10Draw (flux l r) z)) hf]
  unfold Spec.densityLaw Spec.expected
  rw [lintegral_smul_measure, hI, smul_eq_mul, smul_eq_mul, ← mul_assoc,
    ENNReal.mul_inv_cancel h0 ENNReal.coe_ne_top, one_mul, lintegral_withDensity_eq_lintegral_mul]
  · refine setLIntegral_congr_fun measurableSet_Icc fun r hr => ?_
    simp only [Pi.mul_apply, hcut r hr]
  · have := h.density; fun_prop
  · have g1 : Measurable fun t : (ℝ × ℝ) × ℝ => (t.1.1, t.1.2, t.2) := by fun_prop
    have e1 : Measurable fun t : (ℝ × ℝ) × ℝ => q (Spec.observed e
        (Spec.sigmaUsed (s.heap.selectors y.fluxSel).kind a) a.log10Draw (flux t.1.2 t.1.1) t.2) :=
      hf.comp g1
    exact (e1.lintegral_prod_right' (ν := Spec.noiseLaw _)).lintegral_prod_right'

/-- **C76** (in a survey): what `Luminous` says of a luminosity distribution is what the law of
surveys (C74, C75) asks of it. -/
theorem C76_survey {code : LumCode ℝ G} {lum : Lum ℝ} {f : ℝ → ℝ}
    (h : Spec.Luminous P code lum μL f) (n : ℕ) :
    IsProbabilityMeasure μL ∧
    Spec.Samples P (Spec.iid n μL) fun _ g v g' => ∃ lum', code.draw n { lum, rng := g } =
      .ok (List.ofFn v) { lum := lum', rng := g' } ∧
      ∃ q o, code.phi (List.ofFn v) lum'.params = .ok q o ∧ q.length = n := by
  refine ⟨h.1, Samples.mono (h.2 n) fun k g v g' ⟨lum', h1, o, h2⟩ => ⟨lum', h1, _, o, h2, by simp⟩⟩

/-- **C77**: the number of objects a survey detects and the number it misses are independent
Poisson numbers, with means the integrals over space, luminosity and measurement error of the
probability to be detected and to be missed. -/
theorem C77_counts (h : Spec.Lawful P e env c tr y a s flux rm m vs μL p)
    (hc : Spec.Counted P e env c a rm vs Λ)
    (hm : ∀ r ∈ Set.Icc 0 rm, c.dens vs r ≤ m)
    (hΛ : (Λ : ℝ≥0∞) = ∫⁻ r in Set.Icc 0 rm, ENNReal.ofReal (c.dens vs r))
    (showProgress : Bool) (galB : List ℝ → List ℝ → List ℝ) :
    Spec.Samples P
      ((ProbabilityTheory.poissonMeasure (Spec.expected (c.dens vs) rm flux μL
          (Spec.sigmaUsed (s.heap.selectors y.fluxSel).kind a)
          (Spec.observed e (Spec.sigmaUsed (s.heap.selectors y.fluxSel).kind a) a.log10Draw)
          p).toNNReal).prod
        (ProbabilityTheory.poissonMeasure (Spec.expected (c.dens vs) rm flux μL
          (Spec.sigmaUsed (s.heap.selectors y.fluxSel).kind a)
          (Spec.observed e (Spec.sigmaUsed (s.heap.selectors y.fluxSel).kind a) a.log10Draw)
          fun x => 1 - p x).toNNReal))
      fun k g v g' => ∃ Q s',
        drawSurvey (Spec.surveyEnv e env c.code showProgress tr galB k g) y a s = .ok Q s' ∧
        s'.heap.rng = g' ∧ Q.nDetections = v.1 ∧ Q.nNonDetections = v.2 := by
  rw [← mean_expected h hm hΛ h.detection_measurable,
    ← mean_expected h hm hΛ (q := fun x => 1 - p x) (measurable_const.sub h.detection_measurable)]
  exact C75_counts h hc showProgress galB

/-- **C77** (a flux limit): without measurement error, with a hard limit `F` on the flux, the
mean number of detections is the integral of the density times the probability of a luminosity
that is bright enough at that distance. -/
theorem C77_flux_limit {F : ℝ} (hF : Measurable fun q : ℝ × ℝ => flux q.1 q.2) (dens : ℝ → ℝ)
    (obs : ℝ → ℝ → ℝ) (ho : ∀ f, obs f 0 = f) :
    Spec.expected dens rm flux μL none obs ((Set.Ici F).indicator 1) =
      ∫⁻ r in Set.Icc 0 rm, ENNReal.ofReal (dens r) * μL {l | F ≤ flux l r} := by
  unfold Spec.expected
  refine lintegral_congr fun r => ?_
  congr 1
  simp only [Spec.noiseLaw, lintegral_dirac, ho]
  have hr : Measurable fun l => flux l r := hF.comp (by fun_prop : Measurable fun l => (l, r))
  have hs : MeasurableSet {l | F ≤ flux l r} := measurableSet_le measurable_const hr
  rw [← lintegral_indicator_one hs]
  refine lintegral_congr fun l => ?_
  by_cases hl : F ≤ flux l r <;> simp [Set.indicator, hl]

end Popsynth
