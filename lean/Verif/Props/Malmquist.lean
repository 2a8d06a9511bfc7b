import Verif.Props.LawCounts
import Verif.Props.LawEuclid
import Verif.Props.LawSurveyExample
import Verif.Lemmas.ProcessSums

/-!
# Malmquist bias (C92)
-/

set_option autoImplicit false
set_option linter.unusedSectionVars false

open MeasureTheory Filter
open scoped NNReal ENNReal

namespace Popsynth

/-- Objects look brighter when they are more luminous and when they are nearer. -/
structure Spec.Dimming (flux : ℝ → ℝ → ℝ) (rm : ℝ) : Prop where
  pos : ∀ r, 0 < r → r ≤ rm → ∀ l, 0 < l → 0 < flux l r
  luminous : ∀ r, 0 < r → r ≤ rm → ∀ l l', 0 < l → l ≤ l' → flux l r ≤ flux l' r
  distant : ∀ l, 0 < l → ∀ r r', 0 < r → r ≤ r' → r' ≤ rm → flux l r' ≤ flux l r

/-- With the same measurement error, a brighter object is at least as likely to be detected. -/
def Spec.Favours (obs : ℝ → ℝ → ℝ) (p : ℝ → ℝ≥0∞) : Prop :=
  ∀ x f f', 0 < f → f ≤ f' → p (obs f x) ≤ p (obs f' x)

variable {G : Type} [MeasurableSpace G] {P : Measure G} [IsProbabilityMeasure P]
  {e : SurveyEnv ℝ G} {env : DistEnv ℝ G} {c : SpClass ℝ}
  {tr : List ℝ → List ℝ → Except Err (List ℝ)} {y : Synth ℝ} {a : SurveyArgs ℝ} {s : SurvSt ℝ G}
  {flux : ℝ → ℝ → ℝ} {rm m : ℝ} {vs : List ℝ} {Λ : ℝ≥0} {μL : Measure ℝ} {p : ℝ → ℝ≥0∞}

/-- The numbers of detected and undetected sources of two classes. -/
theorem detected_classes (h : Spec.Lawful P e env c tr y a s flux rm m vs μL p)
    (hc : Spec.Counted P e env c a rm vs Λ) {B : Set Spec.SkySource} [DecidablePred (· ∈ B)]
    (hB : MeasurableSet B) (showProgress : Bool) (galB : List ℝ → List ℝ → List ℝ) :
    let κ := Spec.intensity y a s c rm m vs Λ μL
    let q := Spec.detection e y a s flux p
    Spec.Samples P
      (((ProbabilityTheory.poissonMeasure (∫⁻ x in B, q x ∂κ).toNNReal).prod
        (ProbabilityTheory.poissonMeasure (∫⁻ x in Bᶜ, q x ∂κ).toNNReal)).prod
        ((ProbabilityTheory.poissonMeasure (∫⁻ x in B, 1 - q x ∂κ).toNNReal).prod
        (ProbabilityTheory.poissonMeasure (∫⁻ x in Bᶜ, 1 - q x ∂κ).toNNReal)))
      fun k g v g' => ∃ Q s' d u,
        drawSurvey (Spec.surveyEnv e env c.code showProgress tr galB k g) y a s = .ok Q s' ∧
        s'.heap.rng = g' ∧ Spec.Splits Q flux (Spec.observed e
          (Spec.sigmaUsed (s.heap.selectors y.fluxSel).kind a) a.log10Draw) d u ∧
        v.1 = (d.countP (· ∈ B), d.countP (· ∉ B)) ∧
        v.2 = (u.countP (· ∈ B), u.countP (· ∉ B)) := by
  intro κ q
  have i2 := h.intensity_finite (Λ := Λ)
  have i3 := finite_withDensity κ (f := q) (fun x => h.le_one _)
  have i4 := finite_withDensity κ (f := fun x => 1 - q x) (fun x => tsub_le_self)
  have h1 := (process_classes (κ.withDensity q) hB).prod
    (process_classes (κ.withDensity fun x => 1 - q x) hB)
  rw [withDensity_apply _ hB, withDensity_apply _ hB.compl, withDensity_apply _ hB,
    withDensity_apply _ hB.compl] at h1
  refine Samples.mapTo (C75_thinning h hc showProgress galB) h1 ?_
  rintro k g v g' ⟨Q, s', q1, q2, q3⟩
  exact ⟨Q, s', v.1, v.2, q1, q2, q3, rfl, rfl⟩

theorem densityLaw_mem {f : ℝ → ℝ} (x : ℝ) (hf : Measurable f) :
    ∀ᵐ r ∂(Spec.densityLaw f x), 0 < r ∧ r ≤ x := by
  unfold Spec.densityLaw
  refine Measure.ae_smul_measure ?_ _
  have : (volume.restrict (Set.Icc 0 x)).withDensity (fun r => ENNReal.ofReal (f r)) ≪
      volume.restrict (Set.Icc 0 x) := withDensity_absolutelyContinuous _ _
  refine this.ae_le ?_
  rw [Measure.restrict_congr_set Ioc_ae_eq_Icc.symm]
  exact ae_restrict_mem measurableSet_Ioc

/-- A mean number of sources of a class. -/
theorem intensity_lintegral (h : Spec.Lawful P e env c tr y a s flux rm m vs μL p)
    {B : Set (ℝ × ℝ)} (hB : MeasurableSet B) {q : ℝ → ℝ≥0∞} (hq : Measurable q) :
    ∫⁻ x in {x : Spec.SkySource | (x.distance, x.luminosity) ∈ B},
        Spec.detection e y a s flux q x ∂(Spec.intensity y a s c rm m vs Λ μL) =
      Λ * ∫⁻ r, ∫⁻ l, B.indicator (fun _ => ∫⁻ z, q (Spec.observed e
        (Spec.sigmaUsed (s.heap.selectors y.fluxSel).kind a) a.log10Draw (flux l r) z)
        ∂(Spec.noiseLaw (Spec.sigmaUsed (s.heap.selectors y.fluxSel).kind a))) (r, l) ∂μL
        ∂(Spec.densityLaw (fun r => min (c.dens vs r) m) rm) := by
  have i1 := h.distance_prob
  have i2 := h.lumProb
  have hBs : MeasurableSet {x : Spec.SkySource | (x.distance, x.luminosity) ∈ B} :=
    (SkySource.measurable_distance.prodMk SkySource.measurable_luminosity) hB
  have hf : Measurable fun t : ℝ × ℝ × ℝ => B.indicator (fun _ => q (Spec.observed e
      (Spec.sigmaUsed (s.heap.selectors y.fluxSel).kind a) a.log10Draw (flux t.2.1 t.1) t.2.2))
        (t.1, t.2.1) := by
    have g1 : Measurable fun t : ℝ × ℝ × ℝ => (t.2.1, t.1) := by fun_prop
    have g2 : Measurable fun t : ℝ × ℝ × ℝ => t.2.2 := by fun_prop
    have g3 : Measurable fun t : ℝ × ℝ × ℝ => (t.1, t.2.1) := by fun_prop
    have := (hq.comp (h.observed.comp ((h.fluxes.comp g1).prodMk g2))).indicator (g3 hB)
    exact this
  rw [← lintegral_indicator hBs]
  unfold Spec.intensity
  have en : ∀ μ : Measure Spec.SkySource, Λ • μ = (Λ : ℝ≥0∞) • μ := fun _ => rfl
  rw [en, lintegral_smul_measure, smul_eq_mul]
  congr 1
  refine Eq.trans (lintegral_congr fun x => ?_) ((sourceLaw_lintegral _ _ _
    (f := fun r l z => B.indicator (fun _ => q (Spec.observed e
      (Spec.sigmaUsed (s.heap.selectors y.fluxSel).kind a) a.log10Draw (flux l r) z)) (r, l))
        hf).trans ?_)
  · rfl
  · refine lintegral_congr fun r => lintegral_congr fun l => ?_
    by_cases hb : (r, l) ∈ B <;> simp [hb]

/-! ### Shares of the luminous and of the near -/

section shares
variable {W : ℝ → ℝ → ℝ≥0∞} {μd : Measure ℝ} [IsProbabilityMeasure μd] [IsProbabilityMeasure μL]

theorem share_luminous_ge (hr : ∀ᵐ r ∂μd, 0 < r ∧ r ≤ rm) (hl : ∀ᵐ l ∂μL, 0 < l)
    (hW : ∀ r, 0 < r → r ≤ rm → ∀ l l', 0 < l → l ≤ l' → W r l ≤ W r l') (t : ℝ) :
    (∫⁻ r, ∫⁻ l, W r l ∂μL ∂μd) * μL (Set.Ici t) ≤
      ∫⁻ r, ∫⁻ l, {b : ℝ × ℝ | t ≤ b.2}.indicator (fun b => W b.1 b.2) (r, l) ∂μL ∂μd := by
  rw [← lintegral_mul_const' _ _ (measure_ne_top μL _)]
  refine lintegral_mono_ae (hr.mono fun r hr => ?_)
  have e1 : ∫⁻ l, {b : ℝ × ℝ | t ≤ b.2}.indicator (fun b => W b.1 b.2) (r, l) ∂μL =
      ∫⁻ l in Set.Ici t, W r l ∂μL := by
    rw [← lintegral_indicator measurableSet_Ici]; rfl
  rw [e1]
  by_cases ht : 0 < t
  · refine chebyshev_ge measurableSet_Ici (c := W r t) (.of_forall fun l h => hW r hr.1 hr.2 t l ht h)
      (hl.mono fun l h0 h => hW r hr.1 hr.2 l t h0 (not_le.1 h).le)
  · exact chebyshev_ge measurableSet_Ici (c := 0) (.of_forall fun l _ => zero_le)
      (hl.mono fun l h0 h => absurd (h0.trans (not_le.1 h)) ht)

theorem share_luminous_le (hr : ∀ᵐ r ∂μd, 0 < r ∧ r ≤ rm) (hl : ∀ᵐ l ∂μL, 0 < l)
    (hW : ∀ r, 0 < r → r ≤ rm → ∀ l l', 0 < l → l ≤ l' → W r l' ≤ W r l) (t : ℝ) :
    ∫⁻ r, ∫⁻ l, {b : ℝ × ℝ | t ≤ b.2}.indicator (fun b => W b.1 b.2) (r, l) ∂μL ∂μd ≤
      (∫⁻ r, ∫⁻ l, W r l ∂μL ∂μd) * μL (Set.Ici t) := by
  rw [← lintegral_mul_const' _ _ (measure_ne_top μL _)]
  refine lintegral_mono_ae (hr.mono fun r hr => ?_)
  have e1 : ∫⁻ l, {b : ℝ × ℝ | t ≤ b.2}.indicator (fun b => W b.1 b.2) (r, l) ∂μL =
      ∫⁻ l in Set.Ici t, W r l ∂μL := by
    rw [← lintegral_indicator measurableSet_Ici]; rfl
  rw [e1]
  by_cases ht : 0 < t
  · refine chebyshev_le measurableSet_Ici (c := W r t) (.of_forall fun l h => hW r hr.1 hr.2 t l ht h)
      (hl.mono fun l h0 h => hW r hr.1 hr.2 l t h0 (not_le.1 h).le)
  · exact chebyshev_le measurableSet_Ici (c := ⊤) (.of_forall fun l _ => le_top)
      (hl.mono fun l h0 h => absurd (h0.trans (not_le.1 h)) ht)

theorem share_near_ge (hr : ∀ᵐ r ∂μd, 0 < r ∧ r ≤ rm) (hl : ∀ᵐ l ∂μL, 0 < l)
    (hW : ∀ l, 0 < l → ∀ r r', 0 < r → r ≤ r' → r' ≤ rm → W r' l ≤ W r l) (t : ℝ) :
    (∫⁻ r, ∫⁻ l, W r l ∂μL ∂μd) * μd (Set.Iic t) ≤
      ∫⁻ r, ∫⁻ l, {b : ℝ × ℝ | b.1 ≤ t}.indicator (fun b => W b.1 b.2) (r, l) ∂μL ∂μd := by
  have e1 : ∫⁻ r, ∫⁻ l, {b : ℝ × ℝ | b.1 ≤ t}.indicator (fun b => W b.1 b.2) (r, l) ∂μL ∂μd =
      ∫⁻ r in Set.Iic t, ∫⁻ l, W r l ∂μL ∂μd := by
    rw [← lintegral_indicator measurableSet_Iic]
    refine lintegral_congr fun r => ?_
    by_cases h : r ≤ t <;> simp [Set.indicator, h]
  rw [e1]
  by_cases h0 : 0 < t
  · by_cases h1 : t ≤ rm
    · refine chebyshev_ge measurableSet_Iic (c := ∫⁻ l, W t l ∂μL) (hr.mono fun r hr h => ?_)
        (hr.mono fun r hr h => ?_)
      · exact lintegral_mono_ae (hl.mono fun l hl => hW l hl r t hr.1 h h1)
      · exact lintegral_mono_ae (hl.mono fun l hl => hW l hl t r h0 (not_le.1 h).le hr.2)
    · exact chebyshev_ge measurableSet_Iic (c := 0) (.of_forall fun _ _ => zero_le)
        (hr.mono fun r hr h => absurd ((not_le.1 h).le.trans hr.2) h1)
  · exact chebyshev_ge measurableSet_Iic (c := ⊤)
      (hr.mono fun r hr h => absurd (hr.1.trans_le h) h0) (.of_forall fun _ _ => le_top)

theorem share_near_le (hr : ∀ᵐ r ∂μd, 0 < r ∧ r ≤ rm) (hl : ∀ᵐ l ∂μL, 0 < l)
    (hW : ∀ l, 0 < l → ∀ r r', 0 < r → r ≤ r' → r' ≤ rm → W r l ≤ W r' l) (t : ℝ) :
    ∫⁻ r, ∫⁻ l, {b : ℝ × ℝ | b.1 ≤ t}.indicator (fun b => W b.1 b.2) (r, l) ∂μL ∂μd ≤
      (∫⁻ r, ∫⁻ l, W r l ∂μL ∂μd) * μd (Set.Iic t) := by
  have e1 : ∫⁻ r, ∫⁻ l, {b : ℝ × ℝ | b.1 ≤ t}.indicator (fun b => W b.1 b.2) (r, l) ∂μL ∂μd =
      ∫⁻ r in Set.Iic t, ∫⁻ l, W r l ∂μL ∂μd := by
    rw [← lintegral_indicator measurableSet_Iic]
    refine lintegral_congr fun r => ?_
    by_cases h : r ≤ t <;> simp [Set.indicator, h]
  rw [e1]
  by_cases h0 : 0 < t
  · by_cases h1 : t ≤ rm
    · refine chebyshev_le measurableSet_Iic (c := ∫⁻ l, W t l ∂μL) (hr.mono fun r hr h => ?_)
        (hr.mono fun r hr h => ?_)
      · exact lintegral_mono_ae (hl.mono fun l hl => hW l hl r t hr.1 h h1)
      · exact lintegral_mono_ae (hl.mono fun l hl => hW l hl t r h0 (not_le.1 h).le hr.2)
    · exact chebyshev_le measurableSet_Iic (c := ⊤) (.of_forall fun _ _ => le_top)
        (hr.mono fun r hr h => absurd ((not_le.1 h).le.trans hr.2) h1)
  · exact chebyshev_le measurableSet_Iic (c := 0)
      (hr.mono fun r hr h => absurd (hr.1.trans_le h) h0) (.of_forall fun _ _ => zero_le)

end shares

/-- The law of the distances of a survey: density proportional to the (cut) density. -/
noncomputable def Spec.distanceLaw (c : SpClass ℝ) (rm m : ℝ) (vs : List ℝ) : Measure ℝ :=
  Spec.densityLaw (fun r => min (c.dens vs r) m) rm

/-- Mean numbers of detected and undetected sources of a class that depends on distance and
luminosity. -/
theorem class_numbers (h : Spec.Lawful P e env c tr y a s flux rm m vs μL p)
    {B : Set (ℝ × ℝ)} (hB : MeasurableSet B) :
    let κ := Spec.intensity y a s c rm m vs Λ μL
    let q := Spec.detection e y a s flux p
    let C := {x : Spec.SkySource | (x.distance, x.luminosity) ∈ B}
    ∫⁻ x in C, q x ∂κ + ∫⁻ x in C, 1 - q x ∂κ =
      Λ * ∫⁻ r, ∫⁻ l, B.indicator 1 (r, l) ∂μL ∂(Spec.distanceLaw c rm m vs) := by
  intro κ q C
  have hq : Measurable q := by
    have g1 : Measurable fun x : Spec.SkySource => (x.luminosity, x.distance) :=
      SkySource.measurable_luminosity.prodMk SkySource.measurable_distance
    exact h.detection_measurable.comp
      (h.observed.comp ((h.fluxes.comp g1).prodMk SkySource.measurable_noise))
  have e1 : ∀ x, q x + (1 - q x) = 1 := fun x => add_tsub_cancel_of_le (h.le_one _)
  rw [← lintegral_add_left hq]
  simp only [e1]
  have e2 := intensity_lintegral (Λ := Λ) h hB (q := fun _ => 1) measurable_const
  unfold Spec.detection at e2
  refine e2.trans ?_
  have i1 : IsProbabilityMeasure (Spec.noiseLaw (Spec.sigmaUsed (s.heap.selectors y.fluxSel).kind a)) :=
    noiseLaw_prob _
  simp only [lintegral_const, measure_univ, mul_one]
  rfl

theorem selected_obs {Q : Population ℝ} {obs : ℝ → ℝ → ℝ} {d u : List Spec.SkySource}
    (hs : Spec.Splits Q flux obs d u) :
    (∃ v, (Q.luminosities.toSVar .float).selected = .ok v ∧ v.latent = d.map Spec.SkySource.luminosity) ∧
    (∃ v, (Q.luminosities.toSVar .float).nonSelected = .ok v ∧ v.latent = u.map Spec.SkySource.luminosity) ∧
    (∃ v, (Q.distances.toSVar .float).selected = .ok v ∧ v.latent = d.map Spec.SkySource.distance) ∧
    (∃ v, (Q.distances.toSVar .float).nonSelected = .ok v ∧ v.latent = u.map Spec.SkySource.distance) := by
  obtain ⟨v1, a1, -, b1⟩ := hs.luminosities.selected
  obtain ⟨v2, a2, -, b2⟩ := hs.luminosities.hidden
  obtain ⟨v3, a3, -, b3⟩ := hs.distances.selected
  obtain ⟨v4, a4, -, b4⟩ := hs.distances.hidden
  exact ⟨⟨v1, a1, b1⟩, ⟨v2, a2, b2⟩, ⟨v3, a3, b3⟩, ⟨v4, a4, b4⟩⟩

section bias
variable (h : Spec.Lawful P e env c tr y a s flux rm m vs μL p)
  (hc : Spec.Counted P e env c a rm vs Λ) (hd : Spec.Dimming flux rm) (hl : ∀ᵐ l ∂μL, 0 < l)
  (hp : Spec.Favours (Spec.observed e (Spec.sigmaUsed (s.heap.selectors y.fluxSel).kind a)
    a.log10Draw) p)
include h

theorem class_finite {q : ℝ → ℝ≥0∞} (hq : ∀ x, q x ≤ 1) (C : Set Spec.SkySource) :
    ∫⁻ x in C, Spec.detection e y a s flux q x ∂(Spec.intensity y a s c rm m vs Λ μL) ≠ ⊤ := by
  have i2 := h.intensity_finite (Λ := Λ)
  refine ne_top_of_le_ne_top (measure_ne_top (Spec.intensity y a s c rm m vs Λ μL) C) ?_
  calc ∫⁻ x in C, Spec.detection e y a s flux q x ∂(Spec.intensity y a s c rm m vs Λ μL)
      ≤ ∫⁻ x in C, 1 ∂(Spec.intensity y a s c rm m vs Λ μL) := lintegral_mono fun x => hq _
    _ = _ := by simp

include hc hd hl hp

/-- **C92** (luminosities): the numbers of detected objects that are at least as luminous as `t`,
of the other detected objects, of undetected objects that are at least as luminous as `t` and of
the other undetected objects are independent Poisson numbers.  Luminous objects have at least
the share of the detected objects that they have of the population, and at most that share of
the undetected objects. -/
theorem C92_luminosity (t : ℝ) (showProgress : Bool) (galB : List ℝ → List ℝ → List ℝ) :
    ∃ n1 n2 k1 k2 : ℝ≥0,
      Spec.Samples P (((ProbabilityTheory.poissonMeasure n1).prod (ProbabilityTheory.poissonMeasure n2)).prod
        ((ProbabilityTheory.poissonMeasure k1).prod (ProbabilityTheory.poissonMeasure k2)))
        (fun k g v g' => ∃ Q s' d u,
          drawSurvey (Spec.surveyEnv e env c.code showProgress tr galB k g) y a s = .ok Q s' ∧
          s'.heap.rng = g' ∧ (Q.luminosities.toSVar .float).selected = .ok d ∧
          (Q.luminosities.toSVar .float).nonSelected = .ok u ∧
          v.1.1 = d.latent.countP (t ≤ ·) ∧ v.1.2 = d.latent.countP (· < t) ∧
          v.2.1 = u.latent.countP (t ≤ ·) ∧ v.2.2 = u.latent.countP (· < t)) ∧
      (n1 + n2 : ℝ≥0∞) * μL (Set.Ici t) ≤ n1 ∧ k1 ≤ (k1 + k2 : ℝ≥0∞) * μL (Set.Ici t) ∧
      (n1 + k1 : ℝ≥0∞) = Λ * μL (Set.Ici t) ∧ (n2 + k2 : ℝ≥0∞) = Λ * μL (Set.Iio t) := by
  have i1 := h.distance_prob
  have i2 := h.lumProb
  have hB : MeasurableSet {b : ℝ × ℝ | t ≤ b.2} := measurableSet_le measurable_const measurable_snd
  have hC : MeasurableSet {x : Spec.SkySource | (x.distance, x.luminosity) ∈ {b : ℝ × ℝ | t ≤ b.2}} :=
    (SkySource.measurable_distance.prodMk SkySource.measurable_luminosity) hB
  have hs := detected_classes (B := {x : Spec.SkySource | (x.distance, x.luminosity) ∈
    {b : ℝ × ℝ | t ≤ b.2}}) h hc hC showProgress galB
  have ht := fun q (hq : Measurable q) => intensity_lintegral (Λ := Λ) h (B := Set.univ)
    MeasurableSet.univ (q := q) hq
  have hb := fun q (hq : Measurable q) => intensity_lintegral (Λ := Λ) h hB (q := q) hq
  have hmem := densityLaw_mem (f := fun r => min (c.dens vs r) m) rm
    (h.density.min measurable_const)
  have f1 := fun C => class_finite (Λ := Λ) h h.le_one C
  have f2 := fun C => class_finite (Λ := Λ) h (q := fun x => 1 - p x) (fun x => tsub_le_self) C
  have mp := h.detection_measurable
  have mp' : Measurable fun x => 1 - p x := measurable_const.sub mp
  have sum : ∀ q : ℝ → ℝ≥0∞, ∫⁻ x in {x : Spec.SkySource | (x.distance, x.luminosity) ∈ {b : ℝ × ℝ | t ≤ b.2}},
      Spec.detection e y a s flux q x ∂(Spec.intensity y a s c rm m vs Λ μL) +
      ∫⁻ x in {x : Spec.SkySource | (x.distance, x.luminosity) ∈ {b : ℝ × ℝ | t ≤ b.2}}ᶜ,
      Spec.detection e y a s flux q x ∂(Spec.intensity y a s c rm m vs Λ μL) =
      ∫⁻ x in {x : Spec.SkySource | (x.distance, x.luminosity) ∈ (Set.univ : Set (ℝ × ℝ))},
        Spec.detection e y a s flux q x ∂(Spec.intensity y a s c rm m vs Λ μL) := fun q => by
    rw [lintegral_add_compl _ hC]
    simp
  refine ⟨_, _, _, _, Samples.mono hs ?_, ?_, ?_, ?_, ?_⟩
  · rintro k g v g' ⟨Q, s', d, u, q1, q2, q3, q4, q5⟩
    obtain ⟨⟨x1, a1, b1⟩, ⟨x2, a2, b2⟩, -, -⟩ := selected_obs q3
    refine ⟨Q, s', x1, x2, q1, q2, a1, a2, ?_⟩
    rw [q4, q5, b1, b2]
    simp [List.countP_map, Function.comp_def]
  · rw [ENNReal.coe_toNNReal (f1 _), ENNReal.coe_toNNReal (f1 _), sum p, ht p mp, hb p mp, mul_assoc]
    gcongr
    simp only [Set.indicator_univ]
    refine share_luminous_ge hmem hl (fun r r0 r1 l l' l0 l1 => ?_) t
    exact lintegral_mono fun z => hp z _ _ (hd.pos r r0 r1 l l0) (hd.luminous r r0 r1 l l' l0 l1)
  · have sum' := sum fun x => 1 - p x
    have ht' := ht _ mp'
    have hb' := hb _ mp'
    have f2' := f2
    unfold Spec.detection at sum' ht' hb' f2' ⊢
    rw [ENNReal.coe_toNNReal (f2' _), ENNReal.coe_toNNReal (f2' _), sum', ht', hb', mul_assoc]
    gcongr
    simp only [Set.indicator_univ]
    refine share_luminous_le hmem hl (fun r r0 r1 l l' l0 l1 => ?_) t
    exact lintegral_mono fun z => tsub_le_tsub_left
      (hp z _ _ (hd.pos r r0 r1 l l0) (hd.luminous r r0 r1 l l' l0 l1)) 1
  · have f2' : ∫⁻ x in {x : Spec.SkySource | (x.distance, x.luminosity) ∈ {b : ℝ × ℝ | t ≤ b.2}},
        1 - Spec.detection e y a s flux p x ∂(Spec.intensity y a s c rm m vs Λ μL) ≠ ⊤ := f2 _
    rw [ENNReal.coe_toNNReal (f1 _), ENNReal.coe_toNNReal f2', class_numbers h hB]
    congr 1
    have : ∀ r : ℝ, ∫⁻ l, {b : ℝ × ℝ | t ≤ b.2}.indicator 1 (r, l) ∂μL = μL (Set.Ici t) := fun r => by
      rw [← lintegral_indicator_one measurableSet_Ici]; rfl
    simp only [this, Spec.distanceLaw, lintegral_const, measure_univ, mul_one]
  · have f2' : ∫⁻ x in {x : Spec.SkySource | (x.distance, x.luminosity) ∈ {b : ℝ × ℝ | t ≤ b.2}}ᶜ,
        1 - Spec.detection e y a s flux p x ∂(Spec.intensity y a s c rm m vs Λ μL) ≠ ⊤ := f2 _
    rw [ENNReal.coe_toNNReal (f1 _), ENNReal.coe_toNNReal f2']
    refine (class_numbers h (B := {b : ℝ × ℝ | t ≤ b.2}ᶜ) hB.compl).trans ?_
    congr 1
    have : ∀ r : ℝ, ∫⁻ l, {b : ℝ × ℝ | t ≤ b.2}ᶜ.indicator 1 (r, l) ∂μL = μL (Set.Iio t) := fun r => by
      rw [← lintegral_indicator_one measurableSet_Iio]
      refine lintegral_congr fun l => ?_
      by_cases hl : t ≤ l <;> simp [Set.indicator, hl, not_le.1, not_lt.2]
    simp only [this, Spec.distanceLaw, lintegral_const, measure_univ, mul_one]

/-- **C92** (distances): near objects have at least the share of the detected objects that they
have of the population, and at most that share of the undetected objects; the numbers are
independent Poisson numbers. -/
theorem C92_distance (t : ℝ) (showProgress : Bool) (galB : List ℝ → List ℝ → List ℝ) :
    ∃ n1 n2 k1 k2 : ℝ≥0,
      Spec.Samples P (((ProbabilityTheory.poissonMeasure n1).prod (ProbabilityTheory.poissonMeasure n2)).prod
        ((ProbabilityTheory.poissonMeasure k1).prod (ProbabilityTheory.poissonMeasure k2)))
        (fun k g v g' => ∃ Q s' d u,
          drawSurvey (Spec.surveyEnv e env c.code showProgress tr galB k g) y a s = .ok Q s' ∧
          s'.heap.rng = g' ∧ (Q.distances.toSVar .float).selected = .ok d ∧
          (Q.distances.toSVar .float).nonSelected = .ok u ∧
          v.1.1 = d.latent.countP (· ≤ t) ∧ v.1.2 = d.latent.countP (t < ·) ∧
          v.2.1 = u.latent.countP (· ≤ t) ∧ v.2.2 = u.latent.countP (t < ·)) ∧
      (n1 + n2 : ℝ≥0∞) * Spec.distanceLaw c rm m vs (Set.Iic t) ≤ n1 ∧ k1 ≤ (k1 + k2 : ℝ≥0∞) * Spec.distanceLaw c rm m vs (Set.Iic t) ∧
      (n1 + k1 : ℝ≥0∞) = Λ * Spec.distanceLaw c rm m vs (Set.Iic t) ∧ (n2 + k2 : ℝ≥0∞) = Λ * Spec.distanceLaw c rm m vs (Set.Ioi t) := by
  have i1 := h.distance_prob
  have i2 := h.lumProb
  have hB : MeasurableSet {b : ℝ × ℝ | b.1 ≤ t} := measurableSet_le measurable_fst measurable_const
  have hC : MeasurableSet {x : Spec.SkySource | (x.distance, x.luminosity) ∈ {b : ℝ × ℝ | b.1 ≤ t}} :=
    (SkySource.measurable_distance.prodMk SkySource.measurable_luminosity) hB
  have hs := detected_classes (B := {x : Spec.SkySource | (x.distance, x.luminosity) ∈
    {b : ℝ × ℝ | b.1 ≤ t}}) h hc hC showProgress galB
  have ht := fun q (hq : Measurable q) => intensity_lintegral (Λ := Λ) h (B := Set.univ)
    MeasurableSet.univ (q := q) hq
  have hb := fun q (hq : Measurable q) => intensity_lintegral (Λ := Λ) h hB (q := q) hq
  have hmem := densityLaw_mem (f := fun r => min (c.dens vs r) m) rm
    (h.density.min measurable_const)
  have f1 := fun C => class_finite (Λ := Λ) h h.le_one C
  have f2 := fun C => class_finite (Λ := Λ) h (q := fun x => 1 - p x) (fun x => tsub_le_self) C
  have mp := h.detection_measurable
  have mp' : Measurable fun x => 1 - p x := measurable_const.sub mp
  have sum : ∀ q : ℝ → ℝ≥0∞, ∫⁻ x in {x : Spec.SkySource | (x.distance, x.luminosity) ∈ {b : ℝ × ℝ | b.1 ≤ t}},
      Spec.detection e y a s flux q x ∂(Spec.intensity y a s c rm m vs Λ μL) +
      ∫⁻ x in {x : Spec.SkySource | (x.distance, x.luminosity) ∈ {b : ℝ × ℝ | b.1 ≤ t}}ᶜ,
      Spec.detection e y a s flux q x ∂(Spec.intensity y a s c rm m vs Λ μL) =
      ∫⁻ x in {x : Spec.SkySource | (x.distance, x.luminosity) ∈ (Set.univ : Set (ℝ × ℝ))},
        Spec.detection e y a s flux q x ∂(Spec.intensity y a s c rm m vs Λ μL) := fun q => by
    rw [lintegral_add_compl _ hC]
    simp
  refine ⟨_, _, _, _, Samples.mono hs ?_, ?_, ?_, ?_, ?_⟩
  · rintro k g v g' ⟨Q, s', d, u, q1, q2, q3, q4, q5⟩
    obtain ⟨-, -, ⟨x1, a1, b1⟩, ⟨x2, a2, b2⟩⟩ := selected_obs q3
    refine ⟨Q, s', x1, x2, q1, q2, a1, a2, ?_⟩
    rw [q4, q5, b1, b2]
    simp [List.countP_map, Function.comp_def]
  · rw [ENNReal.coe_toNNReal (f1 _), ENNReal.coe_toNNReal (f1 _), sum p, ht p mp, hb p mp, mul_assoc]
    gcongr
    simp only [Set.indicator_univ]
    refine share_near_ge hmem hl (fun l l0 r r' r0 rr r1 => ?_) t
    exact lintegral_mono fun z => hp z _ _ (hd.pos r' (r0.trans_le rr) r1 l l0) (hd.distant l l0 r r' r0 rr r1)
  · have sum' := sum fun x => 1 - p x
    have ht' := ht _ mp'
    have hb' := hb _ mp'
    have f2' := f2
    unfold Spec.detection at sum' ht' hb' f2' ⊢
    rw [ENNReal.coe_toNNReal (f2' _), ENNReal.coe_toNNReal (f2' _), sum', ht', hb', mul_assoc]
    gcongr
    simp only [Set.indicator_univ]
    refine share_near_le hmem hl (fun l l0 r r' r0 rr r1 => ?_) t
    exact lintegral_mono fun z => tsub_le_tsub_left
      (hp z _ _ (hd.pos r' (r0.trans_le rr) r1 l l0) (hd.distant l l0 r r' r0 rr r1)) 1
  · have f2' : ∫⁻ x in {x : Spec.SkySource | (x.distance, x.luminosity) ∈ {b : ℝ × ℝ | b.1 ≤ t}},
        1 - Spec.detection e y a s flux p x ∂(Spec.intensity y a s c rm m vs Λ μL) ≠ ⊤ := f2 _
    rw [ENNReal.coe_toNNReal (f1 _), ENNReal.coe_toNNReal f2', class_numbers h hB]
    congr 1
    have : ∀ r : ℝ, ∫⁻ l, {b : ℝ × ℝ | b.1 ≤ t}.indicator 1 (r, l) ∂μL = (Set.Iic t).indicator 1 r := fun r => by
      by_cases hr : r ≤ t <;> simp [Set.indicator, hr]
    simp only [this, lintegral_indicator_one measurableSet_Iic]
  · have f2' : ∫⁻ x in {x : Spec.SkySource | (x.distance, x.luminosity) ∈ {b : ℝ × ℝ | b.1 ≤ t}}ᶜ,
        1 - Spec.detection e y a s flux p x ∂(Spec.intensity y a s c rm m vs Λ μL) ≠ ⊤ := f2 _
    rw [ENNReal.coe_toNNReal (f1 _), ENNReal.coe_toNNReal f2']
    refine (class_numbers h (B := {b : ℝ × ℝ | b.1 ≤ t}ᶜ) hB.compl).trans ?_
    congr 1
    have : ∀ r : ℝ, ∫⁻ l, {b : ℝ × ℝ | b.1 ≤ t}ᶜ.indicator 1 (r, l) ∂μL = (Set.Ioi t).indicator 1 r := fun r => by
      by_cases hr : r ≤ t
      · simp [Set.indicator, hr, not_lt.2 hr]
      · simp [Set.indicator, hr, not_le.1 hr]
    simp only [this, lintegral_indicator_one measurableSet_Ioi]

end bias

/-! ### Surveys of the package -/

theorem falls_dimming {F : ℝ → ℝ → Option ℝ} (h : Spec.FallsWithDistance F (Set.Ioi 0)) (rm : ℝ) :
    Spec.Dimming (fun L r => (F L r).getD 0) rm := by
  refine ⟨fun r r0 _ l l0 => ?_, fun r r0 _ l l' l0 l1 => ?_, fun l l0 r r' r0 rr _ => ?_⟩
  · obtain ⟨v, hv, e⟩ := h.positive l l0 r r0
    simpa [e] using hv
  · obtain ⟨k, hk⟩ := h.linear r r0
    obtain ⟨v, hv, e⟩ := h.positive l l0 r r0
    have : 0 < k * l := by rw [hk l] at e; cases e; exact hv
    have hk0 : 0 < k := by
      by_contra hn
      have := mul_nonpos_of_nonpos_of_nonneg (not_lt.1 hn) l0.le
      linarith
    simp only [hk, Option.getD_some]
    gcongr
  · rcases rr.eq_or_lt with rfl | hlt
    · exact le_rfl
    · obtain ⟨v, v', e1, e2, hv⟩ := h.falls l l0 r r0 r' (r0.trans hlt) hlt
      simp only [e1, e2, Option.getD_some]
      exact hv.le

/-- **C92** (fluxes): spherical and cosmological populations look brighter when they are more
luminous and when they are nearer. -/
theorem C92_fluxes (rm : ℝ) :
    Spec.Dimming (fun L r => (sphericalFlux L r).getD 0) rm ∧
    ∀ c : Cosmo, Spec.FlatCosmology c → Spec.Dimming (fun L z => (cosmologicalFlux c L z).getD 0) rm := by
  refine ⟨falls_dimming ⟨fun r hr => ?_, fun L hL r hr => ?_, fun L hL r hr r' hr' h => ?_⟩ rm,
    fun c h => falls_dimming (C54_cosmological_partial h).1 rm⟩
  · exact C54_spherical.1.linear r (Set.mem_Ici.2 (le_of_lt hr))
  · exact C54_spherical.1.positive L hL r (Set.mem_Ici.2 (le_of_lt hr))
  · exact C54_spherical.1.falls L hL r (Set.mem_Ici.2 (le_of_lt hr)) r' (Set.mem_Ici.2 (le_of_lt hr')) h

/-- **C92** (selections): a hard lower limit on the flux, a soft limit of positive strength, a
coin and no selection favour bright objects, with and without measurement error. -/
theorem C92_selections {G : Type} (e : SurveyEnv ℝ G) (sigma : Option ℝ) (log10Draw : Bool)
    (hadd : ∀ x z, e.add x z = x + z) (h10 : ∀ x, e.log10 x = Real.logb 10 x)
    (hp10 : ∀ x, e.pow10 x = (10 : ℝ) ^ x) (hln : ∀ x, e.ln x = Real.log x)
    (hexp : ∀ x, e.exp x = Real.exp x) :
    (∀ b, Spec.Favours (Spec.observed e sigma log10Draw) ((Set.Ici b).indicator 1)) ∧
    (∀ k b, 0 ≤ k → Spec.Favours (Spec.observed e sigma log10Draw) fun x =>
      ENNReal.ofReal (1 / (1 + Real.exp (-(k * (Real.logb 10 x - Real.logb 10 b)))))) ∧
    ∀ q, Spec.Favours (Spec.observed e sigma log10Draw) fun _ => q := by
  have hobs : ∀ x f f', 0 < f → f ≤ f' → 0 < Spec.observed e sigma log10Draw f x ∧
      Spec.observed e sigma log10Draw f x ≤ Spec.observed e sigma log10Draw f' x := by
    intro x f f' h0 h1
    unfold Spec.observed
    cases sigma with
    | none => exact ⟨h0, h1⟩
    | some v =>
      have hl : Real.logb 10 f ≤ Real.logb 10 f' := Real.logb_le_logb_of_le (by norm_num) h0 h1
      have hn : Real.log f ≤ Real.log f' := Real.log_le_log h0 h1
      cases log10Draw
      · simp only [Bool.false_eq_true, if_false, hexp, hadd, hln]
        exact ⟨Real.exp_pos _, Real.exp_le_exp.2 (by linarith)⟩
      · simp only [if_true, hp10, hadd, h10]
        exact ⟨Real.rpow_pos_of_pos (by norm_num) _,
          Real.rpow_le_rpow_of_exponent_le (by norm_num) (by linarith)⟩
  refine ⟨fun b x f f' h0 h1 => ?_, fun k b hk x f f' h0 h1 => ?_, fun q x f f' _ _ => le_rfl⟩
  · obtain ⟨-, h⟩ := hobs x f f' h0 h1
    by_cases hb : b ≤ Spec.observed e sigma log10Draw f x
    · simp [Set.indicator, hb, hb.trans h]
    · simp [Set.indicator, hb]
  · obtain ⟨hp, h⟩ := hobs x f f' h0 h1
    have hl := Real.logb_le_logb_of_le (b := 10) (by norm_num) hp h
    refine ENNReal.ofReal_le_ofReal ?_
    have : Real.exp (-(k * (Real.logb 10 (Spec.observed e sigma log10Draw f' x) - Real.logb 10 b))) ≤
        Real.exp (-(k * (Real.logb 10 (Spec.observed e sigma log10Draw f x) - Real.logb 10 b))) :=
      Real.exp_le_exp.2 (by nlinarith)
    have := Real.exp_pos (-(k * (Real.logb 10 (Spec.observed e sigma log10Draw f' x) - Real.logb 10 b)))
    exact one_div_le_one_div_of_le (by linarith) (by linarith)

namespace LawExample

theorem dims : Spec.Dimming (fun l d => l / (4 * Real.pi * d ^ 2)) 10 := by
  have hp := Real.pi_pos
  refine ⟨fun r r0 _ l l0 => by positivity, fun r r0 _ l l' l0 l1 => by gcongr,
    fun l l0 r r' r0 rr _ => by gcongr⟩

/-- Half of the population of this survey, with a soft flux limit and measurement errors, is
more luminous than 0.5: at least half of the detected objects are, in the mean. -/
example (showProgress : Bool) : ∃ n1 n2 k1 k2 : ℝ≥0,
    Spec.Samples seeds (((ProbabilityTheory.poissonMeasure n1).prod (ProbabilityTheory.poissonMeasure n2)).prod
      ((ProbabilityTheory.poissonMeasure k1).prod (ProbabilityTheory.poissonMeasure k2)))
      (fun k g v g' => ∃ Q s' d u,
        drawSurvey (Spec.surveyEnv survey LawExample.env constantSpherical.code showProgress
          (fun ls ds => .ok (List.zipWith (fun l d => l / (4 * Real.pi * d ^ 2)) ls ds)) (fun a _ => a) k g)
          synth args state = .ok Q s' ∧
        s'.heap.rng = g' ∧ (Q.luminosities.toSVar .float).selected = .ok d ∧
        (Q.luminosities.toSVar .float).nonSelected = .ok u ∧
        v.1.1 = d.latent.countP (1 / 2 ≤ ·) ∧ v.1.2 = d.latent.countP (· < 1 / 2) ∧
        v.2.1 = u.latent.countP (1 / 2 ≤ ·) ∧ v.2.2 = u.latent.countP (· < 1 / 2)) ∧ n2 ≤ n1 ∧ k1 ≤ k2 := by
  obtain ⟨n1, n2, k1, k2, hs, h1, h2, -⟩ := C92_luminosity lawful counted dims (by
      unfold Spec.uniformLaw
      refine Measure.ae_smul_measure ?_ _
      rw [Measure.restrict_congr_set Ioc_ae_eq_Icc.symm]
      exact (ae_restrict_mem measurableSet_Ioc).mono fun l h => h.1)
    ((C92_selections survey _ _ (fun _ _ => rfl) (fun _ => rfl) (fun _ => rfl) (fun _ => rfl)
      fun _ => rfl).2.1 2 (1 / 1000) (by norm_num)) (1 / 2) showProgress fun a _ => a
  refine ⟨n1, n2, k1, k2, hs, ?_⟩
  have hh : Spec.uniformLaw 1 (Set.Ici (1 / 2)) = ENNReal.ofReal (1 / 2) := by
    unfold Spec.uniformLaw
    rw [Measure.smul_apply, Measure.restrict_apply measurableSet_Ici]
    have : Set.Ici (1 / 2 : ℝ) ∩ Set.Icc 0 1 = Set.Icc (1 / 2) 1 := by
      ext u
      simp only [Set.mem_inter_iff, Set.mem_Ici, Set.mem_Icc]
      exact ⟨fun h => ⟨h.1, h.2.2⟩, fun h => ⟨h.1, by linarith [h.1], h.2⟩⟩
    rw [this, Real.volume_Icc]
    norm_num
  rw [hh] at h1 h2
  have hc : ENNReal.ofReal (1 / 2) = ((1 / 2 : ℝ≥0) : ℝ≥0∞) := by
    rw [ENNReal.ofReal]
    congr 1
    ext
    simp
  rw [hc] at h1 h2
  norm_cast at h1 h2
  have h1' : ((n1 : ℝ) + n2) * (1 / 2) ≤ n1 := by exact_mod_cast h1
  have h2' : (k1 : ℝ) ≤ (k1 + k2) * (1 / 2) := by exact_mod_cast h2
  exact ⟨by exact_mod_cast (by linarith : (n2 : ℝ) ≤ n1), by exact_mod_cast (by linarith : (k1 : ℝ) ≤ k2)⟩

end LawExample
end Popsynth
