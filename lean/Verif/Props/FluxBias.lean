import Verif.Props.Eddington
import Verif.Props.Malmquist

/-!
# The fluxes of detected objects are measured too high (C96)
-/

set_option autoImplicit false
set_option linter.unusedSectionVars false

open MeasureTheory Filter
open scoped NNReal ENNReal

namespace Popsynth

/-- A brighter object is at least as likely to be detected. -/
def Spec.Rising (p : ℝ → ℝ≥0∞) : Prop := ∀ f f', 0 < f → f ≤ f' → p f ≤ p f'

/-- The probability that an error changes a flux by a factor of at least `t`. -/
noncomputable def Spec.excess (sigma : ℝ) (decimal : Bool) (t : ℝ) : ℝ≥0∞ :=
  Spec.noiseLaw (some sigma) {z | t ≤ Spec.errorFactor decimal z}

/-- How many measured fluxes of a variable exceed `t` times the true flux, and how many do not. -/
noncomputable def Spec.excessCounts (t : ℝ) (obs latent : List ℝ) : ℕ × ℕ :=
  ((obs.zip latent).countP fun x => decide (x.2 * t ≤ x.1),
    (obs.zip latent).countP fun x => decide (x.1 < x.2 * t))

theorem factor_one_le (b : Bool) (z : ℝ) : 1 ≤ Spec.errorFactor b z ↔ 0 ≤ z := by
  unfold Spec.errorFactor
  cases b
  · exact Real.one_le_exp_iff
  · simp only [if_true]
    exact ⟨fun h => by
      by_contra hz
      exact absurd h (not_le.2 (Real.rpow_lt_one_of_one_lt_of_neg (by norm_num) (not_le.1 hz))),
      fun h => Real.one_le_rpow (by norm_num) h⟩

theorem excess_half {sigma : ℝ} (h : sigma ≠ 0) (b : Bool) : Spec.excess sigma b 1 = 2⁻¹ := by
  unfold Spec.excess
  simp only [factor_one_le]
  obtain ⟨v, hv, hg⟩ := noise_gauss sigma
  have hv0 : v ≠ 0 := by
    rintro rfl
    exact h (by simpa using hv.symm)
  rw [hg]
  set γ := ProbabilityTheory.gaussianReal 0 v with hγ
  have h0 : γ {0} = 0 := ProbabilityTheory.gaussianReal_absolutelyContinuous 0 hv0 (by simp)
  have e1 : γ (Set.Iio 0) = γ (Set.Ioi 0) := by
    have hm : γ.map (fun x => -x) = γ := by
      rw [hγ, ProbabilityTheory.gaussianReal_map_neg, neg_zero]
    conv_lhs => rw [← hm, Measure.map_apply measurable_neg measurableSet_Iio]
    congr 1
    ext x
    simp
  have e2 : γ (Set.Ici 0) = γ (Set.Ioi 0) := by
    rw [← Set.Ioi_union_left]
    refine le_antisymm ((measure_union_le _ _).trans (by rw [h0, add_zero])) (measure_mono Set.subset_union_left)
  have e3 : γ (Set.Iio 0) + γ (Set.Ici 0) = 1 := by
    rw [← measure_union (by
      rw [Set.disjoint_left]
      exact fun x h1 h2 => absurd (Set.mem_Iio.1 h1) (not_lt.2 (Set.mem_Ici.1 h2))) measurableSet_Ici,
      Set.Iio_union_Ici, measure_univ]
  rw [e1, ← e2, ← two_mul] at e3
  exact (ENNReal.eq_inv_of_mul_eq_one_left (by rw [mul_comm]; exact e3) :)

section laws
variable {G : Type} [MeasurableSpace G] {P : Measure G} [IsProbabilityMeasure P]
  {e : SurveyEnv ℝ G} {env : DistEnv ℝ G} {c : SpClass ℝ}
  {tr : List ℝ → List ℝ → Except Err (List ℝ)} {y : Synth ℝ} {a : SurveyArgs ℝ} {s : SurvSt ℝ G}
  {flux : ℝ → ℝ → ℝ} {rm m sigma : ℝ} {vs : List ℝ} {Λ : ℝ≥0} {μL : Measure ℝ} {p : ℝ → ℝ≥0∞}

/-- Mean numbers of sources of a class that depends on distance, luminosity and error. -/
theorem error_lintegral (h : Spec.Lawful P e env c tr y a s flux rm m vs μL p)
    {D : Set (ℝ × ℝ × ℝ)} (hD : MeasurableSet D) {q : ℝ → ℝ≥0∞} (hq : Measurable q) :
    ∫⁻ x in {x : Spec.SkySource | (x.distance, x.luminosity, x.noise) ∈ D},
        Spec.detection e y a s flux q x ∂(Spec.intensity y a s c rm m vs Λ μL) =
      Λ * ∫⁻ r, ∫⁻ l, ∫⁻ z, D.indicator (fun _ => q (Spec.observed e
        (Spec.sigmaUsed (s.heap.selectors y.fluxSel).kind a) a.log10Draw (flux l r) z)) (r, l, z)
        ∂(Spec.noiseLaw (Spec.sigmaUsed (s.heap.selectors y.fluxSel).kind a)) ∂μL
        ∂(Spec.densityLaw (fun r => min (c.dens vs r) m) rm) := by
  have i1 := h.distance_prob
  have i2 := h.lumProb
  have hDs : MeasurableSet {x : Spec.SkySource | (x.distance, x.luminosity, x.noise) ∈ D} :=
    (SkySource.measurable_distance.prodMk
      (SkySource.measurable_luminosity.prodMk SkySource.measurable_noise)) hD
  have hf : Measurable fun t : ℝ × ℝ × ℝ => D.indicator (fun _ => q (Spec.observed e
      (Spec.sigmaUsed (s.heap.selectors y.fluxSel).kind a) a.log10Draw (flux t.2.1 t.1) t.2.2))
        (t.1, t.2.1, t.2.2) := by
    have g1 : Measurable fun t : ℝ × ℝ × ℝ => (t.2.1, t.1) := by fun_prop
    have g2 : Measurable fun t : ℝ × ℝ × ℝ => t.2.2 := by fun_prop
    exact (hq.comp (h.observed.comp ((h.fluxes.comp g1).prodMk g2))).indicator hD
  rw [← lintegral_indicator hDs]
  unfold Spec.intensity
  have en : ∀ μ : Measure Spec.SkySource, Λ • μ = (Λ : ℝ≥0∞) • μ := fun _ => rfl
  rw [en, lintegral_smul_measure, smul_eq_mul]
  congr 1
  refine Eq.trans (lintegral_congr fun x => ?_) (sourceLaw_lintegral _ _ _
    (f := fun r l z => D.indicator (fun _ => q (Spec.observed e
      (Spec.sigmaUsed (s.heap.selectors y.fluxSel).kind a) a.log10Draw (flux l r) z)) (r, l, z)) hf)
  rfl

/-- Distance, luminosity and error of the sources whose measured flux is at least `t` times the
true flux. -/
def exceeding (e : SurveyEnv ℝ G) (sigma : Option ℝ) (b : Bool) (flux : ℝ → ℝ → ℝ) (t : ℝ) :
    Set (ℝ × ℝ × ℝ) :=
  {x | flux x.2.1 x.1 * t ≤ Spec.observed e sigma b (flux x.2.1 x.1) x.2.2}

theorem exceeding_measurable (h : Spec.Lawful P e env c tr y a s flux rm m vs μL p) (t : ℝ) :
    MeasurableSet (exceeding e (Spec.sigmaUsed (s.heap.selectors y.fluxSel).kind a) a.log10Draw flux t) := by
  have g1 : Measurable fun x : ℝ × ℝ × ℝ => flux x.2.1 x.1 :=
    h.fluxes.comp (by fun_prop : Measurable fun x : ℝ × ℝ × ℝ => (x.2.1, x.1))
  have g2 : Measurable fun x : ℝ × ℝ × ℝ => Spec.observed e
      (Spec.sigmaUsed (s.heap.selectors y.fluxSel).kind a) a.log10Draw (flux x.2.1 x.1) x.2.2 :=
    h.observed.comp (g1.prodMk (by fun_prop : Measurable fun x : ℝ × ℝ × ℝ => x.2.2))
  exact measurableSet_le (g1.mul_const t) g2

theorem excess_measurable (b : Bool) (t : ℝ) : MeasurableSet {z | t ≤ Spec.errorFactor b z} :=
  measurableSet_le measurable_const (errorFactor_measurable b)

/-- A positive flux exceeds by `t` exactly when the factor of the error does. -/
theorem exceeding_iff (he : Spec.Precise e) {b : Bool} {t r l : ℝ} (hf : 0 < flux l r) (z : ℝ) :
    (r, l, z) ∈ exceeding e (some sigma) b flux t ↔ z ∈ {z | t ≤ Spec.errorFactor b z} := by
  show flux l r * t ≤ Spec.observed e (some sigma) b (flux l r) z ↔ t ≤ Spec.errorFactor b z
  rw [observed_factor he sigma b hf z]
  exact mul_le_mul_iff_of_pos_left hf

variable (h : Spec.Lawful P e env c tr y a s flux rm m vs μL p)
  (hc : Spec.Counted P e env c a rm vs Λ) (he : Spec.Precise e)
  (hs : Spec.sigmaUsed (s.heap.selectors y.fluxSel).kind a = some sigma)
  (hpos : ∀ r, 0 < r → r ≤ rm → ∀ l, 0 < l → 0 < flux l r) (hl : ∀ᵐ l ∂μL, 0 < l)

/-- What is detected with a large error, at a distance and a luminosity. -/
theorem excess_inner (he : Spec.Precise e) {b : Bool} {t r l : ℝ} (hf : 0 < flux l r) (q : ℝ → ℝ≥0∞) :
    ∫⁻ z, (exceeding e (some sigma) b flux t).indicator
        (fun _ => q (Spec.observed e (some sigma) b (flux l r) z)) (r, l, z) ∂(Spec.noiseLaw (some sigma)) =
      ∫⁻ z in {z | t ≤ Spec.errorFactor b z},
        q (Spec.observed e (some sigma) b (flux l r) z) ∂(Spec.noiseLaw (some sigma)) := by
  rw [← lintegral_indicator (excess_measurable b t)]
  refine lintegral_congr fun z => ?_
  by_cases hz : z ∈ {z | t ≤ Spec.errorFactor b z}
  · rw [Set.indicator_of_mem hz, Set.indicator_of_mem ((exceeding_iff he hf z).2 hz)]
  · rw [Set.indicator_of_notMem hz, Set.indicator_of_notMem fun h => hz ((exceeding_iff he hf z).1 h)]

theorem excess_ge (he : Spec.Precise e) {b : Bool} {t f : ℝ} (hf : 0 < f) {q : ℝ → ℝ≥0∞}
    (hq : Spec.Rising q) :
    (∫⁻ z, q (Spec.observed e (some sigma) b f z) ∂(Spec.noiseLaw (some sigma))) * Spec.excess sigma b t ≤
      ∫⁻ z in {z | t ≤ Spec.errorFactor b z},
        q (Spec.observed e (some sigma) b f z) ∂(Spec.noiseLaw (some sigma)) := by
  simp only [observed_factor he sigma b hf]
  by_cases ht : 0 < t
  · refine chebyshev_ge (excess_measurable b t) (c := q (f * t)) (.of_forall fun z hz => ?_)
      (.of_forall fun z hz => ?_)
    · exact hq _ _ (by positivity) (mul_le_mul_of_nonneg_left hz hf.le)
    · exact hq _ _ (mul_pos hf (errorFactor_pos b z))
        (mul_le_mul_of_nonneg_left (not_le.1 hz).le hf.le)
  · refine chebyshev_ge (excess_measurable b t) (c := 0) (.of_forall fun z hz => zero_le)
      (.of_forall fun z hz => absurd ((not_lt.1 ht).trans (errorFactor_pos b z).le) hz)

theorem excess_le (he : Spec.Precise e) {b : Bool} {t f : ℝ} (hf : 0 < f) {q : ℝ → ℝ≥0∞}
    (hq : ∀ f f', 0 < f → f ≤ f' → q f' ≤ q f) :
    ∫⁻ z in {z | t ≤ Spec.errorFactor b z},
        q (Spec.observed e (some sigma) b f z) ∂(Spec.noiseLaw (some sigma)) ≤
      (∫⁻ z, q (Spec.observed e (some sigma) b f z) ∂(Spec.noiseLaw (some sigma))) *
        Spec.excess sigma b t := by
  simp only [observed_factor he sigma b hf]
  by_cases ht : 0 < t
  · refine chebyshev_le (excess_measurable b t) (c := q (f * t)) (.of_forall fun z hz => ?_)
      (.of_forall fun z hz => ?_)
    · exact hq _ _ (by positivity) (mul_le_mul_of_nonneg_left hz hf.le)
    · exact hq _ _ (mul_pos hf (errorFactor_pos b z))
        (mul_le_mul_of_nonneg_left (not_le.1 hz).le hf.le)
  · refine chebyshev_le (excess_measurable b t) (c := ⊤) (.of_forall fun z hz => le_top)
      (.of_forall fun z hz => absurd ((not_lt.1 ht).trans (errorFactor_pos b z).le) hz)

include h hc he hs hpos hl in
/-- **C96**: the numbers of detected objects whose measured flux is at least `t` times the true
flux, of the other detected objects, and the same for undetected objects, are independent Poisson
numbers.  Measured fluxes that are too high have at least the share of the detected objects that
they have of the population, and at most that share of the undetected objects. -/
theorem C96_fluxes (hp : Spec.Rising p) (t : ℝ) (showProgress : Bool)
    (galB : List ℝ → List ℝ → List ℝ) :
    ∃ n1 n2 k1 k2 : ℝ≥0,
      Spec.Samples P (((ProbabilityTheory.poissonMeasure n1).prod (ProbabilityTheory.poissonMeasure n2)).prod
        ((ProbabilityTheory.poissonMeasure k1).prod (ProbabilityTheory.poissonMeasure k2)))
        (fun k g v g' => ∃ Q s' d u,
          drawSurvey (Spec.surveyEnv e env c.code showProgress tr galB k g) y a s = .ok Q s' ∧
          s'.heap.rng = g' ∧ (Q.fluxes.toSVar .float).selected = .ok d ∧
          (Q.fluxes.toSVar .float).nonSelected = .ok u ∧
          v.1 = Spec.excessCounts t d.obs d.latent ∧ v.2 = Spec.excessCounts t u.obs u.latent) ∧
      (n1 + n2 : ℝ≥0∞) * Spec.excess sigma a.log10Draw t ≤ n1 ∧
      k1 ≤ (k1 + k2 : ℝ≥0∞) * Spec.excess sigma a.log10Draw t ∧
      (n1 + k1 : ℝ≥0∞) = Λ * Spec.excess sigma a.log10Draw t ∧
      (n1 + n2 + (k1 + k2) : ℝ≥0∞) = Λ := by
  classical
  have i1 := h.distance_prob
  have i2 := h.lumProb
  have hD := exceeding_measurable h t
  have hC : MeasurableSet {x : Spec.SkySource | (x.distance, x.luminosity, x.noise) ∈
      exceeding e (Spec.sigmaUsed (s.heap.selectors y.fluxSel).kind a) a.log10Draw flux t} :=
    (SkySource.measurable_distance.prodMk
      (SkySource.measurable_luminosity.prodMk SkySource.measurable_noise)) hD
  have hcl := detected_classes (B := {x : Spec.SkySource | (x.distance, x.luminosity, x.noise) ∈
    exceeding e (Spec.sigmaUsed (s.heap.selectors y.fluxSel).kind a) a.log10Draw flux t}) h hc hC
    showProgress galB
  have hw := fun q (hq : Measurable q) => error_lintegral (Λ := Λ) h (D := Set.univ)
    MeasurableSet.univ (q := q) hq
  have hb := fun q (hq : Measurable q) => error_lintegral (Λ := Λ) h hD (q := q) hq
  have hmem := densityLaw_mem (f := fun r => min (c.dens vs r) m) rm
    (h.density.min measurable_const)
  have f1 := fun C => class_finite (Λ := Λ) h h.le_one C
  have f2 := fun C => class_finite (Λ := Λ) h (q := fun x => 1 - p x) (fun x => tsub_le_self) C
  have mp := h.detection_measurable
  have mp' : Measurable fun x => 1 - p x := measurable_const.sub mp
  have sum : ∀ q : ℝ → ℝ≥0∞, ∫⁻ x in {x : Spec.SkySource | (x.distance, x.luminosity, x.noise) ∈
        exceeding e (Spec.sigmaUsed (s.heap.selectors y.fluxSel).kind a) a.log10Draw flux t},
      Spec.detection e y a s flux q x ∂(Spec.intensity y a s c rm m vs Λ μL) +
      ∫⁻ x in {x : Spec.SkySource | (x.distance, x.luminosity, x.noise) ∈
        exceeding e (Spec.sigmaUsed (s.heap.selectors y.fluxSel).kind a) a.log10Draw flux t}ᶜ,
      Spec.detection e y a s flux q x ∂(Spec.intensity y a s c rm m vs Λ μL) =
      ∫⁻ x in {x : Spec.SkySource | (x.distance, x.luminosity, x.noise) ∈ (Set.univ : Set (ℝ × ℝ × ℝ))},
        Spec.detection e y a s flux q x ∂(Spec.intensity y a s c rm m vs Λ μL) := fun q => by
    rw [lintegral_add_compl _ hC]
    simp
  simp only [hs] at hw hb hcl sum
  have hex : Spec.excess sigma a.log10Draw t ≠ ⊤ := measure_ne_top _ _
  have f2' : ∀ C : Set Spec.SkySource, ∫⁻ x in C, 1 - Spec.detection e y a s flux p x
      ∂(Spec.intensity y a s c rm m vs Λ μL) ≠ ⊤ := f2
  have sum' := sum fun x => 1 - p x
  have hw' := hw _ mp'
  have hb' := hb _ mp'
  have hq : Measurable (Spec.detection e y a s flux p) := by
    have g1 : Measurable fun x : Spec.SkySource => (x.luminosity, x.distance) :=
      SkySource.measurable_luminosity.prodMk SkySource.measurable_distance
    exact h.detection_measurable.comp
      (h.observed.comp ((h.fluxes.comp g1).prodMk SkySource.measurable_noise))
  have one : ∀ x, Spec.detection e y a s flux p x + (1 - Spec.detection e y a s flux p x) = 1 :=
    fun x => add_tsub_cancel_of_le (h.le_one _)
  refine ⟨_, _, _, _, Samples.mono hcl ?_, ?_, ?_, ?_, ?_⟩
  · rintro k g v g' ⟨Q, s', d, u, q1, q2, q3, q4, q5⟩
    obtain ⟨x1, a1, b1, c1⟩ := q3.fluxes.selected
    obtain ⟨x2, a2, b2, c2⟩ := q3.fluxes.hidden
    refine ⟨Q, s', x1, x2, q1, q2, a1, a2, ?_⟩
    rw [q4, q5, b1, b2, c1, c2]
    simp only [Spec.excessCounts, List.zip_map', List.countP_map]
    have k1 : ∀ x : Spec.SkySource, (x ∈ {x : Spec.SkySource | (x.distance, x.luminosity, x.noise) ∈
        exceeding e (some sigma) a.log10Draw flux t}) ↔ flux x.luminosity x.distance * t ≤
          Spec.observed e (some sigma) a.log10Draw (flux x.luminosity x.distance) x.noise := fun x => Iff.rfl
    refine ⟨Prod.ext ?_ ?_, Prod.ext ?_ ?_⟩ <;> refine List.countP_congr fun x _ => ?_
    all_goals
      dsimp only [Function.comp_apply]
      rw [decide_eq_true_iff, decide_eq_true_iff, k1 x]
      try exact not_le
  · rw [ENNReal.coe_toNNReal (f1 _), ENNReal.coe_toNNReal (f1 _), sum p, hw p mp, hb p mp, mul_assoc]
    gcongr
    simp only [Set.indicator_univ]
    rw [← lintegral_mul_const' _ _ hex]
    refine lintegral_mono_ae (hmem.mono fun r hr => ?_)
    rw [← lintegral_mul_const' _ _ hex]
    refine lintegral_mono_ae (hl.mono fun l hl => ?_)
    have hf := hpos r hr.1 hr.2 l hl
    rw [excess_inner he hf]
    exact excess_ge he hf hp
  · unfold Spec.detection at sum' hw' hb' f2' ⊢
    rw [ENNReal.coe_toNNReal (f2' _), ENNReal.coe_toNNReal (f2' _), sum', hw', hb', mul_assoc]
    gcongr
    simp only [Set.indicator_univ]
    rw [← lintegral_mul_const' _ _ hex]
    refine lintegral_mono_ae (hmem.mono fun r hr => ?_)
    rw [← lintegral_mul_const' _ _ hex]
    refine lintegral_mono_ae (hl.mono fun l hl => ?_)
    have hf := hpos r hr.1 hr.2 l hl
    rw [excess_inner he hf fun x => 1 - p x]
    exact excess_le he hf fun f f' h0 h1 => tsub_le_tsub_left (hp f f' h0 h1) 1
  · rw [ENNReal.coe_toNNReal (f1 _), ENNReal.coe_toNNReal (f2' _), ← lintegral_add_left hq]
    simp only [one]
    refine (hb (fun _ => 1) measurable_const).trans ?_
    congr 1
    have : ∀ᵐ r ∂(Spec.densityLaw (fun r => min (c.dens vs r) m) rm), ∫⁻ l, ∫⁻ z,
        (exceeding e (some sigma) a.log10Draw flux t).indicator (fun _ => 1) (r, l, z)
          ∂(Spec.noiseLaw (some sigma)) ∂μL = Spec.excess sigma a.log10Draw t := hmem.mono fun r hr => by
      have : ∀ᵐ l ∂μL, ∫⁻ z, (exceeding e (some sigma) a.log10Draw flux t).indicator (fun _ => 1) (r, l, z)
          ∂(Spec.noiseLaw (some sigma)) = Spec.excess sigma a.log10Draw t := hl.mono fun l hl => by
        have := excess_inner (sigma := sigma) (b := a.log10Draw) (t := t) he (hpos r hr.1 hr.2 l hl) fun _ => 1
        rw [this]
        simp [Spec.excess]
      rw [lintegral_congr_ae this]
      simp
    rw [lintegral_congr_ae this]
    simp
  · have e1 : ∀ x, Spec.detection e y a s flux (fun x => 1 - p x) x =
        1 - Spec.detection e y a s flux p x := fun x => rfl
    simp only [e1] at sum'
    rw [ENNReal.coe_toNNReal (f1 _), ENNReal.coe_toNNReal (f1 _), ENNReal.coe_toNNReal (f2' _),
      ENNReal.coe_toNNReal (f2' _), sum p, sum', ← lintegral_add_left hq]
    simp only [one]
    refine (hw (fun _ => 1) measurable_const).trans ?_
    simp

include h hc he hs hpos hl in
/-- **C96** (too high rather than too low): at least half of the detected objects and at most half
of the undetected ones have measured fluxes that are not lower than the true ones, in the mean. -/
theorem C96_half (hp : Spec.Rising p) (hsigma : sigma ≠ 0) (showProgress : Bool)
    (galB : List ℝ → List ℝ → List ℝ) :
    ∃ n1 n2 k1 k2 : ℝ≥0,
      Spec.Samples P (((ProbabilityTheory.poissonMeasure n1).prod (ProbabilityTheory.poissonMeasure n2)).prod
        ((ProbabilityTheory.poissonMeasure k1).prod (ProbabilityTheory.poissonMeasure k2)))
        (fun k g v g' => ∃ Q s' d u,
          drawSurvey (Spec.surveyEnv e env c.code showProgress tr galB k g) y a s = .ok Q s' ∧
          s'.heap.rng = g' ∧ (Q.fluxes.toSVar .float).selected = .ok d ∧
          (Q.fluxes.toSVar .float).nonSelected = .ok u ∧
          v.1 = Spec.excessCounts 1 d.obs d.latent ∧ v.2 = Spec.excessCounts 1 u.obs u.latent) ∧
      n2 ≤ n1 ∧ k1 ≤ k2 := by
  obtain ⟨n1, n2, k1, k2, h0, h1, h2, -⟩ := C96_fluxes h hc he hs hpos hl hp 1 showProgress galB
  refine ⟨n1, n2, k1, k2, h0, ?_⟩
  rw [excess_half hsigma] at h1 h2
  rw [← ENNReal.coe_inv_two] at h1 h2
  norm_cast at h1 h2
  have h1' : ((n1 : ℝ) + n2) * 2⁻¹ ≤ n1 := by exact_mod_cast h1
  have h2' : (k1 : ℝ) ≤ (k1 + k2) * 2⁻¹ := by exact_mod_cast h2
  exact ⟨by exact_mod_cast (by linarith : (n2 : ℝ) ≤ n1), by exact_mod_cast (by linarith : (k1 : ℝ) ≤ k2)⟩

end laws

/-- **C96** (selections): hard and soft lower limits, coins and no selection. -/
theorem C96_selections :
    (∀ b, Spec.Rising ((Set.Ici b).indicator 1)) ∧
    (∀ k b, 0 ≤ k → Spec.Rising fun x =>
      ENNReal.ofReal (1 / (1 + Real.exp (-(k * (Real.logb 10 x - Real.logb 10 b)))))) ∧
    ∀ q, Spec.Rising fun _ => q := by
  refine ⟨fun b f f' h0 h1 => ?_, fun k b hk f f' h0 h1 => ?_, fun q f f' _ _ => le_rfl⟩
  · by_cases hb : b ≤ f
    · simp [Set.indicator, hb, hb.trans h1]
    · simp [Set.indicator, hb]
  · have hl := Real.logb_le_logb_of_le (b := 10) (by norm_num) h0 h1
    refine ENNReal.ofReal_le_ofReal ?_
    have h2 : Real.exp (-(k * (Real.logb 10 f' - Real.logb 10 b))) ≤
        Real.exp (-(k * (Real.logb 10 f - Real.logb 10 b))) := Real.exp_le_exp.2 (by nlinarith)
    have := Real.exp_pos (-(k * (Real.logb 10 f' - Real.logb 10 b)))
    exact one_div_le_one_div_of_le (by linarith) (by linarith)

namespace LawExample

/-- A survey with errors of half a decade and a hard limit: in the mean, more detected objects have
measured fluxes that are too high than too low. -/
example (showProgress : Bool) :
    ∃ n1 n2 k1 k2 : ℝ≥0,
      Spec.Samples seeds (((ProbabilityTheory.poissonMeasure n1).prod (ProbabilityTheory.poissonMeasure n2)).prod
        ((ProbabilityTheory.poissonMeasure k1).prod (ProbabilityTheory.poissonMeasure k2)))
        (fun k g v g' => ∃ Q s' d u,
          drawSurvey (Spec.surveyEnv survey2 env constantSpherical.code showProgress
            (fun ls ds => .ok (List.zipWith sphericalFluxes ls ds)) (fun a _ => a) k g) synth args state2 =
              .ok Q s' ∧
          s'.heap.rng = g' ∧ (Q.fluxes.toSVar .float).selected = .ok d ∧
          (Q.fluxes.toSVar .float).nonSelected = .ok u ∧
          v.1 = Spec.excessCounts 1 d.obs d.latent ∧ v.2 = Spec.excessCounts 1 u.obs u.latent) ∧
      n2 ≤ n1 ∧ k1 ≤ k2 := by
  have hp := Real.pi_pos
  have h1 : ∀ᵐ L ∂lums, L ∈ Set.Icc (1 : ℝ) 10 :=
    (withDensity_absolutelyContinuous _ _).ae_le (ae_restrict_mem measurableSet_Icc)
  exact C96_half lawful3 (Λ := mean) (sigma := 1 / 2) ⟨rfl, counted.poisson, counted.mean⟩
    ⟨fun _ _ => rfl, fun _ _ => rfl, fun _ => rfl, fun _ _ => rfl, fun _ => rfl⟩ rfl
    (fun r r0 _ l l0 => by rw [sphericalFluxes_eq r0.le]; positivity)
    (h1.mono fun L hL => by linarith [hL.1]) (C96_selections.1 _) (by norm_num) showProgress _

end LawExample
end Popsynth
