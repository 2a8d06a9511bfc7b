import Verif.Props.Weights
import Verif.Lemmas.ProcessAverage

/-!
# Average luminosities and distances of detected objects (C92)
-/

set_option autoImplicit false
set_option linter.unusedSectionVars false

open MeasureTheory Filter
open scoped NNReal ENNReal

namespace Popsynth

variable {G : Type} [MeasurableSpace G] {P : Measure G} [IsProbabilityMeasure P]
  {e : SurveyEnv ℝ G} {env : DistEnv ℝ G} {c : SpClass ℝ}
  {tr : List ℝ → List ℝ → Except Err (List ℝ)} {y : Synth ℝ} {a : SurveyArgs ℝ} {s : SurvSt ℝ G}
  {flux : ℝ → ℝ → ℝ} {rm m : ℝ} {vs : List ℝ} {Λ : ℝ≥0} {μL : Measure ℝ} {p : ℝ → ℝ≥0∞}

/-- Averages over what a program samples from two Poisson processes. -/
theorem two_averages {α : Type} [MeasurableSpace α] {κ κ' : Measure α} [IsFiniteMeasure κ]
    [IsFiniteMeasure κ'] {R : ℕ → G → List α × List α → G → Prop}
    (h : Spec.Samples P ((Spec.poissonProcess κ).prod (Spec.poissonProcess κ')) R) :
    ∃ (D U : G → List α) (Z Z' : ℝ≥0∞), (∀ᵐ g ∂P, ∀ᶠ k in atTop, ∃ g', R k g (D g, U g) g') ∧
      P {g | D g ≠ []} = κ Set.univ * Z ∧ P {g | U g ≠ []} = κ' Set.univ * Z' ∧
      ∀ f : α → ℝ≥0∞, Measurable f →
        ∫⁻ g, Spec.average f (D g) ∂P = (∫⁻ x, f x ∂κ) * Z ∧
        ∫⁻ g, Spec.average f (U g) ∂P = (∫⁻ x, f x ∂κ') * Z' := by
  obtain ⟨T, hT, hR⟩ := h
  obtain ⟨Z, z1, z2⟩ := process_average κ
  obtain ⟨Z', z3, z4⟩ := process_average κ'
  have hD : MeasurePreserving (fun g => (T g).1.1) P (Spec.poissonProcess κ) :=
    measurePreserving_fst.comp (measurePreserving_fst.comp hT)
  have hU : MeasurePreserving (fun g => (T g).1.2) P (Spec.poissonProcess κ') :=
    measurePreserving_snd.comp (measurePreserving_fst.comp hT)
  have hm : MeasurableSet {l : List α | l ≠ []} := by
    have : {l : List α | l ≠ []} = List.length ⁻¹' {n | n ≠ 0} := by ext l; simp
    rw [this]
    exact measurable_length MeasurableSet.of_discrete
  refine ⟨fun g => (T g).1.1, fun g => (T g).1.2, Z, Z', ?_, ?_, ?_, fun f hf => ⟨?_, ?_⟩⟩
  · filter_upwards [hR] with g hg
    filter_upwards [hg] with k hk
    exact ⟨_, hk⟩
  · rw [← z1, ← hD.measure_preimage hm.nullMeasurableSet]; rfl
  · rw [← z3, ← hU.measure_preimage hm.nullMeasurableSet]; rfl
  · rw [← z2 f hf]; exact hD.lintegral_comp (average_measurable hf)
  · rw [← z4 f hf]; exact hU.lintegral_comp (average_measurable hf)

section bias
variable (h : Spec.Lawful P e env c tr y a s flux rm m vs μL p)
  (hc : Spec.Counted P e env c a rm vs Λ) (hd : Spec.Dimming flux rm) (hl : ∀ᵐ l ∂μL, 0 < l)
  (hp : Spec.Favours (Spec.observed e (Spec.sigmaUsed (s.heap.selectors y.fluxSel).kind a)
    a.log10Draw) p)
include h

/-- Objects that are missed, by luminosity. -/
theorem missed_luminosity (l : ℝ) :
    Spec.seenLuminosity e y a s flux (fun x => 1 - p x) c rm m vs l =
      1 - Spec.seenLuminosity e y a s flux p c rm m vs l := by
  have i1 : IsProbabilityMeasure (Spec.noiseLaw (Spec.sigmaUsed (s.heap.selectors y.fluxSel).kind a)) :=
    noiseLaw_prob _
  have i2 : IsProbabilityMeasure (Spec.distanceLaw c rm m vs) := h.distance_prob
  have m0 : ∀ r, Measurable fun z => p (Spec.observed e (Spec.sigmaUsed (s.heap.selectors y.fluxSel).kind a)
      a.log10Draw (flux l r) z) := fun r =>
    h.detection_measurable.comp (h.observed.comp (measurable_const.prodMk measurable_id))
  have e1 : ∀ r, Spec.seenAt e y a s flux (fun x => 1 - p x) l r = 1 - Spec.seenAt e y a s flux p l r := by
    intro r
    unfold Spec.seenAt
    rw [lintegral_sub (m0 r) (ne_top_of_le_ne_top ENNReal.one_ne_top (seenAt_le h l r))
      (Eventually.of_forall fun z => h.le_one _)]
    simp
  have mr : Measurable fun r => Spec.seenAt e y a s flux p l r :=
    (seenAt_measurable h h.detection_measurable).comp (measurable_const.prodMk measurable_id)
  unfold Spec.seenLuminosity
  simp only [e1]
  rw [lintegral_sub mr (ne_top_of_le_ne_top ENNReal.one_ne_top (seenLuminosity_le h l))
    (Eventually.of_forall fun r => seenAt_le h l r)]
  simp

/-- Objects that are missed, by distance. -/
theorem missed_distance (r : ℝ) :
    Spec.seenDistance e y a s flux (fun x => 1 - p x) μL r =
      1 - Spec.seenDistance e y a s flux p μL r := by
  have i1 : IsProbabilityMeasure (Spec.noiseLaw (Spec.sigmaUsed (s.heap.selectors y.fluxSel).kind a)) :=
    noiseLaw_prob _
  have i2 := h.lumProb
  have m0 : ∀ l, Measurable fun z => p (Spec.observed e (Spec.sigmaUsed (s.heap.selectors y.fluxSel).kind a)
      a.log10Draw (flux l r) z) := fun l =>
    h.detection_measurable.comp (h.observed.comp (measurable_const.prodMk measurable_id))
  have e1 : ∀ l, Spec.seenAt e y a s flux (fun x => 1 - p x) l r = 1 - Spec.seenAt e y a s flux p l r := by
    intro l
    unfold Spec.seenAt
    rw [lintegral_sub (m0 l) (ne_top_of_le_ne_top ENNReal.one_ne_top (seenAt_le h l r))
      (Eventually.of_forall fun z => h.le_one _)]
    simp
  have mr : Measurable fun l => Spec.seenAt e y a s flux p l r :=
    (seenAt_measurable h h.detection_measurable).comp (measurable_id.prodMk measurable_const)
  unfold Spec.seenDistance
  simp only [e1]
  rw [lintegral_sub mr (ne_top_of_le_ne_top ENNReal.one_ne_top (seenDistance_le h r))
    (Eventually.of_forall fun l => seenAt_le h l r)]
  simp

include hc in
theorem both_luminosities (showProgress : Bool) (galB : List ℝ → List ℝ → List ℝ) :
    Spec.Samples P ((Spec.poissonProcess (μL.withDensity fun L =>
        Λ * Spec.seenLuminosity e y a s flux p c rm m vs L)).prod
        (Spec.poissonProcess (μL.withDensity fun L =>
          Λ * (1 - Spec.seenLuminosity e y a s flux p c rm m vs L))))
      fun k g v g' => ∃ Q s' d u,
        drawSurvey (Spec.surveyEnv e env c.code showProgress tr galB k g) y a s = .ok Q s' ∧
        s'.heap.rng = g' ∧ (Q.luminosities.toSVar .float).selected = .ok d ∧ d.latent = v.1 ∧
        (Q.luminosities.toSVar .float).nonSelected = .ok u ∧ u.latent = v.2 := by
  have i2 := h.intensity_finite (Λ := Λ)
  have i3 := finite_withDensity (Spec.intensity y a s c rm m vs Λ μL)
    (f := Spec.detection e y a s flux p) (fun x => h.le_one _)
  have i4 := finite_withDensity (Spec.intensity y a s c rm m vs Λ μL)
    (f := fun x => 1 - Spec.detection e y a s flux p x) (fun x => tsub_le_self)
  have k2 := luminosity_intensity (Λ := Λ) h (p' := fun x => 1 - p x) (measurable_const.sub h.detection_measurable)
  simp only [missed_luminosity h] at k2
  have hm := measurable_map_list SkySource.measurable_luminosity
  refine Samples.mapTo (C75_thinning h hc showProgress galB)
    (f := Prod.map (List.map Spec.SkySource.luminosity) (List.map Spec.SkySource.luminosity))
    ⟨hm.prodMap hm, ?_⟩ ?_
  · rw [← Measure.map_prod_map _ _ hm hm, process_map _ SkySource.measurable_luminosity,
      process_map _ SkySource.measurable_luminosity, luminosity_intensity h h.detection_measurable, ← k2]
    rfl
  · rintro k g v g' ⟨Q, s', q1, q2, q3⟩
    obtain ⟨⟨d, a1, b1⟩, ⟨u, a2, b2⟩, -⟩ := selected_obs q3
    exact ⟨Q, s', d, u, q1, q2, a1, b1, a2, b2⟩

include hc in
theorem both_distances (showProgress : Bool) (galB : List ℝ → List ℝ → List ℝ) :
    Spec.Samples P ((Spec.poissonProcess ((Spec.distanceLaw c rm m vs).withDensity fun r =>
        Λ * Spec.seenDistance e y a s flux p μL r)).prod
        (Spec.poissonProcess ((Spec.distanceLaw c rm m vs).withDensity fun r =>
          Λ * (1 - Spec.seenDistance e y a s flux p μL r))))
      fun k g v g' => ∃ Q s' d u,
        drawSurvey (Spec.surveyEnv e env c.code showProgress tr galB k g) y a s = .ok Q s' ∧
        s'.heap.rng = g' ∧ (Q.distances.toSVar .float).selected = .ok d ∧ d.latent = v.1 ∧
        (Q.distances.toSVar .float).nonSelected = .ok u ∧ u.latent = v.2 := by
  have i2 := h.intensity_finite (Λ := Λ)
  have i3 := finite_withDensity (Spec.intensity y a s c rm m vs Λ μL)
    (f := Spec.detection e y a s flux p) (fun x => h.le_one _)
  have i4 := finite_withDensity (Spec.intensity y a s c rm m vs Λ μL)
    (f := fun x => 1 - Spec.detection e y a s flux p x) (fun x => tsub_le_self)
  have k2 := distance_intensity (Λ := Λ) h (p' := fun x => 1 - p x) (measurable_const.sub h.detection_measurable)
  simp only [missed_distance h] at k2
  have hm := measurable_map_list SkySource.measurable_distance
  refine Samples.mapTo (C75_thinning h hc showProgress galB)
    (f := Prod.map (List.map Spec.SkySource.distance) (List.map Spec.SkySource.distance))
    ⟨hm.prodMap hm, ?_⟩ ?_
  · rw [← Measure.map_prod_map _ _ hm hm, process_map _ SkySource.measurable_distance,
      process_map _ SkySource.measurable_distance, distance_intensity h h.detection_measurable, ← k2]
    rfl
  · rintro k g v g' ⟨Q, s', q1, q2, q3⟩
    obtain ⟨-, -, ⟨d, a1, b1⟩, u, a2, b2⟩ := selected_obs q3
    exact ⟨Q, s', d, u, q1, q2, a1, b1, a2, b2⟩

include hd hp in
/-- More luminous objects are more likely detected. -/
theorem seenLuminosity_mono {l l' : ℝ} (h0 : 0 < l) (h1 : l ≤ l') :
    Spec.seenLuminosity e y a s flux p c rm m vs l ≤ Spec.seenLuminosity e y a s flux p c rm m vs l' := by
  have hmem := densityLaw_mem (f := fun r => min (c.dens vs r) m) rm (h.density.min measurable_const)
  refine lintegral_mono_ae (hmem.mono fun r hr => lintegral_mono fun z => ?_)
  exact hp z _ _ (hd.pos r hr.1 hr.2 l h0) (hd.luminous r hr.1 hr.2 l l' h0 h1)

include hd hl hp in
/-- More distant objects are less likely detected. -/
theorem seenDistance_anti {r r' : ℝ} (h0 : 0 < r) (h1 : r ≤ r') (h2 : r' ≤ rm) :
    Spec.seenDistance e y a s flux p μL r' ≤ Spec.seenDistance e y a s flux p μL r := by
  refine lintegral_mono_ae (hl.mono fun l l0 => lintegral_mono fun z => ?_)
  exact hp z _ _ (hd.pos r' (h0.trans_le h1) h2 l l0) (hd.distant l l0 r r' h0 h1 h2)

include hc hd hl hp

/-- **C92** (average luminosity): the average over the detected objects of any function that grows
with luminosity exceeds, in the mean over the seeds that give detections, its mean in the
population; the average over the undetected objects falls short of it. -/
theorem C92_average_luminosity (showProgress : Bool) (galB : List ℝ → List ℝ → List ℝ) :
    ∃ D U : G → List ℝ,
      (∀ᵐ g ∂P, ∀ᶠ k in atTop, ∃ Q s' d u,
        drawSurvey (Spec.surveyEnv e env c.code showProgress tr galB k g) y a s = .ok Q s' ∧
        (Q.luminosities.toSVar .float).selected = .ok d ∧ d.latent = D g ∧
        (Q.luminosities.toSVar .float).nonSelected = .ok u ∧ u.latent = U g) ∧
      ∀ w : ℝ → ℝ≥0∞, Monotone w →
        P {g | D g ≠ []} * ∫⁻ L, w L ∂μL ≤ ∫⁻ g, Spec.average w (D g) ∂P ∧
        ∫⁻ g, Spec.average w (U g) ∂P ≤ P {g | U g ≠ []} * ∫⁻ L, w L ∂μL := by
  have i1 := h.lumProb
  have ms := seenLuminosity_measurable h h.detection_measurable
  have ms' : Measurable fun L => 1 - Spec.seenLuminosity e y a s flux p c rm m vs L := measurable_const.sub ms
  have f1 := finite_withDensity μL (f := Spec.seenLuminosity e y a s flux p c rm m vs) (seenLuminosity_le h)
  have fin : ∀ f : ℝ → ℝ≥0∞, Measurable f → (∀ x, f x ≤ 1) → IsFiniteMeasure (μL.withDensity fun L => Λ * f L) :=
    fun f hf hf1 => isFiniteMeasure_withDensity (ne_top_of_le_ne_top (b := (Λ : ℝ≥0∞)) ENNReal.coe_ne_top (by
      rw [lintegral_const_mul _ hf]
      calc (Λ : ℝ≥0∞) * ∫⁻ x, f x ∂μL ≤ Λ * ∫⁻ _, 1 ∂μL := by gcongr; exact hf1 _
        _ = Λ := by simp))
  have i3 := fin _ ms (seenLuminosity_le h)
  have i4 := fin _ ms' (fun x => tsub_le_self)
  obtain ⟨D, U, Z, Z', k1, k2, k3, k4⟩ := two_averages (both_luminosities h hc showProgress galB)
  refine ⟨D, U, ?_, fun w hw => ?_⟩
  · filter_upwards [k1] with g hg
    filter_upwards [hg] with k hk
    obtain ⟨g', Q, s', d, u, q1, -, q2, q3, q4, q5⟩ := hk
    exact ⟨Q, s', d, u, q1, q2, q3, q4, q5⟩
  · have mw := hw.measurable
    obtain ⟨j1, j2⟩ := k4 w mw
    have tot : ∀ f : ℝ → ℝ≥0∞, Measurable f → (μL.withDensity fun L => Λ * f L) Set.univ = Λ * ∫⁻ L, f L ∂μL :=
      fun f hf => by
        rw [withDensity_apply _ MeasurableSet.univ, Measure.restrict_univ, lintegral_const_mul _ hf]
    have sum : ∀ f : ℝ → ℝ≥0∞, Measurable f → ∫⁻ L, w L ∂(μL.withDensity fun L => Λ * f L) =
        Λ * ∫⁻ L, f L * w L ∂μL := fun f hf => by
      have hfw : Measurable fun x => f x * w x := hf.mul mw
      rw [lintegral_withDensity_eq_lintegral_mul _ (hf.const_mul _) mw, ← lintegral_const_mul _ hfw]
      refine lintegral_congr fun L => ?_
      simp only [Pi.mul_apply, mul_assoc]
    rw [j1, j2, k2, k3, tot _ ms, tot _ ms', sum _ ms, sum _ ms']
    have c1 : (∫⁻ L, Spec.seenLuminosity e y a s flux p c rm m vs L ∂μL) * ∫⁻ L, w L ∂μL ≤
        ∫⁻ L, Spec.seenLuminosity e y a s flux p c rm m vs L * w L ∂μL := by
      refine agree_le μL ms mw (hl.mono fun x hx => hl.mono fun z hz => ?_)
      rcases le_total x z with hxz | hxz
      · exact rearrange (seenLuminosity_mono h hd hp hx hxz) (hw hxz)
      · have := rearrange (seenLuminosity_mono h hd hp hz hxz) (hw hxz)
        exact (add_comm _ _).trans_le (this.trans_eq (add_comm _ _))
    have c2 : ∫⁻ L, (1 - Spec.seenLuminosity e y a s flux p c rm m vs L) * w L ∂μL ≤
        (∫⁻ L, 1 - Spec.seenLuminosity e y a s flux p c rm m vs L ∂μL) * ∫⁻ L, w L ∂μL := by
      refine disagree_le μL ms' mw (hl.mono fun x hx => hl.mono fun z hz => ?_)
      rcases le_total x z with hxz | hxz
      · have := rearrange (tsub_le_tsub_left (seenLuminosity_mono h hd hp hx hxz) 1) (hw hxz)
        exact (add_comm _ _).trans_le (this.trans_eq (add_comm _ _))
      · exact rearrange (tsub_le_tsub_left (seenLuminosity_mono h hd hp hz hxz) 1) (hw hxz)
    constructor
    · calc _ = Λ * ((∫⁻ L, Spec.seenLuminosity e y a s flux p c rm m vs L ∂μL) * ∫⁻ L, w L ∂μL) * Z := by ring
        _ ≤ _ := by gcongr
    · calc _ ≤ Λ * ((∫⁻ L, 1 - Spec.seenLuminosity e y a s flux p c rm m vs L ∂μL) * ∫⁻ L, w L ∂μL) * Z' := by
            gcongr
        _ = _ := by ring

/-- **C92** (average distance): the average distance of the detected objects falls short of that of
the population, that of the undetected objects exceeds it. -/
theorem C92_average_distance (showProgress : Bool) (galB : List ℝ → List ℝ → List ℝ) :
    ∃ D U : G → List ℝ,
      (∀ᵐ g ∂P, ∀ᶠ k in atTop, ∃ Q s' d u,
        drawSurvey (Spec.surveyEnv e env c.code showProgress tr galB k g) y a s = .ok Q s' ∧
        (Q.distances.toSVar .float).selected = .ok d ∧ d.latent = D g ∧
        (Q.distances.toSVar .float).nonSelected = .ok u ∧ u.latent = U g) ∧
      ∀ w : ℝ → ℝ≥0∞, Monotone w →
        ∫⁻ g, Spec.average w (D g) ∂P ≤ P {g | D g ≠ []} * ∫⁻ r, w r ∂(Spec.distanceLaw c rm m vs) ∧
        P {g | U g ≠ []} * ∫⁻ r, w r ∂(Spec.distanceLaw c rm m vs) ≤ ∫⁻ g, Spec.average w (U g) ∂P := by
  have i1 : IsProbabilityMeasure (Spec.distanceLaw c rm m vs) := h.distance_prob
  have hmem : ∀ᵐ r ∂(Spec.distanceLaw c rm m vs), 0 < r ∧ r ≤ rm :=
    densityLaw_mem (f := fun r => min (c.dens vs r) m) rm (h.density.min measurable_const)
  have ms := seenDistance_measurable h h.detection_measurable
  have ms' : Measurable fun r => 1 - Spec.seenDistance e y a s flux p μL r := measurable_const.sub ms
  have fin : ∀ f : ℝ → ℝ≥0∞, Measurable f → (∀ x, f x ≤ 1) →
      IsFiniteMeasure ((Spec.distanceLaw c rm m vs).withDensity fun r => Λ * f r) :=
    fun f hf hf1 => isFiniteMeasure_withDensity (ne_top_of_le_ne_top (b := (Λ : ℝ≥0∞)) ENNReal.coe_ne_top (by
      rw [lintegral_const_mul _ hf]
      calc (Λ : ℝ≥0∞) * ∫⁻ x, f x ∂(Spec.distanceLaw c rm m vs) ≤ Λ * ∫⁻ _, 1 ∂(Spec.distanceLaw c rm m vs) := by
            gcongr; exact hf1 _
        _ = Λ := by simp))
  have i3 := fin _ ms (seenDistance_le h)
  have i4 := fin _ ms' (fun x => tsub_le_self)
  obtain ⟨D, U, Z, Z', k1, k2, k3, k4⟩ := two_averages (both_distances h hc showProgress galB)
  refine ⟨D, U, ?_, fun w hw => ?_⟩
  · filter_upwards [k1] with g hg
    filter_upwards [hg] with k hk
    obtain ⟨g', Q, s', d, u, q1, -, q2, q3, q4, q5⟩ := hk
    exact ⟨Q, s', d, u, q1, q2, q3, q4, q5⟩
  · have mw := hw.measurable
    obtain ⟨j1, j2⟩ := k4 w mw
    have tot : ∀ f : ℝ → ℝ≥0∞, Measurable f → ((Spec.distanceLaw c rm m vs).withDensity fun r => Λ * f r) Set.univ =
        Λ * ∫⁻ r, f r ∂(Spec.distanceLaw c rm m vs) := fun f hf => by
      rw [withDensity_apply _ MeasurableSet.univ, Measure.restrict_univ, lintegral_const_mul _ hf]
    have sum : ∀ f : ℝ → ℝ≥0∞, Measurable f → ∫⁻ r, w r ∂((Spec.distanceLaw c rm m vs).withDensity fun r => Λ * f r) =
        Λ * ∫⁻ r, f r * w r ∂(Spec.distanceLaw c rm m vs) := fun f hf => by
      have hfw : Measurable fun x => f x * w x := hf.mul mw
      rw [lintegral_withDensity_eq_lintegral_mul _ (hf.const_mul _) mw, ← lintegral_const_mul _ hfw]
      refine lintegral_congr fun L => ?_
      simp only [Pi.mul_apply, mul_assoc]
    rw [j1, j2, k2, k3, tot _ ms, tot _ ms', sum _ ms, sum _ ms']
    have c1 : ∫⁻ r, Spec.seenDistance e y a s flux p μL r * w r ∂(Spec.distanceLaw c rm m vs) ≤
        (∫⁻ r, Spec.seenDistance e y a s flux p μL r ∂(Spec.distanceLaw c rm m vs)) *
          ∫⁻ r, w r ∂(Spec.distanceLaw c rm m vs) := by
      refine disagree_le _ ms mw (hmem.mono fun x hx => hmem.mono fun z hz => ?_)
      rcases le_total x z with hxz | hxz
      · have := rearrange (seenDistance_anti h hd hl hp hx.1 hxz hz.2) (hw hxz)
        exact (add_comm _ _).trans_le (this.trans_eq (add_comm _ _))
      · exact rearrange (seenDistance_anti h hd hl hp hz.1 hxz hx.2) (hw hxz)
    have c2 : (∫⁻ r, 1 - Spec.seenDistance e y a s flux p μL r ∂(Spec.distanceLaw c rm m vs)) *
          ∫⁻ r, w r ∂(Spec.distanceLaw c rm m vs) ≤
        ∫⁻ r, (1 - Spec.seenDistance e y a s flux p μL r) * w r ∂(Spec.distanceLaw c rm m vs) := by
      refine agree_le _ ms' mw (hmem.mono fun x hx => hmem.mono fun z hz => ?_)
      rcases le_total x z with hxz | hxz
      · exact rearrange (tsub_le_tsub_left (seenDistance_anti h hd hl hp hx.1 hxz hz.2) 1) (hw hxz)
      · have := rearrange (tsub_le_tsub_left (seenDistance_anti h hd hl hp hz.1 hxz hx.2) 1) (hw hxz)
        exact (add_comm _ _).trans_le (this.trans_eq (add_comm _ _))
    constructor
    · calc _ ≤ Λ * ((∫⁻ r, Spec.seenDistance e y a s flux p μL r ∂(Spec.distanceLaw c rm m vs)) *
            ∫⁻ r, w r ∂(Spec.distanceLaw c rm m vs)) * Z := by gcongr
        _ = _ := by ring
    · calc _ = Λ * ((∫⁻ r, 1 - Spec.seenDistance e y a s flux p μL r ∂(Spec.distanceLaw c rm m vs)) *
            ∫⁻ r, w r ∂(Spec.distanceLaw c rm m vs)) * Z' := by ring
        _ ≤ _ := by gcongr

end bias

namespace LawExample

/-- Luminosities of this survey, with a soft flux limit and measurement errors, are 0.5 in the mean:
the average of those detected is at least as large, in the mean over seeds with detections. -/
example (showProgress : Bool) : ∃ D : (ℕ → Triple) → List ℝ,
    (∀ᵐ g ∂seeds, ∀ᶠ k in atTop, ∃ Q s' d,
      drawSurvey (Spec.surveyEnv survey LawExample.env constantSpherical.code showProgress
        (fun ls ds => .ok (List.zipWith (fun l d => l / (4 * Real.pi * d ^ 2)) ls ds)) (fun a _ => a) k g)
        synth args state = .ok Q s' ∧ (Q.luminosities.toSVar .float).selected = .ok d ∧ d.latent = D g) ∧
    seeds {g | D g ≠ []} * ENNReal.ofReal (1 / 2) ≤ ∫⁻ g, Spec.average ENNReal.ofReal (D g) ∂seeds := by
  obtain ⟨D, U, h1, h2⟩ := C92_average_luminosity lawful counted dims (by
      unfold Spec.uniformLaw
      refine Measure.ae_smul_measure ?_ _
      rw [Measure.restrict_congr_set Ioc_ae_eq_Icc.symm]
      exact (ae_restrict_mem measurableSet_Ioc).mono fun l h => h.1)
    ((C92_selections survey _ _ (fun _ _ => rfl) (fun _ => rfl) (fun _ => rfl) (fun _ => rfl)
      fun _ => rfl).2.1 2 (1 / 1000) (by norm_num)) showProgress fun a _ => a
  refine ⟨D, ?_, ?_⟩
  · filter_upwards [h1] with g hg
    filter_upwards [hg] with k hk
    obtain ⟨Q, s', d, u, q1, q2, q3, -, -⟩ := hk
    exact ⟨Q, s', d, q1, q2, q3⟩
  · have hm : ∫⁻ L, ENNReal.ofReal L ∂(Spec.uniformLaw 1) = ENNReal.ofReal (1 / 2) := by
      unfold Spec.uniformLaw
      have hi : IntegrableOn (fun x : ℝ => x) (Set.Icc 0 1) := continuousOn_id.integrableOn_Icc
      rw [lintegral_smul_measure, ← ofReal_integral_eq_lintegral_ofReal hi
        ((ae_restrict_mem measurableSet_Icc).mono fun l h => h.1),
        integral_Icc_eq_integral_Ioc, ← intervalIntegral.integral_of_le zero_le_one, integral_id]
      norm_num
    rw [← hm]
    exact (h2 ENNReal.ofReal ENNReal.ofReal_mono).1

end LawExample
end Popsynth
