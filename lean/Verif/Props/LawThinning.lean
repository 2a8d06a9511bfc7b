import Verif.Props.LawSurvey
import Verif.Props.SimVar

/-!
# The detected and the undetected sources of a survey (C75)
-/

set_option autoImplicit false
set_option linter.unusedSectionVars false

open MeasureTheory Filter
open scoped NNReal ENNReal

namespace Popsynth

/-! ### Splitting a population -/

theorem entries_split (f : Spec.SkySource → ℝ) : ∀ l : List (Spec.SkySource × Bool),
    Spec.entries (l.map fun x => f x.1) (l.map fun x => x.2) true = (split l).1.map f ∧
    Spec.entries (l.map fun x => f x.1) (l.map fun x => x.2) false = (split l).2.map f
  | [] => ⟨rfl, rfl⟩
  | (x, b) :: l => by
    obtain ⟨h1, h2⟩ := entries_split f l
    simp only [List.map_cons, entries_cons]
    cases b
    · rw [split_false]; simp [h1, h2]
    · rw [split_true]; simp [h1, h2]

theorem split_length : ∀ l : List (Spec.SkySource × Bool),
    (l.map fun x => x.2).count true = (split l).1.length ∧
    (l.map fun x => x.2).count false = (split l).2.length
  | [] => ⟨rfl, rfl⟩
  | (x, b) :: l => by
    obtain ⟨h1, h2⟩ := split_length l
    cases b
    · rw [split_false]; simp [h1, h2]
    · rw [split_true]; simp [h1, h2]

theorem parts_of (l : List (Spec.SkySource × Bool)) (f g : Spec.SkySource → ℝ) :
    Spec.Parts { obs := l.map fun x => f x.1, latent := l.map fun x => g x.1
                 selection := l.map fun x => x.2 }
      ((split l).1.map f) ((split l).1.map g) ((split l).2.map f) ((split l).2.map g) := by
  obtain ⟨y, z, h1, h2, -, -, h3, h4, h5, h6, -⟩ := C34_split
    (SimVar.toSVar { obs := l.map fun x => f x.1, latent := l.map fun x => g x.1
                     selection := l.map fun x => x.2 } .float) ⟨by simp [SimVar.toSVar], by simp [SimVar.toSVar]⟩ rfl
  refine ⟨⟨y, h1, ?_, ?_⟩, z, h2, ?_, ?_⟩
  · rw [h3]; exact (entries_split f l).1
  · rw [h4]; exact (entries_split g l).1
  · rw [h5]; exact (entries_split f l).2
  · rw [h6]; exact (entries_split g l).2

theorem holds_splits {Q : Population ℝ} {flux obs : ℝ → ℝ → ℝ} {l : List (Spec.SkySource × Bool)}
    (h : Spec.Holds Q flux obs l) : Spec.Splits Q flux obs (split l).1 (split l).2 := by
  obtain ⟨h0, h1, h2, h3, h4, h5, h6⟩ := h
  rw [h0] at h1 h2 h3 h4 h5
  refine ⟨?_, ?_, ?_, ?_, ?_, by rw [h6.1, (split_length l).1], by rw [h6.2, (split_length l).2]⟩
  · rw [h1]; exact parts_of l Spec.SkySource.distance Spec.SkySource.distance
  · rw [h2]; exact parts_of l Spec.SkySource.theta Spec.SkySource.theta
  · rw [h3]; exact parts_of l Spec.SkySource.phi Spec.SkySource.phi
  · rw [h4]; exact parts_of l Spec.SkySource.luminosity Spec.SkySource.luminosity
  · rw [h5]
    exact parts_of l (fun x => obs (flux x.luminosity x.distance) x.noise)
      fun x => flux x.luminosity x.distance

/-! ### The law -/

variable {G : Type} [MeasurableSpace G] {P : Measure G} [IsProbabilityMeasure P]
  {e : SurveyEnv ℝ G} {env : DistEnv ℝ G} {c : SpClass ℝ}
  {tr : List ℝ → List ℝ → Except Err (List ℝ)} {y : Synth ℝ} {a : SurveyArgs ℝ} {s : SurvSt ℝ G}
  {flux : ℝ → ℝ → ℝ} {rm m : ℝ} {vs : List ℝ} {Λ : ℝ≥0} {μL : Measure ℝ} {p : ℝ → ℝ≥0∞}

/-- Intensity of the sources of a survey: mean number times law of a source. -/
noncomputable def Spec.intensity (y : Synth ℝ) (a : SurveyArgs ℝ) (s : SurvSt ℝ G) (c : SpClass ℝ)
    (rm m : ℝ) (vs : List ℝ) (Λ : ℝ≥0) (μL : Measure ℝ) : Measure Spec.SkySource :=
  Λ • Spec.sourceLaw (Spec.densityLaw (fun r => min (c.dens vs r) m) rm) μL
    (Spec.sigmaUsed (s.heap.selectors y.fluxSel).kind a)

/-- The probability with which a source is detected. -/
noncomputable def Spec.detection (e : SurveyEnv ℝ G) (y : Synth ℝ) (a : SurveyArgs ℝ)
    (s : SurvSt ℝ G) (flux : ℝ → ℝ → ℝ) (p : ℝ → ℝ≥0∞) (x : Spec.SkySource) : ℝ≥0∞ :=
  p (Spec.observed e (Spec.sigmaUsed (s.heap.selectors y.fluxSel).kind a) a.log10Draw
    (flux x.luminosity x.distance) x.noise)

theorem Spec.Lawful.le_one (h : Spec.Lawful P e env c tr y a s flux rm m vs μL p) (x : ℝ) :
    p x ≤ 1 := by
  obtain ⟨ν, D, _, hν, -, hp, -⟩ := h.detects
  rw [← hp x]
  exact prob_le_one

theorem Spec.Lawful.intensity_univ (h : Spec.Lawful P e env c tr y a s flux rm m vs μL p) :
    Spec.intensity y a s c rm m vs Λ μL Set.univ = Λ := by
  have := h.distance_prob
  have := h.lumProb
  unfold Spec.intensity
  rw [Measure.smul_apply, measure_univ, ENNReal.smul_def, smul_eq_mul, mul_one]

theorem Spec.Lawful.intensity_finite (h : Spec.Lawful P e env c tr y a s flux rm m vs μL p) :
    IsFiniteMeasure (Spec.intensity y a s c rm m vs Λ μL) :=
  ⟨by rw [h.intensity_univ]; exact ENNReal.coe_lt_top⟩

theorem finite_withDensity {α : Type} [MeasurableSpace α] (κ : Measure α) [IsFiniteMeasure κ]
    {f : α → ℝ≥0∞} (hf : ∀ x, f x ≤ 1) : IsFiniteMeasure (κ.withDensity f) := by
  refine isFiniteMeasure_withDensity ?_
  have : ∫⁻ x, f x ∂κ ≤ κ Set.univ := by
    calc ∫⁻ x, f x ∂κ ≤ ∫⁻ _, 1 ∂κ := lintegral_mono hf
      _ = κ Set.univ := by simp
  exact (this.trans_lt (measure_lt_top κ _)).ne

/-- **C75** (detected and undetected sources): what a survey detects is a Poisson process with
intensity `Λ · p(observed flux) · sourceLaw`, what it misses one with `1 - p` instead, and the
two are independent.  These are the sources the selected and the non-selected parts of the
population's variables show. -/
theorem C75_thinning (h : Spec.Lawful P e env c tr y a s flux rm m vs μL p)
    (hc : Spec.Counted P e env c a rm vs Λ)
    (showProgress : Bool) (galB : List ℝ → List ℝ → List ℝ) :
    Spec.Samples P
      ((Spec.poissonProcess ((Spec.intensity y a s c rm m vs Λ μL).withDensity
          (Spec.detection e y a s flux p))).prod
        (Spec.poissonProcess ((Spec.intensity y a s c rm m vs Λ μL).withDensity
          fun x => 1 - Spec.detection e y a s flux p x)))
      fun k g v g' => ∃ Q s',
        drawSurvey (Spec.surveyEnv e env c.code showProgress tr galB k g) y a s = .ok Q s' ∧
        s'.heap.rng = g' ∧ Spec.Splits Q flux (Spec.observed e
          (Spec.sigmaUsed (s.heap.selectors y.fluxSel).kind a) a.log10Draw) v.1 v.2 := by
  have i1 := h.catalogue_prob
  have i2 := h.intensity_finite (Λ := Λ)
  have i3 := finite_withDensity (Spec.intensity y a s c rm m vs Λ μL)
    (f := Spec.detection e y a s flux p) (fun x => h.le_one _)
  have i4 := finite_withDensity (Spec.intensity y a s c rm m vs Λ μL)
    (f := fun x => 1 - Spec.detection e y a s flux p x) (fun x => tsub_le_self)
  have e1 : Spec.poissonSample Λ (Spec.catalogueLaw e c y a s flux rm m vs μL p) =
      Spec.poissonProcess (mixed ((Spec.intensity y a s c rm m vs Λ μL).withDensity
        (Spec.detection e y a s flux p)) ((Spec.intensity y a s c rm m vs Λ μL).withDensity
          fun x => 1 - Spec.detection e y a s flux p x)) := by
    rw [sample_process]
    congr 1
    unfold Spec.catalogueLaw Spec.flagged mixed Spec.intensity
    have en : ∀ {α : Type} [MeasurableSpace α] (μ : Measure α), Λ • μ = (Λ : ℝ≥0∞) • μ := fun _ => rfl
    rw [en, en, smul_add, withDensity_smul_measure, withDensity_smul_measure, Measure.map_smul, Measure.map_smul]
    rfl
  have hs := C74_catalogue h hc showProgress galB
  rw [e1] at hs
  refine Samples.mapTo hs ⟨measurable_split, process_split _ _⟩ ?_
  rintro k g v g' ⟨Q, s', q1, q2, q3⟩
  exact ⟨Q, s', q1, q2, holds_splits q3⟩

/-- **C75** (numbers): the numbers of detected and of undetected objects are independent
Poisson numbers, with means the integrals of the intensities. -/
theorem C75_counts (h : Spec.Lawful P e env c tr y a s flux rm m vs μL p)
    (hc : Spec.Counted P e env c a rm vs Λ)
    (showProgress : Bool) (galB : List ℝ → List ℝ → List ℝ) :
    Spec.Samples P
      ((ProbabilityTheory.poissonMeasure (∫⁻ x, Spec.detection e y a s flux p x
          ∂(Spec.intensity y a s c rm m vs Λ μL)).toNNReal).prod
        (ProbabilityTheory.poissonMeasure (∫⁻ x, 1 - Spec.detection e y a s flux p x
          ∂(Spec.intensity y a s c rm m vs Λ μL)).toNNReal))
      fun k g v g' => ∃ Q s',
        drawSurvey (Spec.surveyEnv e env c.code showProgress tr galB k g) y a s = .ok Q s' ∧
        s'.heap.rng = g' ∧ Q.nDetections = v.1 ∧ Q.nNonDetections = v.2 := by
  have i2 := h.intensity_finite (Λ := Λ)
  have i3 := finite_withDensity (Spec.intensity y a s c rm m vs Λ μL)
    (f := Spec.detection e y a s flux p) (fun x => h.le_one _)
  have i4 := finite_withDensity (Spec.intensity y a s c rm m vs Λ μL)
    (f := fun x => 1 - Spec.detection e y a s flux p x) (fun x => tsub_le_self)
  refine Samples.mapTo (C75_thinning h hc showProgress galB)
    (f := Prod.map List.length List.length) ⟨measurable_length.prodMap measurable_length, ?_⟩ ?_
  · rw [← Measure.map_prod_map _ _ measurable_length measurable_length, process_length, process_length,
      withDensity_apply _ MeasurableSet.univ, withDensity_apply _ MeasurableSet.univ,
      Measure.restrict_univ]
  · rintro k g v g' ⟨Q, s', q1, q2, q3⟩
    exact ⟨Q, s', q1, q2, q3.counts⟩

/-- **C75** (an empty survey): the probability that a survey returns a population without any
detection is `exp (-Λ q)`, `Λ q` the integral of the intensity of detected sources. -/
theorem C75_nothing_detected (h : Spec.Lawful P e env c tr y a s flux rm m vs μL p)
    (hc : Spec.Counted P e env c a rm vs Λ)
    (showProgress : Bool) (galB : List ℝ → List ℝ → List ℝ) :
    ∃ N : G → ℕ, Measurable N ∧
      (∀ᵐ g ∂P, ∀ᶠ k in atTop, ∃ Q s',
        drawSurvey (Spec.surveyEnv e env c.code showProgress tr galB k g) y a s = .ok Q s' ∧
        Q.nDetections = N g) ∧
      P {g | N g = 0} = ENNReal.ofReal (Real.exp (-(∫⁻ x, Spec.detection e y a s flux p x
        ∂(Spec.intensity y a s c rm m vs Λ μL)).toReal)) := by
  obtain ⟨T, hT, hR⟩ := C75_counts h hc showProgress galB
  refine ⟨fun g => (T g).1.1, (measurable_fst.comp measurable_fst).comp hT.measurable, ?_, ?_⟩
  · filter_upwards [hR] with g hg
    filter_upwards [hg] with k hk
    obtain ⟨Q, s', q1, -, q2, -⟩ := hk
    exact ⟨Q, s', q1, q2⟩
  · have h1 := (measurePreserving_fst.comp (measurePreserving_fst.comp hT)).measure_preimage
      (s := {0}) (measurableSet_singleton 0).nullMeasurableSet
    rw [ProbabilityTheory.poissonMeasure_singleton] at h1
    simp only [pow_zero, mul_one, Nat.factorial_zero, Nat.cast_one, div_one] at h1
    exact h1

end Popsynth
