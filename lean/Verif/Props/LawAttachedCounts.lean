import Verif.Props.LawAttached

/-!
# What a survey with attached samplers detects (C80)
-/

set_option autoImplicit false
set_option linter.unusedSectionVars false

open MeasureTheory Filter
open scoped NNReal ENNReal

namespace Popsynth

/-- `Q` is a population with the detected objects `d` and the undetected objects `u`; every
attached sampler has a variable that shows its values for them. -/
structure Spec.SplitsAux (Q : Population ℝ) (flux : ℝ → ℝ → ℝ) (obs : ℝ → ℝ → ℝ)
    (A : List Spec.Player) (d u : List (Spec.SkySource × (Fin A.length → Spec.Chance))) : Prop where
  sources : Spec.Splits Q flux obs (d.map Prod.fst) (u.map Prod.fst)
  names : Q.attrs.map Prod.fst = A.map Spec.Player.key
  quantities : ∀ j : Fin A.length, ∃ v, Q.attrs[(j : ℕ)]? = some ((A.get j).key, v) ∧
    Spec.Parts v (d.map fun x => ((A.get j).response x.1.seen (x.2 j)).2.1)
      (d.map fun x => ((A.get j).response x.1.seen (x.2 j)).1)
      (u.map fun x => ((A.get j).response x.1.seen (x.2 j)).2.1)
      (u.map fun x => ((A.get j).response x.1.seen (x.2 j)).1)

theorem entries_splitting {α : Type} [MeasurableSpace α] (f : α → ℝ) : ∀ l : List (α × Bool),
    Spec.entries (l.map fun x => f x.1) (l.map fun x => x.2) true = (split l).1.map f ∧
    Spec.entries (l.map fun x => f x.1) (l.map fun x => x.2) false = (split l).2.map f
  | [] => ⟨rfl, rfl⟩
  | (x, b) :: l => by
    obtain ⟨h1, h2⟩ := entries_splitting f l
    simp only [List.map_cons, entries_cons]
    cases b
    · rw [split_false]; simp [h1, h2]
    · rw [split_true]; simp [h1, h2]

theorem parts_splitting {α : Type} [MeasurableSpace α] (l : List (α × Bool)) (f g : α → ℝ) :
    Spec.Parts { obs := l.map fun x => f x.1, latent := l.map fun x => g x.1
                 selection := l.map fun x => x.2 }
      ((split l).1.map f) ((split l).1.map g) ((split l).2.map f) ((split l).2.map g) := by
  obtain ⟨y, z, h1, h2, -, -, h3, h4, h5, h6, -⟩ := C34_split
    (SimVar.toSVar { obs := l.map fun x => f x.1, latent := l.map fun x => g x.1
                     selection := l.map fun x => x.2 } .float) ⟨by simp [SimVar.toSVar], by simp [SimVar.toSVar]⟩ rfl
  refine ⟨⟨y, h1, ?_, ?_⟩, z, h2, ?_, ?_⟩
  · rw [h3]; exact (entries_splitting f l).1
  · rw [h4]; exact (entries_splitting g l).1
  · rw [h5]; exact (entries_splitting f l).2
  · rw [h6]; exact (entries_splitting g l).2

theorem split_map {α β : Type} [MeasurableSpace α] [MeasurableSpace β] (f : α → β) : ∀ l : List (α × Bool),
    split (l.map fun x => (f x.1, x.2)) = ((split l).1.map f, (split l).2.map f)
  | [] => rfl
  | (x, b) :: l => by
    rw [List.map_cons]
    cases b
    · rw [split_false, split_false, split_map f l]; simp
    · rw [split_true, split_true, split_map f l]; simp

theorem holdsAux_splits {Q : Population ℝ} {flux obs : ℝ → ℝ → ℝ} {A : List Spec.Player}
    {l : List ((Spec.SkySource × (Fin A.length → Spec.Chance)) × Bool)}
    (h : Spec.HoldsAux Q flux obs A l) : Spec.SplitsAux Q flux obs A (split l).1 (split l).2 := by
  have hs : Q.selection = l.map fun x => x.2 := by
    rw [h.sources.selection, List.map_map]; rfl
  refine ⟨?_, ?_, ?_⟩
  · have := holds_splits h.sources
    rw [split_map] at this
    exact this
  · rw [h.quantities, List.map_ofFn]
    exact List.ext_get (by simp) (by simp)
  · intro j
    refine ⟨_, by rw [h.quantities, List.getElem?_ofFn, dif_pos j.2], ?_⟩
    rw [hs]
    exact parts_splitting l (fun x => ((A.get j).response x.1.seen (x.2 j)).2.1)
      (fun x => ((A.get j).response x.1.seen (x.2 j)).1)

variable {G : Type} [MeasurableSpace G] {P : Measure G} [IsProbabilityMeasure P]
  {e : SurveyEnv ℝ G} {env : DistEnv ℝ G} {c : SpClass ℝ}
  {tr : List ℝ → List ℝ → Except Err (List ℝ)} {y : Synth ℝ} {a : SurveyArgs ℝ} {s : SurvSt ℝ G}
  {flux : ℝ → ℝ → ℝ} {rm m : ℝ} {vs : List ℝ} {Λ : ℝ≥0} {μL : Measure ℝ} {p : ℝ → ℝ≥0∞}
  {A : List Spec.Player}

/-- Intensity of the objects: mean number times law of an object. -/
noncomputable def Spec.objects (y : Synth ℝ) (a : SurveyArgs ℝ) (s : SurvSt ℝ G) (c : SpClass ℝ)
    (rm m : ℝ) (vs : List ℝ) (Λ : ℝ≥0) (μL : Measure ℝ) (A : List Spec.Player) :
    Measure (Spec.SkySource × (Fin A.length → Spec.Chance)) :=
  (Spec.intensity y a s c rm m vs Λ μL).prod (Spec.chances A)

/-- The probability that a sampler selects an object. -/
noncomputable def Spec.Player.selects (p : Spec.Player) (x : Spec.Seen) : ℝ≥0∞ :=
  p.law {u | (p.response x u).2.2 = true}

/-- The probability that an object is detected: by its observed flux and by all samplers. -/
noncomputable def Spec.detectionAll (e : SurveyEnv ℝ G) (y : Synth ℝ) (a : SurveyArgs ℝ)
    (s : SurvSt ℝ G) (flux : ℝ → ℝ → ℝ) (p : ℝ → ℝ≥0∞) (A : List Spec.Player)
    (x : Spec.SkySource) : ℝ≥0∞ :=
  Spec.detection e y a s flux p x * ∏ j : Fin A.length, (A.get j).selects x.seen

theorem objects_eq (hA : ∀ q ∈ A, IsProbabilityMeasure q.law) :
    Spec.objects y a s c rm m vs Λ μL A = (Λ : ℝ≥0∞) • Spec.objectLaw y a s c rm m vs μL A := by
  have := chances_prob A hA
  unfold Spec.objects Spec.intensity Spec.objectLaw
  have en : ∀ {α : Type} [MeasurableSpace α] (μ : Measure α), Λ • μ = (Λ : ℝ≥0∞) • μ := fun _ => rfl
  rw [en, Measure.prod_smul_left]

theorem kept_prob (hA : ∀ q ∈ A, IsProbabilityMeasure q.law) (x : Spec.SkySource) :
    Spec.chances A {u | Spec.kept A x u = true} = ∏ j : Fin A.length, (A.get j).selects x.seen := by
  have : ∀ j : Fin A.length, IsProbabilityMeasure (A.get j).law := fun j => hA _ (List.get_mem A j)
  have e1 : {u | Spec.kept A x u = true} =
      Set.univ.pi fun j : Fin A.length => {u | ((A.get j).response x.seen u).2.2 = true} := by
    ext u
    simp [Spec.kept]
  rw [e1]
  unfold Spec.chances
  rw [Measure.pi_pi]
  rfl

theorem detectionAux_le (h : Spec.Lawful P e env c tr { y with aux := [] } a s flux rm m vs μL p)
    (x : Spec.SkySource × (Fin A.length → Spec.Chance)) :
    Spec.detectionAux e y a s flux p A x ≤ 1 := by
  unfold Spec.detectionAux
  split
  · exact h.le_one _
  · exact zero_le

/-- **C80** (detected and undetected objects): what a survey with attached samplers detects is a
Poisson process, what it misses another, and the two are independent; the quantities of the
samplers show the values of the same objects. -/
theorem C80_thinning
    (h : Spec.Lawful P e env c tr { y with aux := [] } a s flux rm m vs μL p)
    (hA : Spec.Entourage P e y s.heap A) (hc : Spec.Counted P e env c a rm vs Λ)
    (showProgress : Bool) (galB : List ℝ → List ℝ → List ℝ) :
    Spec.Samples P
      ((Spec.poissonProcess ((Spec.objects y a s c rm m vs Λ μL A).withDensity
          (Spec.detectionAux e y a s flux p A))).prod
        (Spec.poissonProcess ((Spec.objects y a s c rm m vs Λ μL A).withDensity
          fun x => 1 - Spec.detectionAux e y a s flux p A x)))
      fun k g v g' => ∃ Q s',
        drawSurvey (Spec.surveyEnv e env c.code showProgress tr galB k g) y a s = .ok Q s' ∧
        s'.heap.rng = g' ∧ Spec.SplitsAux Q flux (Spec.observed e
          (Spec.sigmaUsed (s.heap.selectors y.fluxSel).kind a) a.log10Draw) A v.1 v.2 := by
  have hAl : ∀ q ∈ A, IsProbabilityMeasure q.law := fun q hq => (hA.plays q hq).law
  have i0 := chances_prob A hAl
  have i1 := catalogueAux_prob h hA
  have i2 : IsFiniteMeasure (Spec.intensity y a s c rm m vs Λ μL) := h.intensity_finite (Λ := Λ)
  have i2' : IsFiniteMeasure (Spec.objects y a s c rm m vs Λ μL A) := by
    unfold Spec.objects; infer_instance
  have i3 := finite_withDensity (Spec.objects y a s c rm m vs Λ μL A)
    (f := Spec.detectionAux e y a s flux p A) (detectionAux_le h)
  have i4 := finite_withDensity (Spec.objects y a s c rm m vs Λ μL A)
    (f := fun x => 1 - Spec.detectionAux e y a s flux p A x) (fun x => tsub_le_self)
  have e1 : Spec.poissonSample Λ (Spec.catalogueAux e c y a s flux rm m vs μL p A) =
      Spec.poissonProcess (mixed ((Spec.objects y a s c rm m vs Λ μL A).withDensity
        (Spec.detectionAux e y a s flux p A)) ((Spec.objects y a s c rm m vs Λ μL A).withDensity
          fun x => 1 - Spec.detectionAux e y a s flux p A x)) := by
    rw [sample_process, objects_eq hAl]
    congr 1
    unfold Spec.catalogueAux Spec.flagged mixed
    have en : ∀ {α : Type} [MeasurableSpace α] (μ : Measure α), Λ • μ = (Λ : ℝ≥0∞) • μ := fun _ => rfl
    rw [en, smul_add, withDensity_smul_measure, withDensity_smul_measure, Measure.map_smul, Measure.map_smul]
  have hs := C80_catalogue h hA hc showProgress galB
  rw [e1] at hs
  refine Samples.mapTo hs ⟨measurable_split, process_split _ _⟩ ?_
  rintro k g v g' ⟨Q, s', q1, q2, q3⟩
  exact ⟨Q, s', q1, q2, holdsAux_splits q3⟩

theorem detection_means (h : Spec.Lawful P e env c tr { y with aux := [] } a s flux rm m vs μL p)
    (hA : Spec.Entourage P e y s.heap A) :
    ∫⁻ x, Spec.detectionAux e y a s flux p A x ∂(Spec.objects y a s c rm m vs Λ μL A) =
      ∫⁻ x, Spec.detectionAll e y a s flux p A x ∂(Spec.intensity y a s c rm m vs Λ μL) ∧
    ∫⁻ x, (1 - Spec.detectionAux e y a s flux p A x) ∂(Spec.objects y a s c rm m vs Λ μL A) =
      ∫⁻ x, (1 - Spec.detectionAll e y a s flux p A x) ∂(Spec.intensity y a s c rm m vs Λ μL) := by
  have hAl : ∀ q ∈ A, IsProbabilityMeasure q.law := fun q hq => (hA.plays q hq).law
  have i0 := chances_prob A hAl
  have i2 : IsFiniteMeasure (Spec.intensity y a s c rm m vs Λ μL) := h.intensity_finite (Λ := Λ)
  have hk := kept_measurable (A := A) fun q hq => (hA.plays q hq).response
  have hpm : Measurable p := h.detection_measurable
  have hd : Measurable (Spec.detection e y a s flux p) := hpm.comp h.observed_measurable
  have hda : Measurable (Spec.detectionAux e y a s flux p A) :=
    Measurable.ite (hk (measurableSet_singleton true)) (hd.comp measurable_fst) measurable_const
  have hks : ∀ x, MeasurableSet {u | Spec.kept A x u = true} := fun x =>
    (hk.comp measurable_prodMk_left) (measurableSet_singleton true)
  have e1 : ∀ x, ∫⁻ u, Spec.detectionAux e y a s flux p A (x, u) ∂(Spec.chances A) =
      Spec.detectionAll e y a s flux p A x := by
    intro x
    unfold Spec.detectionAll
    rw [← kept_prob hAl, ← setLIntegral_const, ← lintegral_indicator (hks x)]
    refine lintegral_congr fun u => ?_
    unfold Spec.detectionAux
    by_cases hx : Spec.kept A x u = true <;> simp [hx]
  unfold Spec.objects
  constructor
  · rw [lintegral_prod _ hda.aemeasurable]
    exact lintegral_congr e1
  · have hms : Measurable fun x => 1 - Spec.detectionAux e y a s flux p A x := measurable_const.sub hda
    rw [lintegral_prod _ hms.aemeasurable]
    refine lintegral_congr fun x => ?_
    have hm : Measurable fun u => Spec.detectionAux e y a s flux p A (x, u) := hda.comp measurable_prodMk_left
    have hb : ∫⁻ u, Spec.detectionAux e y a s flux p A (x, u) ∂(Spec.chances A) ≠ ∞ := by
      refine ne_top_of_le_ne_top ENNReal.one_ne_top ?_
      calc _ ≤ ∫⁻ _, 1 ∂(Spec.chances A) := lintegral_mono fun u => detectionAux_le h _
        _ = 1 := by simp
    rw [lintegral_sub hm hb (Eventually.of_forall fun u => detectionAux_le h _), e1]
    simp

/-- **C80** (numbers): the numbers of detected and of undetected objects are independent Poisson
numbers; an object counts as detected with the product of the probabilities that its observed
flux is detected and that every attached sampler selects it. -/
theorem C80_counts
    (h : Spec.Lawful P e env c tr { y with aux := [] } a s flux rm m vs μL p)
    (hA : Spec.Entourage P e y s.heap A) (hc : Spec.Counted P e env c a rm vs Λ)
    (showProgress : Bool) (galB : List ℝ → List ℝ → List ℝ) :
    Spec.Samples P
      ((ProbabilityTheory.poissonMeasure (∫⁻ x, Spec.detectionAll e y a s flux p A x
          ∂(Spec.intensity y a s c rm m vs Λ μL)).toNNReal).prod
        (ProbabilityTheory.poissonMeasure (∫⁻ x, 1 - Spec.detectionAll e y a s flux p A x
          ∂(Spec.intensity y a s c rm m vs Λ μL)).toNNReal))
      fun k g v g' => ∃ Q s',
        drawSurvey (Spec.surveyEnv e env c.code showProgress tr galB k g) y a s = .ok Q s' ∧
        s'.heap.rng = g' ∧ Q.nDetections = v.1 ∧ Q.nNonDetections = v.2 := by
  have hAl : ∀ q ∈ A, IsProbabilityMeasure q.law := fun q hq => (hA.plays q hq).law
  have i0 := chances_prob A hAl
  have i2 : IsFiniteMeasure (Spec.intensity y a s c rm m vs Λ μL) := h.intensity_finite (Λ := Λ)
  have i2' : IsFiniteMeasure (Spec.objects y a s c rm m vs Λ μL A) := by
    unfold Spec.objects; infer_instance
  have i3 := finite_withDensity (Spec.objects y a s c rm m vs Λ μL A)
    (f := Spec.detectionAux e y a s flux p A) (detectionAux_le h)
  have i4 := finite_withDensity (Spec.objects y a s c rm m vs Λ μL A)
    (f := fun x => 1 - Spec.detectionAux e y a s flux p A x) (fun x => tsub_le_self)
  obtain ⟨m1, m2⟩ := detection_means (Λ := Λ) h hA
  refine Samples.mapTo (C80_thinning h hA hc showProgress galB)
    (f := Prod.map List.length List.length) ⟨measurable_length.prodMap measurable_length, ?_⟩ ?_
  · rw [← Measure.map_prod_map _ _ measurable_length measurable_length, process_length, process_length,
      withDensity_apply _ MeasurableSet.univ, withDensity_apply _ MeasurableSet.univ,
      Measure.restrict_univ, m1, m2]
  · rintro k g v g' ⟨Q, s', q1, q2, q3⟩
    have := q3.sources.counts
    rw [List.length_map, List.length_map] at this
    exact ⟨Q, s', q1, q2, this⟩

/-- **C80** (samplers that select everything): they do not change what is detected. -/
theorem C80_unselective (hA : ∀ q ∈ A, IsProbabilityMeasure q.law ∧
    ∀ x u, (q.response x u).2.2 = true) (x : Spec.SkySource) :
    Spec.detectionAll e y a s flux p A x = Spec.detection e y a s flux p x := by
  unfold Spec.detectionAll
  rw [Finset.prod_eq_one, mul_one]
  intro j _
  obtain ⟨h1, h2⟩ := hA _ (List.get_mem A j)
  unfold Spec.Player.selects
  have : {u | ((A.get j).response x.seen u).2.2 = true} = Set.univ :=
    Set.eq_univ_of_forall fun u => h2 _ u
  rw [this, measure_univ]

end Popsynth
