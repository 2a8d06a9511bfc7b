import Verif.Props.LawAttachedExample
import Verif.Lemmas.ProcessSums

/-!
# Quantities no selection looks at (C100)
-/

set_option autoImplicit false
set_option linter.unusedSectionVars false

open MeasureTheory Filter
open scoped NNReal ENNReal

namespace Popsynth

/-- True and observed value of a sampler for an object. -/
def Spec.Player.values (p : Spec.Player) (x : Spec.Seen) (u : Spec.Chance) : ℝ × ℝ :=
  ((p.response x u).1, (p.response x u).2.1)

/-- Whatever the object, the sampler selects it and gives it true and observed values in `T` with
probability `ρ T`. -/
def Spec.Unrelated (p : Spec.Player) (ρ : Measure (ℝ × ℝ)) : Prop :=
  ∀ x T, MeasurableSet T → p.law {u | (p.response x u).2.2 = true ∧ p.values x u ∈ T} = ρ T

/-- The variable of sampler `j` shows the values `d` of the detected and `u` of the other objects. -/
def Spec.Shows (Q : Population ℝ) (A : List Spec.Player) (j : Fin A.length) (d u : List (ℝ × ℝ)) : Prop :=
  ∃ w, Q.attrs[(j : ℕ)]? = some ((A.get j).key, w) ∧
    Spec.Parts w (d.map Prod.snd) (d.map Prod.fst) (u.map Prod.snd) (u.map Prod.fst)

variable {G : Type} [MeasurableSpace G] {P : Measure G} [IsProbabilityMeasure P]
  {e : SurveyEnv ℝ G} {env : DistEnv ℝ G} {c : SpClass ℝ}
  {tr : List ℝ → List ℝ → Except Err (List ℝ)} {y : Synth ℝ} {a : SurveyArgs ℝ} {s : SurvSt ℝ G}
  {flux : ℝ → ℝ → ℝ} {rm m : ℝ} {vs : List ℝ} {Λ : ℝ≥0} {μL : Measure ℝ} {p : ℝ → ℝ≥0∞}
  {A : List Spec.Player}

/-- The probability that an object is detected by its observed flux and by all samplers but `j`. -/
noncomputable def Spec.detectionBut (e : SurveyEnv ℝ G) (y : Synth ℝ) (a : SurveyArgs ℝ)
    (s : SurvSt ℝ G) (flux : ℝ → ℝ → ℝ) (p : ℝ → ℝ≥0∞) (A : List Spec.Player) (j : Fin A.length)
    (x : Spec.SkySource) : ℝ≥0∞ :=
  Spec.detection e y a s flux p x * ∏ i ∈ Finset.univ.erase j, (A.get i).selects x.seen

theorem sees_measurable : Measurable Spec.SkySource.seen :=
  SkySource.measurable_of (show Measurable fun p : ℝ × (ℝ × ℝ) × ℝ × ℝ => (p.1, (p.2.1.1, p.2.1.2), p.2.2.1) by fun_prop)

section players
variable (hAl : ∀ q ∈ A, IsProbabilityMeasure q.law)
  (hAr : ∀ q ∈ A, Measurable fun t : Spec.Seen × Spec.Chance => q.response t.1 t.2)
  {j : Fin A.length} {ρ : Measure (ℝ × ℝ)}

include hAr in
theorem mark_measurable (j : Fin A.length) :
    Measurable fun t : Spec.SkySource × (Fin A.length → Spec.Chance) =>
      (t.1, (A.get j).values t.1.seen (t.2 j)) := by
  have h1 : Measurable fun q : Spec.SkySource × (Fin A.length → Spec.Chance) => (q.1.seen, q.2 j) :=
    (sees_measurable.comp measurable_fst).prodMk ((measurable_pi_apply j).comp measurable_snd)
  have h2 := (hAr _ (List.get_mem A j)).comp h1
  exact measurable_fst.prodMk ((measurable_fst.comp h2).prodMk (measurable_fst.comp (measurable_snd.comp h2)))

include hAr in
theorem selects_measurable (i : Fin A.length) (hAl : ∀ q ∈ A, IsProbabilityMeasure q.law) :
    Measurable fun x : Spec.SkySource => (A.get i).selects x.seen := by
  have := hAl _ (List.get_mem A i)
  have h0 := hAr _ (List.get_mem A i)
  have hS : MeasurableSet {t : Spec.Seen × Spec.Chance | ((A.get i).response t.1 t.2).2.2 = true} :=
    (measurable_snd.comp (measurable_snd.comp h0)) (measurableSet_singleton true)
  exact (measurable_measure_prodMk_left hS).comp sees_measurable

include hAl in
theorem marked_prob (hu : Spec.Unrelated (A.get j) ρ) (x : Spec.SkySource) {T : Set (ℝ × ℝ)}
    (hT : MeasurableSet T) :
    Spec.chances A {u | Spec.kept A x u = true ∧ (A.get j).values x.seen (u j) ∈ T} =
      (∏ i ∈ Finset.univ.erase j, (A.get i).selects x.seen) * ρ T := by
  classical
  have : ∀ j : Fin A.length, IsProbabilityMeasure (A.get j).law := fun j => hAl _ (List.get_mem A j)
  have e1 : {u | Spec.kept A x u = true ∧ (A.get j).values x.seen (u j) ∈ T} =
      Set.univ.pi fun i : Fin A.length => {u | ((A.get i).response x.seen u).2.2 = true ∧
        (i = j → (A.get i).values x.seen u ∈ T)} := by
    ext u
    simp only [Spec.kept, decide_eq_true_eq, Set.mem_setOf_eq, Set.mem_univ_pi]
    constructor
    · rintro ⟨h1, h2⟩ i
      exact ⟨h1 i, fun h => by subst h; exact h2⟩
    · exact fun h => ⟨fun i => (h i).1, (h j).2 rfl⟩
  rw [e1]
  unfold Spec.chances
  rw [Measure.pi_pi, ← Finset.prod_erase_mul _ _ (Finset.mem_univ j)]
  congr 1
  · refine Finset.prod_congr rfl fun i hi => ?_
    unfold Spec.Player.selects
    congr 1
    ext u
    simp [Finset.ne_of_mem_erase hi]
  · rw [← hu x.seen T hT]
    congr 1
    ext u
    simp

end players

section survey
variable (h : Spec.Lawful P e env c tr { y with aux := [] } a s flux rm m vs μL p)
  (hA : Spec.Entourage P e y s.heap A) {j : Fin A.length} {ρ : Measure (ℝ × ℝ)}
  (hu : Spec.Unrelated (A.get j) ρ)
include h hA

theorem detectionBut_le (x : Spec.SkySource) : Spec.detectionBut e y a s flux p A j x ≤ 1 := by
  refine mul_le_one' (h.le_one _) (Finset.prod_le_one' fun i _ => ?_)
  have := (hA.plays _ (List.get_mem A i)).law
  exact prob_le_one

include hu

theorem unrelated_finite : IsFiniteMeasure ρ := by
  have := (hA.plays _ (List.get_mem A j)).law
  refine ⟨?_⟩
  rw [← hu default Set.univ MeasurableSet.univ]
  exact measure_lt_top _ _

theorem marked_intensity :
    ((Spec.objects y a s c rm m vs Λ μL A).withDensity (Spec.detectionAux e y a s flux p A)).map
      (fun t => (t.1, (A.get j).values t.1.seen (t.2 j))) =
    ((Spec.intensity y a s c rm m vs Λ μL).withDensity (Spec.detectionBut e y a s flux p A j)).prod ρ := by
  have hAl : ∀ q ∈ A, IsProbabilityMeasure q.law := fun q hq => (hA.plays q hq).law
  have hAr : ∀ q ∈ A, Measurable fun t : Spec.Seen × Spec.Chance => q.response t.1 t.2 :=
    fun q hq => (hA.plays q hq).response
  have i0 := chances_prob A hAl
  have i1 := unrelated_finite h hA hu
  have i2 : IsFiniteMeasure (Spec.intensity y a s c rm m vs Λ μL) := h.intensity_finite (Λ := Λ)
  have i3 := finite_withDensity (Spec.intensity y a s c rm m vs Λ μL)
    (f := Spec.detectionBut e y a s flux p A j) (detectionBut_le h hA)
  have hk := kept_measurable (A := A) hAr
  have hd : Measurable (Spec.detection e y a s flux p) := h.detection_measurable.comp h.observed_measurable
  have hda : Measurable (Spec.detectionAux e y a s flux p A) :=
    Measurable.ite (hk (measurableSet_singleton true)) (hd.comp measurable_fst) measurable_const
  have hm := mark_measurable hAr j
  refine (Measure.prod_eq fun S T hS hT => ?_).symm
  rw [Measure.map_apply hm (hS.prod hT), withDensity_apply _ (hm (hS.prod hT)), withDensity_apply _ hS,
    ← lintegral_indicator (hm (hS.prod hT))]
  unfold Spec.objects
  rw [lintegral_prod _ (hda.indicator (hm (hS.prod hT))).aemeasurable]
  have hb : Measurable (Spec.detectionBut e y a s flux p A j) :=
    hd.mul (Finset.measurable_prod _ fun i _ => selects_measurable hAr i hAl)
  rw [← lintegral_mul_const _ hb, ← lintegral_indicator hS]
  refine lintegral_congr fun x => ?_
  by_cases hx : x ∈ S
  · rw [Set.indicator_of_mem hx]
    have hE : MeasurableSet {u | Spec.kept A x u = true ∧ (A.get j).values x.seen (u j) ∈ T} :=
      ((hk.comp measurable_prodMk_left) (measurableSet_singleton true)).inter
        ((measurable_snd.comp (hm.comp measurable_prodMk_left)) hT)
    unfold Spec.detectionBut
    rw [mul_assoc, ← marked_prob hAl hu x hT, ← setLIntegral_const, ← lintegral_indicator hE]
    refine lintegral_congr fun u => ?_
    unfold Spec.detectionAux
    by_cases h2 : (A.get j).values x.seen (u j) ∈ T
    · rw [Set.indicator_of_mem (show (x, u) ∈ (fun t : Spec.SkySource × (Fin A.length → Spec.Chance) =>
        (t.1, (A.get j).values t.1.seen (t.2 j))) ⁻¹' S ×ˢ T from ⟨hx, h2⟩)]
      by_cases h1 : Spec.kept A x u = true
      · rw [if_pos h1, Set.indicator_of_mem (show u ∈ {u | Spec.kept A x u = true ∧
          (A.get j).values x.seen (u j) ∈ T} from ⟨h1, h2⟩)]
      · rw [if_neg h1, Set.indicator_of_notMem (show u ∉ {u | Spec.kept A x u = true ∧
          (A.get j).values x.seen (u j) ∈ T} from fun h => h1 h.1)]
    · rw [Set.indicator_of_notMem (show (x, u) ∉ (fun t : Spec.SkySource × (Fin A.length → Spec.Chance) =>
        (t.1, (A.get j).values t.1.seen (t.2 j))) ⁻¹' S ×ˢ T from fun h => h2 h.2),
        Set.indicator_of_notMem (show u ∉ {u | Spec.kept A x u = true ∧
          (A.get j).values x.seen (u j) ∈ T} from fun h => h2 h.2)]
  · rw [Set.indicator_of_notMem hx, ← lintegral_zero (μ := Spec.chances A)]
    refine lintegral_congr fun u => ?_
    rw [Set.indicator_of_notMem (show (x, u) ∉ (fun t : Spec.SkySource × (Fin A.length → Spec.Chance) =>
      (t.1, (A.get j).values t.1.seen (t.2 j))) ⁻¹' S ×ˢ T from fun h => hx h.1)]

/-- **C100** (the sampler's own selection): the true and observed values of the detected objects
are independent of each other and of everything else about these objects; they have the law of
the values the sampler itself selects. -/
theorem C100_selected (hc : Spec.Counted P e env c a rm vs Λ) (showProgress : Bool)
    (galB : List ℝ → List ℝ → List ℝ) :
    Spec.Samples P (Spec.poissonProcess (((Spec.intensity y a s c rm m vs Λ μL).withDensity
        (Spec.detectionBut e y a s flux p A j)).prod ρ))
      fun k g v g' => ∃ Q s' u u',
        drawSurvey (Spec.surveyEnv e env c.code showProgress tr galB k g) y a s = .ok Q s' ∧
        s'.heap.rng = g' ∧ Spec.Splits Q flux (Spec.observed e
          (Spec.sigmaUsed (s.heap.selectors y.fluxSel).kind a) a.log10Draw) (v.map Prod.fst) u ∧
        Spec.Shows Q A j (v.map Prod.snd) u' := by
  have hAl : ∀ q ∈ A, IsProbabilityMeasure q.law := fun q hq => (hA.plays q hq).law
  have hAr : ∀ q ∈ A, Measurable fun t : Spec.Seen × Spec.Chance => q.response t.1 t.2 :=
    fun q hq => (hA.plays q hq).response
  have i0 := chances_prob A hAl
  have i2 : IsFiniteMeasure (Spec.intensity y a s c rm m vs Λ μL) := h.intensity_finite (Λ := Λ)
  have i2' : IsFiniteMeasure (Spec.objects y a s c rm m vs Λ μL A) := by
    unfold Spec.objects; infer_instance
  have i3 := finite_withDensity (Spec.objects y a s c rm m vs Λ μL A)
    (f := Spec.detectionAux e y a s flux p A) (detectionAux_le h)
  have i4 := finite_withDensity (Spec.objects y a s c rm m vs Λ μL A)
    (f := fun x => 1 - Spec.detectionAux e y a s flux p A x) (fun x => tsub_le_self)
  have hm := mark_measurable hAr j
  refine Samples.mapTo (C80_thinning h hA hc showProgress galB)
    (f := fun v => v.1.map fun t => (t.1, (A.get j).values t.1.seen (t.2 j)))
    ⟨(measurable_map_list hm).comp measurable_fst, ?_⟩ ?_
  · rw [← Function.comp_def (List.map fun t : Spec.SkySource × (Fin A.length → Spec.Chance) =>
      (t.1, (A.get j).values t.1.seen (t.2 j))) Prod.fst, ← Measure.map_map
      (measurable_map_list hm) measurable_fst, measurePreserving_fst.map_eq,
      process_map _ hm, marked_intensity h hA hu]
  · rintro k g v g' ⟨Q, s', q1, q2, q3⟩
    obtain ⟨w, w1, w2⟩ := q3.quantities j
    refine ⟨Q, s', v.2.map Prod.fst, v.2.map fun t => (A.get j).values t.1.seen (t.2 j), q1, q2, ?_, w, w1, ?_⟩
    · have := q3.sources
      rw [List.map_map]
      exact this
    · simp only [List.map_map]
      exact w2

/-- **C100** (values the sampler itself selects): the values of the detected objects are
independent draws from the sampler's law, given that it selects them; no other selection
matters but for their number. -/
theorem C100_selected_values (h0 : ρ Set.univ ≠ 0) (hc : Spec.Counted P e env c a rm vs Λ)
    (showProgress : Bool) (galB : List ℝ → List ℝ → List ℝ) :
    Spec.Samples P (Spec.poissonSample ((∫⁻ x, Spec.detectionBut e y a s flux p A j x
        ∂(Spec.intensity y a s c rm m vs Λ μL)) * ρ Set.univ).toNNReal ((ρ Set.univ)⁻¹ • ρ))
      fun k g v g' => ∃ Q s' u',
        drawSurvey (Spec.surveyEnv e env c.code showProgress tr galB k g) y a s = .ok Q s' ∧
        s'.heap.rng = g' ∧ Spec.Shows Q A j v u' := by
  have i1 := unrelated_finite h hA hu
  have i2 : IsFiniteMeasure (Spec.intensity y a s c rm m vs Λ μL) := h.intensity_finite (Λ := Λ)
  have i3 := finite_withDensity (Spec.intensity y a s c rm m vs Λ μL)
    (f := Spec.detectionBut e y a s flux p A j) (detectionBut_le h hA)
  have hρ : ρ Set.univ ≠ ∞ := measure_ne_top _ _
  have ip : IsProbabilityMeasure ((ρ Set.univ)⁻¹ • ρ) :=
    ⟨by rw [Measure.smul_apply, smul_eq_mul, ENNReal.inv_mul_cancel h0 hρ]⟩
  have hn : ∫⁻ x, Spec.detectionBut e y a s flux p A j x ∂(Spec.intensity y a s c rm m vs Λ μL) ≠ ∞ := by
    have := measure_ne_top ((Spec.intensity y a s c rm m vs Λ μL).withDensity
      (Spec.detectionBut e y a s flux p A j)) Set.univ
    rwa [withDensity_apply _ MeasurableSet.univ, Measure.restrict_univ] at this
  refine Samples.mapTo (C100_selected h hA hu hc showProgress galB) (f := List.map Prod.snd)
    ⟨measurable_map_list measurable_snd, ?_⟩ ?_
  · rw [process_map _ measurable_snd, sample_process, Measure.map_snd_prod,
      withDensity_apply _ MeasurableSet.univ, Measure.restrict_univ]
    congr 1
    have en : ∀ (r : ℝ≥0) (μ : Measure (ℝ × ℝ)), r • μ = (r : ℝ≥0∞) • μ := fun _ _ => rfl
    rw [en, ENNReal.coe_toNNReal (ENNReal.mul_ne_top hn hρ), smul_smul, mul_assoc,
      ENNReal.mul_inv_cancel h0 hρ, mul_one]
  · rintro k g v g' ⟨Q, s', u, u', q1, q2, -, q3⟩
    exact ⟨Q, s', u', q1, q2, q3⟩

variable (hall : ∀ x u, ((A.get j).response x u).2.2 = true)
include hall

theorem unselective_prob : IsProbabilityMeasure ρ := by
  have := (hA.plays _ (List.get_mem A j)).law
  refine ⟨?_⟩
  rw [← hu default Set.univ MeasurableSet.univ, Set.eq_univ_of_forall (s := {u |
    ((A.get j).response default u).2.2 = true ∧ (A.get j).values default u ∈ Set.univ})
    fun u => ⟨hall _ u, trivial⟩, measure_univ]

theorem detectionBut_eq (x : Spec.SkySource) :
    Spec.detectionBut e y a s flux p A j x = Spec.detectionAll e y a s flux p A x := by
  have := (hA.plays _ (List.get_mem A j)).law
  unfold Spec.detectionBut Spec.detectionAll
  rw [← Finset.prod_erase_mul _ _ (Finset.mem_univ j)]
  have : (A.get j).selects x.seen = 1 := by
    unfold Spec.Player.selects
    rw [Set.eq_univ_of_forall (s := {u | ((A.get j).response x.seen u).2.2 = true})
      fun u => hall _ u, measure_univ]
  rw [this, mul_one]

theorem all_intensity :
    (Spec.objects y a s c rm m vs Λ μL A).map (fun t => (t.1, (A.get j).values t.1.seen (t.2 j))) =
    (Spec.intensity y a s c rm m vs Λ μL).prod ρ := by
  have hAl : ∀ q ∈ A, IsProbabilityMeasure q.law := fun q hq => (hA.plays q hq).law
  have hAr : ∀ q ∈ A, Measurable fun t : Spec.Seen × Spec.Chance => q.response t.1 t.2 :=
    fun q hq => (hA.plays q hq).response
  have i0 := chances_prob A hAl
  have i1 := unrelated_finite h hA hu
  have i2 : IsFiniteMeasure (Spec.intensity y a s c rm m vs Λ μL) := h.intensity_finite (Λ := Λ)
  have ij : ∀ j : Fin A.length, IsProbabilityMeasure (A.get j).law := fun j => hAl _ (List.get_mem A j)
  have hm := mark_measurable hAr j
  refine (Measure.prod_eq fun S T hS hT => ?_).symm
  rw [Measure.map_apply hm (hS.prod hT)]
  unfold Spec.objects
  rw [Measure.prod_apply (hm (hS.prod hT)), mul_comm, ← setLIntegral_const, ← lintegral_indicator hS]
  refine lintegral_congr fun x => ?_
  by_cases hx : x ∈ S
  · rw [Set.indicator_of_mem hx, ← hu x.seen T hT]
    have hT' : MeasurableSet {u | ((A.get j).response x.seen u).2.2 = true ∧ (A.get j).values x.seen u ∈ T} := by
      have h0 := (hAr _ (List.get_mem A j)).comp (measurable_prodMk_left (x := x.seen))
      have h1 : Measurable fun u => (A.get j).values x.seen u :=
        (measurable_fst.comp h0).prodMk (measurable_fst.comp (measurable_snd.comp h0))
      exact ((measurable_snd.comp (measurable_snd.comp h0)) (measurableSet_singleton true)).inter (h1 hT)
    have hp := (measurePreserving_eval (fun i : Fin A.length => (A.get i).law) j).measure_preimage
      hT'.nullMeasurableSet
    rw [← hp]
    unfold Spec.chances
    congr 1
    ext u
    exact ⟨fun h => ⟨hall _ _, h.2⟩, fun h => ⟨hx, h.2⟩⟩
  · rw [Set.indicator_of_notMem hx]
    have : Prod.mk x ⁻¹' ((fun t : Spec.SkySource × (Fin A.length → Spec.Chance) =>
        (t.1, (A.get j).values t.1.seen (t.2 j))) ⁻¹' S ×ˢ T) = ∅ := by
      ext u; exact ⟨fun h => hx h.1, fun h => h.elim⟩
    rw [this, measure_empty]

theorem unmarked_intensity :
    ((Spec.objects y a s c rm m vs Λ μL A).withDensity
      fun x => 1 - Spec.detectionAux e y a s flux p A x).map
      (fun t => (t.1, (A.get j).values t.1.seen (t.2 j))) =
    ((Spec.intensity y a s c rm m vs Λ μL).withDensity
      fun x => 1 - Spec.detectionAll e y a s flux p A x).prod ρ := by
  have hAl : ∀ q ∈ A, IsProbabilityMeasure q.law := fun q hq => (hA.plays q hq).law
  have hAr : ∀ q ∈ A, Measurable fun t : Spec.Seen × Spec.Chance => q.response t.1 t.2 :=
    fun q hq => (hA.plays q hq).response
  have i0 := chances_prob A hAl
  have i1 := unrelated_finite h hA hu
  have i2 : IsFiniteMeasure (Spec.intensity y a s c rm m vs Λ μL) := h.intensity_finite (Λ := Λ)
  have hk := kept_measurable (A := A) hAr
  have hd : Measurable (Spec.detection e y a s flux p) := h.detection_measurable.comp h.observed_measurable
  have hda : Measurable (Spec.detectionAux e y a s flux p A) :=
    Measurable.ite (hk (measurableSet_singleton true)) (hd.comp measurable_fst) measurable_const
  have hm := mark_measurable hAr j
  have hb : Measurable (Spec.detectionAll e y a s flux p A) :=
    hd.mul (Finset.measurable_prod _ fun i _ => selects_measurable hAr i hAl)
  have hle : ∀ x, Spec.detectionAll e y a s flux p A x ≤ 1 := fun x => by
    rw [← detectionBut_eq h hA hu hall]; exact detectionBut_le h hA x
  have i3 := finite_withDensity (Spec.intensity y a s c rm m vs Λ μL)
    (f := Spec.detectionAll e y a s flux p A) hle
  have i4 := finite_withDensity (Spec.intensity y a s c rm m vs Λ μL)
    (f := fun x => 1 - Spec.detectionAll e y a s flux p A x) (fun x => tsub_le_self)
  have k1 := marked_intensity (Λ := Λ) h hA hu
  rw [show Spec.detectionBut e y a s flux p A j = Spec.detectionAll e y a s flux p A from
    funext (detectionBut_eq h hA hu hall)] at k1
  have s1 : (Spec.objects y a s c rm m vs Λ μL A).withDensity (Spec.detectionAux e y a s flux p A) +
      (Spec.objects y a s c rm m vs Λ μL A).withDensity (fun x => 1 - Spec.detectionAux e y a s flux p A x) =
      Spec.objects y a s c rm m vs Λ μL A := by
    rw [← withDensity_add_left hda]
    have : (Spec.detectionAux e y a s flux p A + fun x => 1 - Spec.detectionAux e y a s flux p A x) = 1 := by
      funext x; exact add_tsub_cancel_of_le (detectionAux_le h x)
    rw [this, withDensity_one]
  have s2 : (Spec.intensity y a s c rm m vs Λ μL).withDensity (Spec.detectionAll e y a s flux p A) +
      (Spec.intensity y a s c rm m vs Λ μL).withDensity (fun x => 1 - Spec.detectionAll e y a s flux p A x) =
      Spec.intensity y a s c rm m vs Λ μL := by
    rw [← withDensity_add_left hb]
    have : (Spec.detectionAll e y a s flux p A + fun x => 1 - Spec.detectionAll e y a s flux p A x) = 1 := by
      funext x; exact add_tsub_cancel_of_le (hle x)
    rw [this, withDensity_one]
  have k2 := all_intensity (Λ := Λ) h hA hu hall
  rw [← s1, Measure.map_add _ _ hm, k1] at k2
  have k4 := congrArg (fun μ => μ.prod ρ) s2
  simp only [Measure.add_prod] at k4
  rw [← k4] at k2
  refine Measure.ext fun S hS => ?_
  have k3 := congrArg (fun μ : Measure (Spec.SkySource × (ℝ × ℝ)) => μ S) k2
  simp only [Measure.add_apply] at k3
  exact (ENNReal.add_right_inj (measure_ne_top _ _)).1 k3

/-- **C100**: a quantity that no selection looks at.  Detected and undetected objects have its
population law: whatever else is known of the objects, their values are independent draws. -/
theorem C100_unrelated (hc : Spec.Counted P e env c a rm vs Λ) (showProgress : Bool)
    (galB : List ℝ → List ℝ → List ℝ) :
    Spec.Samples P
      ((Spec.poissonProcess (((Spec.intensity y a s c rm m vs Λ μL).withDensity
          (Spec.detectionAll e y a s flux p A)).prod ρ)).prod
        (Spec.poissonProcess (((Spec.intensity y a s c rm m vs Λ μL).withDensity
          fun x => 1 - Spec.detectionAll e y a s flux p A x).prod ρ)))
      fun k g v g' => ∃ Q s',
        drawSurvey (Spec.surveyEnv e env c.code showProgress tr galB k g) y a s = .ok Q s' ∧
        s'.heap.rng = g' ∧ Spec.Splits Q flux (Spec.observed e
          (Spec.sigmaUsed (s.heap.selectors y.fluxSel).kind a) a.log10Draw) (v.1.map Prod.fst)
          (v.2.map Prod.fst) ∧
        Spec.Shows Q A j (v.1.map Prod.snd) (v.2.map Prod.snd) := by
  have hAl : ∀ q ∈ A, IsProbabilityMeasure q.law := fun q hq => (hA.plays q hq).law
  have hAr : ∀ q ∈ A, Measurable fun t : Spec.Seen × Spec.Chance => q.response t.1 t.2 :=
    fun q hq => (hA.plays q hq).response
  have i0 := chances_prob A hAl
  have i2 : IsFiniteMeasure (Spec.intensity y a s c rm m vs Λ μL) := h.intensity_finite (Λ := Λ)
  have i2' : IsFiniteMeasure (Spec.objects y a s c rm m vs Λ μL A) := by
    unfold Spec.objects; infer_instance
  have i3 := finite_withDensity (Spec.objects y a s c rm m vs Λ μL A)
    (f := Spec.detectionAux e y a s flux p A) (detectionAux_le h)
  have i4 := finite_withDensity (Spec.objects y a s c rm m vs Λ μL A)
    (f := fun x => 1 - Spec.detectionAux e y a s flux p A x) (fun x => tsub_le_self)
  have hm := mark_measurable hAr j
  have k1 := marked_intensity (Λ := Λ) h hA hu
  rw [show Spec.detectionBut e y a s flux p A j = Spec.detectionAll e y a s flux p A from
    funext (detectionBut_eq h hA hu hall)] at k1
  refine Samples.mapTo (C80_thinning h hA hc showProgress galB)
    (f := Prod.map (List.map fun t => (t.1, (A.get j).values t.1.seen (t.2 j)))
      (List.map fun t => (t.1, (A.get j).values t.1.seen (t.2 j))))
    ⟨(measurable_map_list hm).prodMap (measurable_map_list hm), ?_⟩ ?_
  · rw [← Measure.map_prod_map _ _ (measurable_map_list hm) (measurable_map_list hm),
      process_map _ hm, process_map _ hm, k1, unmarked_intensity h hA hu hall]
  · rintro k g v g' ⟨Q, s', q1, q2, q3⟩
    obtain ⟨w, w1, w2⟩ := q3.quantities j
    refine ⟨Q, s', q1, q2, ?_, w, w1, ?_⟩
    · have := q3.sources
      simp only [Prod.map, List.map_map]
      exact this
    · simp only [Prod.map, List.map_map]
      exact w2

/-- **C100** (values): the values of the detected objects are a sample of the population's values;
so are those of the undetected ones, and the samples are independent. -/
theorem C100_values (hc : Spec.Counted P e env c a rm vs Λ) (showProgress : Bool)
    (galB : List ℝ → List ℝ → List ℝ) :
    Spec.Samples P
      ((Spec.poissonSample (∫⁻ x, Spec.detectionAll e y a s flux p A x
          ∂(Spec.intensity y a s c rm m vs Λ μL)).toNNReal ρ).prod
        (Spec.poissonSample (∫⁻ x, 1 - Spec.detectionAll e y a s flux p A x
          ∂(Spec.intensity y a s c rm m vs Λ μL)).toNNReal ρ))
      fun k g v g' => ∃ Q s',
        drawSurvey (Spec.surveyEnv e env c.code showProgress tr galB k g) y a s = .ok Q s' ∧
        s'.heap.rng = g' ∧ Spec.Shows Q A j v.1 v.2 := by
  have iρ := unselective_prob h hA hu hall
  have i2 : IsFiniteMeasure (Spec.intensity y a s c rm m vs Λ μL) := h.intensity_finite (Λ := Λ)
  have hle : ∀ x, Spec.detectionAll e y a s flux p A x ≤ 1 := fun x => by
    rw [← detectionBut_eq h hA hu hall]; exact detectionBut_le h hA x
  have i3 := finite_withDensity (Spec.intensity y a s c rm m vs Λ μL)
    (f := Spec.detectionAll e y a s flux p A) hle
  have i4 := finite_withDensity (Spec.intensity y a s c rm m vs Λ μL)
    (f := fun x => 1 - Spec.detectionAll e y a s flux p A x) (fun x => tsub_le_self)
  have key : ∀ f : Spec.SkySource → ℝ≥0∞, IsFiniteMeasure ((Spec.intensity y a s c rm m vs Λ μL).withDensity f) →
      (((Spec.intensity y a s c rm m vs Λ μL).withDensity f).prod ρ).map Prod.snd =
        (∫⁻ x, f x ∂(Spec.intensity y a s c rm m vs Λ μL)).toNNReal • ρ := fun f hf => by
    rw [Measure.map_snd_prod, withDensity_apply _ MeasurableSet.univ, Measure.restrict_univ]
    have hn : ∫⁻ x, f x ∂(Spec.intensity y a s c rm m vs Λ μL) ≠ ∞ := by
      have := measure_ne_top ((Spec.intensity y a s c rm m vs Λ μL).withDensity f) Set.univ
      rwa [withDensity_apply _ MeasurableSet.univ, Measure.restrict_univ] at this
    conv_lhs => rw [← ENNReal.coe_toNNReal hn]
    rfl
  refine Samples.mapTo (C100_unrelated h hA hu hall hc showProgress galB)
    (f := Prod.map (List.map Prod.snd) (List.map Prod.snd))
    ⟨(measurable_map_list measurable_snd).prodMap (measurable_map_list measurable_snd), ?_⟩ ?_
  · rw [← Measure.map_prod_map _ _ (measurable_map_list measurable_snd) (measurable_map_list measurable_snd),
      process_map _ measurable_snd, process_map _ measurable_snd, key _ i3, key _ i4, sample_process, sample_process]
  · rintro k g v g' ⟨Q, s', q1, q2, -, q3⟩
    exact ⟨Q, s', q1, q2, q3⟩

end survey

/-- **C100** (the samplers of the package): true values of law `μ`, errors of law `ν`, and a
selection that looks at most at the observed value, are not related to the other properties. -/
theorem C100_additive {key : String} {i q : ℕ} {observed : Bool} {μ ν ν' : Measure ℝ}
    [IsProbabilityMeasure μ] [IsProbabilityMeasure ν] [IsProbabilityMeasure ν']
    {D : Set ((ℝ × ℝ × ℝ) × ℝ)} [DecidablePred (· ∈ D)] (hD : MeasurableSet D) {f : ℝ → ℝ≥0∞}
    (hf : ∀ r l o, ν' {u | ((r, l, o), u) ∈ D} = f o) :
    Spec.Unrelated (Spec.additive key i q observed μ ν ν' D)
      (((μ.prod ν).map fun c => (c.1, if observed = true then c.1 + c.2 else c.1)).withDensity
        fun v => f v.2) := by
  intro x T hT
  have mf : Measurable f := by
    have m0 : Measurable fun o : ℝ => ν' (Prod.mk (((0 : ℝ), (0 : ℝ), o) : ℝ × ℝ × ℝ) ⁻¹' D) :=
      (measurable_measure_prodMk_left hD).comp (by fun_prop)
    have : f = fun o : ℝ => ν' (Prod.mk (((0 : ℝ), (0 : ℝ), o) : ℝ × ℝ × ℝ) ⁻¹' D) :=
      funext fun o => (hf 0 0 o).symm
    rw [this]; exact m0
  have mo : Measurable fun c : ℝ × ℝ => (c.1, if observed = true then c.1 + c.2 else c.1) := by
    cases observed <;> simp only [Bool.false_eq_true, if_false, if_true] <;> fun_prop
  have m1 : Measurable fun c : Spec.Chance =>
      (((x.1, x.2.2, if observed = true then c.1 + c.2.1 else c.1), c.2.2) : (ℝ × ℝ × ℝ) × ℝ) := by
    cases observed <;> simp only [Bool.false_eq_true, if_false, if_true] <;> fun_prop
  have m2 : Measurable fun c : Spec.Chance => (c.1, if observed = true then c.1 + c.2.1 else c.1) :=
    mo.comp (f := fun c : Spec.Chance => (c.1, c.2.1)) (by fun_prop)
  have hS : MeasurableSet {c : Spec.Chance |
      (((x.1, x.2.2, if observed = true then c.1 + c.2.1 else c.1), c.2.2) : (ℝ × ℝ × ℝ) × ℝ) ∈ D ∧
      (c.1, if observed = true then c.1 + c.2.1 else c.1) ∈ T} := (m1 hD).inter (m2 hT)
  have e1 : {u | ((Spec.additive key i q observed μ ν ν' D).response x u).2.2 = true ∧
      (Spec.additive key i q observed μ ν ν' D).values x u ∈ T} = {c : Spec.Chance |
      (((x.1, x.2.2, if observed = true then c.1 + c.2.1 else c.1), c.2.2) : (ℝ × ℝ × ℝ) × ℝ) ∈ D ∧
      (c.1, if observed = true then c.1 + c.2.1 else c.1) ∈ T} := by
    ext u
    simp [Spec.additive, Spec.Player.values]
  rw [e1, withDensity_apply _ hT, ← lintegral_indicator hT]
  have mi : Measurable (T.indicator fun v : ℝ × ℝ => f v.2) := (mf.comp measurable_snd).indicator hT
  rw [lintegral_map mi mo, lintegral_prod _ (show Measurable fun c : ℝ × ℝ =>
    T.indicator (fun v : ℝ × ℝ => f v.2) (c.1, if observed = true then c.1 + c.2 else c.1) from mi.comp mo).aemeasurable]
  show (μ.prod (ν.prod ν')) _ = _
  rw [Measure.prod_apply hS]
  refine lintegral_congr fun t => ?_
  rw [Measure.prod_apply (measurable_prodMk_left hS)]
  refine lintegral_congr fun z => ?_
  by_cases hx : ((t, if observed = true then t + z else t) : ℝ × ℝ) ∈ T
  · rw [Set.indicator_of_mem hx, ← hf x.1 x.2.2]
    congr 1
    ext w
    simp [hx]
  · rw [Set.indicator_of_notMem hx, ← measure_empty (μ := ν')]
    congr 1
    ext w
    simp [hx]

namespace AttachedExample
open LawExample

/-- The masses of the detected objects in the survey of `Props/LawAttachedExample.lean`: it detects
by flux, by size and, for every object, with probability 1/3; yet they are a sample of the power
law. -/
example (showProgress : Bool) : ∃ N : ℝ≥0,
    Spec.Samples seeds (Spec.poissonSample N (Spec.lumLaw (Spec.powerDensity 1 9 (1 / 2)) (Set.Icc 1 9)))
      fun k g v g' => ∃ Q s' w d, drawSurvey (Spec.surveyEnv survey LawExample.env constantSpherical.code showProgress
          (fun ls ds => .ok (List.zipWith fluxOf ls ds)) (fun a _ => a) k g) synth args state = .ok Q s' ∧
        s'.heap.rng = g' ∧ Q.attrs[1]? = some ("mass", w) ∧ (w.toSVar .float).selected = .ok d ∧
        d.latent = v := by
  classical
  obtain ⟨ν, D, i, h1, h2, h3, hmass⟩ := mass_plays
  have hp : IsProbabilityMeasure (Spec.lumLaw (Spec.powerDensity 1 9 (1 / 2)) (Set.Icc 1 9)) := by
    have a := C79_powerLaw (V := values) exactAux fairAux (by simp [values]) (by simp [values])
    simp only [values, String.reduceEq, if_true, if_false] at a
    exact a.1
  let A : List Spec.Player := [Spec.additive "size" 7 8 true (Spec.normalLaw 1 2) (Spec.normalLaw 0 (1 / 10))
      (Measure.dirac 0) ({x : ℝ × ℝ × ℝ | 1 ≤ x.2.2} ×ˢ Set.univ),
    Spec.additive "mass" 9 10 false (Spec.lumLaw (Spec.powerDensity 1 9 (1 / 2)) (Set.Icc 1 9))
      (Measure.dirac 0) ν D]
  have hA : Spec.Entourage seeds survey synth state.heap A := by
    refine ⟨?_, ?_, ?_, by decide, fun t => ⟨_, rfl⟩⟩
    · exact ⟨rfl, by simp [A, Spec.Player.who, Spec.additive], by simp [A, Spec.Player.who, Spec.additive],
        by simp [A, Spec.Player.who, Spec.additive], by simp [A, Spec.Player.who, Spec.additive, synth, LawExample.synth],
        by simp [A, Spec.Player.who, Spec.additive, synth, LawExample.synth],
        by simp [A, Spec.Player.who, Spec.additive, readOnlyNames]⟩
    · intro p hp
      rcases List.mem_cons.1 hp with rfl | hp
      · exact ⟨rfl, rfl, rfl, rfl, rfl⟩
      · obtain rfl := List.mem_singleton.1 hp
        exact ⟨rfl, rfl, rfl, rfl, rfl⟩
    · intro p hp
      rcases List.mem_cons.1 hp with rfl | hp
      · exact size_plays
      · obtain rfl := List.mem_singleton.1 hp
        exact hmass
  have hu := C100_additive (key := "mass") (i := 9) (q := 10) (observed := false)
    (μ := Spec.lumLaw (Spec.powerDensity 1 9 (1 / 2)) (Set.Icc 1 9)) (ν := Measure.dirac 0) (ν' := ν) h2
    (f := fun _ => ENNReal.ofReal (1 / 3)) (fun r l o => h3 _)
  rw [withDensity_const] at hu
  set ρ0 := ((Spec.lumLaw (Spec.powerDensity 1 9 (1 / 2)) (Set.Icc 1 9)).prod (Measure.dirac (0 : ℝ))).map
    fun c => (c.1, if false = true then c.1 + c.2 else c.1) with hρ0
  have mo : Measurable fun c : ℝ × ℝ => (c.1, if false = true then c.1 + c.2 else c.1) := by
    simp only [Bool.false_eq_true, if_false]; fun_prop
  have i0 : IsProbabilityMeasure ρ0 := Measure.isProbabilityMeasure_map mo.aemeasurable
  have e0 : (ENNReal.ofReal (1 / 3) • ρ0) Set.univ = ENNReal.ofReal (1 / 3) := by
    rw [Measure.smul_apply, measure_univ, smul_eq_mul, mul_one]
  have en : ENNReal.ofReal (1 / 3) ≠ 0 := by
    rw [Ne, ENNReal.ofReal_eq_zero]; norm_num
  have hS := C100_selected_values (j := (⟨1, by simp [A]⟩ : Fin A.length)) lawful hA hu (by rw [e0]; exact en) counted
    showProgress (fun a _ => a)
  rw [e0, smul_smul, ENNReal.inv_mul_cancel en ENNReal.ofReal_ne_top, one_smul] at hS
  rw [sample_process] at hS
  have key : ∀ N : ℝ≥0, (Spec.poissonProcess (N • ρ0)).map (List.map Prod.fst) = Spec.poissonSample N
      (Spec.lumLaw (Spec.powerDensity 1 9 (1 / 2)) (Set.Icc 1 9)) := fun N => by
    rw [process_map _ measurable_fst, sample_process, Measure.map_smul, hρ0,
      Measure.map_map measurable_fst mo, show (Prod.fst ∘ fun c : ℝ × ℝ =>
        (c.1, if false = true then c.1 + c.2 else c.1)) = Prod.fst from rfl, measurePreserving_fst.map_eq]
  refine ⟨_, Samples.mapTo hS (f := List.map Prod.fst) ⟨measurable_map_list measurable_fst, key _⟩ ?_⟩
  · rintro k g v g' ⟨Q, s', u', q1, q2, w, w1, w2⟩
    obtain ⟨d, d1, -, d2⟩ := w2.selected
    exact ⟨Q, s', w, d, q1, q2, w1, d1, d2⟩

end AttachedExample
end Popsynth
