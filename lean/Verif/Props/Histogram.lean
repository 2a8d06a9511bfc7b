import Verif.Props.LawTroupeCounts
import Verif.Lemmas.Histogram

/-!
# Histograms of the objects of a survey (C106)
-/

set_option autoImplicit false
set_option linter.unusedSectionVars false

open MeasureTheory Filter
open scoped NNReal ENNReal

namespace Popsynth

open scoped Classical in
/-- The histograms of the observed values of the selected and of the other objects: `a j` and `b j`
of them are in the bin `I j`. -/
structure Spec.Binned {n : ℕ} (x : SimVar ℝ) (I : Fin n → Set ℝ) (a b : Fin n → ℕ) : Prop where
  selected : ∃ v, (x.toSVar .float).selected = .ok v ∧ ∀ j, a j = v.obs.countP (· ∈ I j)
  hidden : ∃ v, (x.toSVar .float).nonSelected = .ok v ∧ ∀ j, b j = v.obs.countP (· ∈ I j)

variable {G : Type} [MeasurableSpace G] {P : Measure G} [IsProbabilityMeasure P]
  {e : SurveyEnv ℝ G} {env : DistEnv ℝ G} {c : SpClass ℝ}
  {tr : List ℝ → List ℝ → Except Err (List ℝ)} {y : Synth ℝ} {a : SurveyArgs ℝ} {s : SurvSt ℝ G}
  {flux : ℝ → ℝ → ℝ} {rm m : ℝ} {vs : List ℝ} {Λ : ℝ≥0} {p : ℝ → ℝ≥0∞}
  {L : Spec.Lamp} {N : ℕ} {A : Fin N → Spec.Troupe}

section
variable (h : Spec.Staged P e env c tr y a s flux rm m vs p)
    (hA : Spec.Company P e y s L A) (hfx : Spec.FiniteFluxes e c y a s flux rm m vs L A)
    (hc : Spec.Counted P e env c a rm vs Λ) (showProgress : Bool) (galB : List ℝ → List ℝ → List ℝ)
include h hA hfx hc

/-- **C106**: the numbers of detected objects in any disjoint bins and the numbers of undetected
objects in any disjoint bins are independent Poisson numbers. -/
theorem C106_histogram {n n' : ℕ} {B : Fin n → Set (Spec.Fate L A)} {B' : Fin n' → Set (Spec.Fate L A)}
    [∀ j, DecidablePred (· ∈ B j)] [∀ j, DecidablePred (· ∈ B' j)]
    (hB : ∀ j, MeasurableSet (B j)) (hd : ∀ i j, i ≠ j → Disjoint (B i) (B j))
    (hB' : ∀ j, MeasurableSet (B' j)) (hd' : ∀ i j, i ≠ j → Disjoint (B' i) (B' j)) :
    Spec.Samples P
      ((Measure.pi fun j => ProbabilityTheory.poissonMeasure (Λ * (∫⁻ x in B j, Spec.fateSeen e y a s flux p L A x
          ∂(Spec.surveyFate y a s c rm m vs L A)).toNNReal)).prod
        (Measure.pi fun j => ProbabilityTheory.poissonMeasure (Λ * (∫⁻ x in B' j, 1 - Spec.fateSeen e y a s flux p L A x
          ∂(Spec.surveyFate y a s c rm m vs L A)).toNNReal)))
      fun k g v g' => ∃ Q s' d u,
        drawSurvey (Spec.surveyEnv e env c.code showProgress tr galB k g) y a s = .ok Q s' ∧
        s'.heap.rng = g' ∧ Spec.SplitsAll Q flux (Spec.observed e
          (Spec.sigmaUsed (s.heap.selectors y.fluxSel).kind a) a.log10Draw) L A d u ∧
        (∀ j, v.1 j = d.countP (· ∈ B j)) ∧ ∀ j, v.2 j = u.countP (· ∈ B' j) := by
  have i2 := fates_finite (Λ := Λ) h hA
  have i3 := finite_withDensity (Spec.fates y a s c rm m vs Λ L A)
    (f := Spec.fateSeen e y a s flux p L A) (fateSeen_le h)
  have i4 := finite_withDensity (Spec.fates y a s c rm m vs Λ L A)
    (f := fun x => 1 - Spec.fateSeen e y a s flux p L A x) (fun x => tsub_le_self)
  have hm : ∀ (q : Spec.Fate L A → ℝ≥0∞) (B : Set (Spec.Fate L A)), MeasurableSet B →
      ((Spec.fates y a s c rm m vs Λ L A).withDensity q B).toNNReal =
      Λ * (∫⁻ x in B, q x ∂(Spec.surveyFate y a s c rm m vs L A)).toNNReal := by
    intro q B hB
    rw [withDensity_apply _ hB]
    unfold Spec.fates
    rw [Measure.restrict_smul, lintegral_smul_measure, smul_eq_mul, ENNReal.toNNReal_mul, ENNReal.toNNReal_coe]
  have hp := (process_bins ((Spec.fates y a s c rm m vs Λ L A).withDensity (Spec.fateSeen e y a s flux p L A)) hB hd).prod
    (process_bins ((Spec.fates y a s c rm m vs Λ L A).withDensity
      fun x => 1 - Spec.fateSeen e y a s flux p L A x) hB' hd')
  simp only [hm _ _ (hB _), hm _ _ (hB' _)] at hp
  refine Samples.mapTo (C84_thinning h hA hfx hc showProgress galB) hp ?_
  rintro k g v g' ⟨Q, s', q1, q2, q3⟩
  exact ⟨Q, s', v.1, v.2, q1, q2, q3, fun _ => rfl, fun _ => rfl⟩

/-- The means of the histograms of a quantity `f` of the objects. -/
noncomputable def Spec.barMean (Λ : ℝ≥0) {α : Type} [MeasurableSpace α] (μ : Measure α) (q : α → ℝ≥0∞) (f : α → ℝ)
    (I : Set ℝ) : ℝ≥0 :=
  Λ * (∫⁻ x in {x | f x ∈ I}, q x ∂μ).toNNReal

theorem histogram_of {f : Spec.Fate L A → ℝ} (hf : Measurable f) {n : ℕ} {I : Fin n → Set ℝ}
    (hI : ∀ j, MeasurableSet (I j)) (hd : ∀ i j, i ≠ j → Disjoint (I i) (I j)) (X : Population ℝ → SimVar ℝ → Prop)
    (hX : ∀ {Q d u}, Spec.SplitsAll Q flux (Spec.observed e
      (Spec.sigmaUsed (s.heap.selectors y.fluxSel).kind a) a.log10Draw) L A d u →
      ∃ x l l', X Q x ∧ Spec.Parts x (d.map f) l (u.map f) l') :
    Spec.Samples P
      ((Measure.pi fun j => ProbabilityTheory.poissonMeasure (Spec.barMean Λ (Spec.surveyFate y a s c rm m vs L A)
          (Spec.fateSeen e y a s flux p L A) f (I j))).prod
        (Measure.pi fun j => ProbabilityTheory.poissonMeasure (Spec.barMean Λ (Spec.surveyFate y a s c rm m vs L A)
          (fun x => 1 - Spec.fateSeen e y a s flux p L A x) f (I j))))
      fun k g v g' => ∃ Q s' x,
        drawSurvey (Spec.surveyEnv e env c.code showProgress tr galB k g) y a s = .ok Q s' ∧
        s'.heap.rng = g' ∧ X Q x ∧ Spec.Binned x I v.1 v.2 := by
  classical
  have hs := C106_histogram h hA hfx hc showProgress galB (B := fun j => {x | f x ∈ I j}) (B' := fun j => {x | f x ∈ I j})
    (fun j => hf (hI j)) (fun i j hij => (hd i j hij).preimage f) (fun j => hf (hI j))
    (fun i j hij => (hd i j hij).preimage f)
  obtain ⟨T, hT, hR⟩ := hs
  refine ⟨T, hT, ?_⟩
  filter_upwards [hR] with g hg
  filter_upwards [hg] with k hk
  obtain ⟨Q, s', d, u, q1, q2, q3, q4, q5⟩ := hk
  obtain ⟨x, l, l', hx, ⟨v, v1, v2, -⟩, ⟨w, w1, w2, -⟩⟩ := hX q3
  refine ⟨Q, s', x, q1, q2, hx, ⟨v, v1, fun j => ?_⟩, ⟨w, w1, fun j => ?_⟩⟩
  · rw [q4 j, v2, List.countP_map]
    exact List.countP_congr fun z _ => by simp
  · rw [q5 j, w2, List.countP_map]
    exact List.countP_congr fun z _ => by simp

/-- **C106** (distances): the histograms of the distances of detected and undetected objects have
independent Poisson numbers in their bins. -/
theorem C106_distances {n : ℕ} {I : Fin n → Set ℝ}
    (hI : ∀ j, MeasurableSet (I j)) (hd : ∀ i j, i ≠ j → Disjoint (I i) (I j)) :
    Spec.Samples P
      ((Measure.pi fun j => ProbabilityTheory.poissonMeasure (Spec.barMean Λ (Spec.surveyFate y a s c rm m vs L A)
          (Spec.fateSeen e y a s flux p L A) Prod.fst (I j))).prod
        (Measure.pi fun j => ProbabilityTheory.poissonMeasure (Spec.barMean Λ (Spec.surveyFate y a s c rm m vs L A)
          (fun x => 1 - Spec.fateSeen e y a s flux p L A x) Prod.fst (I j))))
      fun k g v g' => ∃ Q s',
        drawSurvey (Spec.surveyEnv e env c.code showProgress tr galB k g) y a s = .ok Q s' ∧
        s'.heap.rng = g' ∧ Spec.Binned Q.distances I v.1 v.2 := by
  obtain ⟨T, hT, hR⟩ := histogram_of h hA hfx hc showProgress galB (f := Prod.fst) measurable_fst hI hd
    (fun Q x => x = Q.distances) (fun {Q d u} hQ => ⟨_, _, _, rfl, by
      have := hQ.sources.distances
      rw [List.map_map, List.map_map] at this
      exact this⟩)
  refine ⟨T, hT, ?_⟩
  filter_upwards [hR] with g hg
  filter_upwards [hg] with k hk
  obtain ⟨Q, s', x, q1, q2, rfl, q4⟩ := hk
  exact ⟨Q, s', q1, q2, q4⟩

/-- **C106** (fluxes): the same for the measured fluxes. -/
theorem C106_fluxes {n : ℕ} {I : Fin n → Set ℝ}
    (hI : ∀ j, MeasurableSet (I j)) (hd : ∀ i j, i ≠ j → Disjoint (I i) (I j)) :
    Spec.Samples P
      ((Measure.pi fun j => ProbabilityTheory.poissonMeasure (Spec.barMean Λ (Spec.surveyFate y a s c rm m vs L A)
          (Spec.fateSeen e y a s flux p L A) (fun x => Spec.fluxOf e y a s flux (Spec.sourceOf L A x)) (I j))).prod
        (Measure.pi fun j => ProbabilityTheory.poissonMeasure (Spec.barMean Λ (Spec.surveyFate y a s c rm m vs L A)
          (fun x => 1 - Spec.fateSeen e y a s flux p L A x)
          (fun x => Spec.fluxOf e y a s flux (Spec.sourceOf L A x)) (I j))))
      fun k g v g' => ∃ Q s',
        drawSurvey (Spec.surveyEnv e env c.code showProgress tr galB k g) y a s = .ok Q s' ∧
        s'.heap.rng = g' ∧ Spec.Binned Q.fluxes I v.1 v.2 := by
  obtain ⟨T, hT, hR⟩ := histogram_of h hA hfx hc showProgress galB
    (f := fun x => Spec.fluxOf e y a s flux (Spec.sourceOf L A x))
    (h.flux_measurable.comp (sourceOf_measurable (A := A) hA.lights.shine)) hI hd
    (fun Q x => x = Q.fluxes) (fun {Q d u} hQ => ⟨_, _, _, rfl, by
      have := hQ.sources.fluxes
      rw [List.map_map, List.map_map] at this
      simp only [List.map_map] at this
      exact this⟩)
  refine ⟨T, hT, ?_⟩
  filter_upwards [hR] with g hg
  filter_upwards [hg] with k hk
  obtain ⟨Q, s', x, q1, q2, rfl, q4⟩ := hk
  exact ⟨Q, s', q1, q2, q4⟩

/-- **C106** (quantities): the same for the observed values of every attached sampler and of every
secondary sampler of one. -/
theorem C106_quantities (i : Fin N) (j : Fin (A i).members.length) {n : ℕ} {I : Fin n → Set ℝ}
    (hI : ∀ j, MeasurableSet (I j)) (hd : ∀ i j, i ≠ j → Disjoint (I i) (I j)) :
    Spec.Samples P
      ((Measure.pi fun b => ProbabilityTheory.poissonMeasure (Spec.barMean Λ (Spec.surveyFate y a s c rm m vs L A)
          (Spec.fateSeen e y a s flux p L A) (fun x => (Spec.troupeOutcome L A x i j).2.1) (I b))).prod
        (Measure.pi fun b => ProbabilityTheory.poissonMeasure (Spec.barMean Λ (Spec.surveyFate y a s c rm m vs L A)
          (fun x => 1 - Spec.fateSeen e y a s flux p L A x) (fun x => (Spec.troupeOutcome L A x i j).2.1) (I b))))
      fun k g v g' => ∃ Q s' x,
        drawSurvey (Spec.surveyEnv e env c.code showProgress tr galB k g) y a s = .ok Q s' ∧
        s'.heap.rng = g' ∧ (((A i).members.get j).1, x) ∈ Q.attrs ∧ Spec.Binned x I v.1 v.2 := by
  have hs : Measurable Spec.SkySource.seen :=
    SkySource.measurable_of (show Measurable fun p : ℝ × (ℝ × ℝ) × ℝ × ℝ => (p.1, (p.2.1.1, p.2.1.2), p.2.2.1) by fun_prop)
  have h1 : Measurable fun x : Spec.Fate L A => ((Spec.sourceOf L A x).seen, x.2.2.2.1 i) :=
    (hs.comp (sourceOf_measurable hA.lights.shine)).prodMk (by fun_prop)
  have h2 := ((hA.performs i).response j).comp h1
  exact histogram_of h hA hfx hc showProgress galB (measurable_fst.comp (measurable_snd.comp h2)) hI hd
    (fun Q x => (((A i).members.get j).1, x) ∈ Q.attrs)
    (fun {Q d u} hQ => by
      obtain ⟨v, v1, v2⟩ := hQ.attached i j
      exact ⟨v, _, _, v1, v2⟩)

end

namespace FamilyExample
open LawExample

/-- Near, intermediate and far objects of the survey with a derived luminosity and attached
samplers. -/
example (showProgress : Bool) :
    ∃ μ : Measure ((Fin 3 → ℕ) × (Fin 3 → ℕ)), Spec.Samples seeds μ
      fun k g v g' => ∃ Q s', drawSurvey (Spec.surveyEnv survey LawExample.env constantSpherical.code showProgress
          (fun ls ds => .ok (List.zipWith (fun l d => l / (4 * Real.pi * d ^ 2)) ls ds)) (fun a _ => a) k g)
            synth args state = .ok Q s' ∧
        s'.heap.rng = g' ∧ Spec.Binned Q.distances (fun j : Fin 3 => Set.Ico (j : ℝ) (j + 1)) v.1 v.2 :=
  ⟨_, C106_distances staged company (Eventually.of_forall fun _ _ => rfl) counted showProgress _
    (fun j => measurableSet_Ico) fun i j hij => by
      rw [Set.disjoint_left]
      rintro x ⟨h1, h2⟩ ⟨h3, h4⟩
      apply hij
      have a1 : ((i : ℕ) : ℝ) < ((j : ℕ) + 1 : ℕ) := by push_cast; linarith
      have a2 : ((j : ℕ) : ℝ) < ((i : ℕ) + 1 : ℕ) := by push_cast; linarith
      have b1 : (i : ℕ) < j + 1 := by exact_mod_cast a1
      have b2 : (j : ℕ) < i + 1 := by exact_mod_cast a2
      exact Fin.ext (by omega)⟩

end FamilyExample
end Popsynth
