import Verif.Props.LawSurveyExample
import Verif.Props.LawCounts
import Verif.Lemmas.ProcessAppend
import Verif.Lemmas.ProcessSums

/-!
# Combining surveys, and completeness against density (C102)
-/

set_option autoImplicit false
set_option linter.unusedSectionVars false

open MeasureTheory Filter
open scoped NNReal ENNReal

namespace Popsynth

/-- A survey: the libraries, the synth and its state, the arguments, and what its laws are about. -/
structure Spec.Campaign (G : Type) where
  e : SurveyEnv ℝ G
  env : DistEnv ℝ G
  c : SpClass ℝ
  tr : List ℝ → List ℝ → Except Err (List ℝ)
  y : Synth ℝ
  a : SurveyArgs ℝ
  s : SurvSt ℝ G
  flux : ℝ → ℝ → ℝ
  rm : ℝ
  m : ℝ
  vs : List ℝ
  number : ℝ≥0
  lum : Measure ℝ
  p : ℝ → ℝ≥0∞
  showProgress : Bool
  galB : List ℝ → List ℝ → List ℝ

namespace Spec.Campaign
variable {G : Type} [MeasurableSpace G]

/-- The assumptions of C74. -/
structure Valid (P : Measure G) (S : Spec.Campaign G) : Prop where
  lawful : Spec.Lawful P S.e S.env S.c S.tr S.y S.a S.s S.flux S.rm S.m S.vs S.lum S.p
  counted : Spec.Counted P S.e S.env S.c S.a S.rm S.vs S.number

/-- The measurement error in use. -/
def sigma (S : Spec.Campaign G) : Option ℝ := Spec.sigmaUsed (S.s.heap.selectors S.y.fluxSel).kind S.a

/-- The probability with which a source is detected. -/
noncomputable def detects (S : Spec.Campaign G) : Spec.SkySource → ℝ≥0∞ :=
  Spec.detection S.e S.y S.a S.s S.flux S.p

/-- The mean numbers of detected objects. -/
noncomputable def found (S : Spec.Campaign G) : Measure Spec.SkySource :=
  (Spec.intensity S.y S.a S.s S.c S.rm S.m S.vs S.number S.lum).withDensity S.detects

/-- The survey from the generator state `g` returns a population with the detected objects `v`. -/
def Finds (S : Spec.Campaign G) (k : ℕ) (g : G) (v : List Spec.SkySource) (g' : G) : Prop :=
  ∃ Q s' u, drawSurvey (Spec.surveyEnv S.e S.env S.c.code S.showProgress S.tr S.galB k g) S.y S.a S.s = .ok Q s' ∧
    s'.heap.rng = g' ∧ Spec.Splits Q S.flux (Spec.observed S.e S.sigma S.a.log10Draw) v u

/-- `T` is like `S`, but of `k` times the density, and detects sources `q` times as often. -/
structure Variant (k : ℝ) (q : ℝ≥0) (S T : Spec.Campaign G) : Prop where
  positive : 0 < k
  radius : T.rm = S.rm
  density : ∀ r, 0 ≤ r → r ≤ S.rm → T.c.dens T.vs r = k * S.c.dens S.vs r
  highest : T.m = k * S.m
  number : (T.number : ℝ) = k * S.number
  lum : T.lum = S.lum
  sigma : T.sigma = S.sigma
  detects : ∀ x, T.detects x = q * S.detects x

end Spec.Campaign

open Spec.Campaign

variable {G : Type} [MeasurableSpace G] {P : Measure G} [IsProbabilityMeasure P]

/-! ### Two generators -/

/-- Two programs with a generator each. -/
theorem Samples.pair {G' α β : Type} [MeasurableSpace G'] [MeasurableSpace α] [MeasurableSpace β] {P' : Measure G'}
    [IsProbabilityMeasure P'] {μ : Measure α} {ν : Measure β} [IsProbabilityMeasure μ] [IsProbabilityMeasure ν]
    {R : ℕ → G → α → G → Prop} {R' : ℕ → G' → β → G' → Prop} (h : Spec.Samples P μ R) (h' : Spec.Samples P' ν R') :
    Spec.Samples (P.prod P') (μ.prod ν) fun k g v g' => R k g.1 v.1 g'.1 ∧ R' k g.2 v.2 g'.2 := by
  obtain ⟨T, hT, hR⟩ := h
  obtain ⟨T', hT', hR'⟩ := h'
  refine ⟨fun g => (((T g.1).1, (T' g.2).1), ((T g.1).2, (T' g.2).2)), ?_, ?_⟩
  · have h1 := hT.prod hT'
    have h2 : MeasurePreserving (fun q : (α × G) × (β × G') => ((q.1.1, q.2.1), (q.1.2, q.2.2)))
        ((μ.prod P).prod (ν.prod P')) ((μ.prod ν).prod (P.prod P')) := by
      have s1 := measurePreserving_prodAssoc μ P (ν.prod P')
      have s2 := (MeasurePreserving.id μ).prod (measurePreserving_prodAssoc P ν P').symm
      have s3 := (MeasurePreserving.id μ).prod ((Measure.measurePreserving_swap (μ := P) (ν := ν)).prod
        (MeasurePreserving.id P'))
      have s4 := (MeasurePreserving.id μ).prod (measurePreserving_prodAssoc ν P P')
      have s5 := (measurePreserving_prodAssoc μ ν (P.prod P')).symm
      exact s5.comp (s4.comp (s3.comp (s2.comp s1)))
    exact h2.comp h1
  · filter_upwards [Measure.quasiMeasurePreserving_fst.ae hR, Measure.quasiMeasurePreserving_snd.ae hR'] with g a b
    filter_upwards [a, b] with k a b
    exact ⟨a, b⟩

/-! ### What is found -/

section found
variable {S : Spec.Campaign G} (h : S.Valid P)
include h

theorem found_finite : IsFiniteMeasure S.found := by
  have i2 := h.lawful.intensity_finite (Λ := S.number)
  exact finite_withDensity _ (fun x => h.lawful.le_one _)

/-- **C102** (one survey): the detected objects are a Poisson process. -/
theorem C102_found : Spec.Samples P (Spec.poissonProcess S.found) S.Finds := by
  have i1 := found_finite h
  have i2 := h.lawful.intensity_finite (Λ := S.number)
  have i3 := finite_withDensity (Spec.intensity S.y S.a S.s S.c S.rm S.m S.vs S.number S.lum)
    (f := fun x => 1 - S.detects x) (fun x => tsub_le_self)
  have i4 : IsFiniteMeasure ((Spec.intensity S.y S.a S.s S.c S.rm S.m S.vs S.number S.lum).withDensity
    (Spec.detection S.e S.y S.a S.s S.flux S.p)) := i1
  have i5 : IsFiniteMeasure ((Spec.intensity S.y S.a S.s S.c S.rm S.m S.vs S.number S.lum).withDensity
    fun x => 1 - Spec.detection S.e S.y S.a S.s S.flux S.p x) := i3
  refine Samples.mapTo (C75_thinning h.lawful h.counted S.showProgress S.galB) (f := Prod.fst) measurePreserving_fst ?_
  rintro k g v g' ⟨Q, s', q1, q2, q3⟩
  exact ⟨Q, s', v.2, q1, q2, q3⟩

/-- What a variant finds. -/
theorem found_variant {T : Spec.Campaign G} {k : ℝ} {q : ℝ≥0} (hv : Variant k q S T) :
    T.found = (k.toNNReal * q) • S.found := by
  have hk := hv.positive
  have hl : Spec.densityLaw (fun r => min (T.c.dens T.vs r) T.m) T.rm =
      Spec.densityLaw (fun r => min (S.c.dens S.vs r) S.m) S.rm := by
    rw [hv.radius]
    refine densityLaw_scale hk fun r h0 h1 => ?_
    rw [hv.density r h0 h1, hv.highest, mul_min_of_nonneg _ _ hk.le]
  have hn : T.number = k.toNNReal * S.number := by
    apply NNReal.coe_injective
    rw [hv.number, NNReal.coe_mul, Real.coe_toNNReal _ hk.le]
  have hi : Spec.intensity T.y T.a T.s T.c T.rm T.m T.vs T.number T.lum =
      k.toNNReal • Spec.intensity S.y S.a S.s S.c S.rm S.m S.vs S.number S.lum := by
    unfold Spec.intensity
    have hs := hv.sigma
    unfold Spec.Campaign.sigma at hs
    rw [hl, hn, hv.lum, hs, mul_smul]
  have hd : Measurable S.detects := h.lawful.detection_measurable.comp h.lawful.observed_measurable
  have ht : T.detects = (q : ℝ≥0∞) • S.detects := funext fun x => hv.detects x
  unfold Spec.Campaign.found
  rw [hi, ht, withDensity_smul _ hd, show ∀ (r : ℝ≥0) (μ : Measure Spec.SkySource), r • μ = (r : ℝ≥0∞) • μ from
    fun _ _ => rfl, withDensity_smul_measure, smul_smul, mul_comm, ← ENNReal.coe_mul]
  rfl

end found

/-! ### Combining surveys -/

variable {S S₁ S₂ T : Spec.Campaign G}

/-- **C102** (superposition): two surveys with independent generators whose detected objects have
proportional intensities: together they are a Poisson process with the sum of the intensities. -/
theorem C102_superposition (h₁ : S₁.Valid P) (h₂ : S₂.Valid P) {κ : Measure Spec.SkySource} [IsFiniteMeasure κ]
    {a b : ℝ≥0} (ha : S₁.found = a • κ) (hb : S₂.found = b • κ) :
    Spec.Samples (P.prod P) (Spec.poissonProcess ((a + b) • κ)) fun k g v g' => ∃ v₁ v₂,
      S₁.Finds k g.1 v₁ g'.1 ∧ S₂.Finds k g.2 v₂ g'.2 ∧ v = v₁ ++ v₂ := by
  have i1 := found_finite h₁
  have i2 := found_finite h₂
  have h := Samples.pair (C102_found h₁) (C102_found h₂)
  rw [ha, hb] at h
  rw [ha] at i1
  rw [hb] at i2
  exact Samples.mapTo h ⟨measurable_append, process_append κ a b⟩ fun k g v g' hv => ⟨v.1, v.2, hv.1, hv.2, rfl⟩

/-- **C102** (numbers): whatever the two surveys, the number of objects in a class that both
together detect is a Poisson number with the sum of the means. -/
theorem C102_numbers (h₁ : S₁.Valid P) (h₂ : S₂.Valid P) {B : Set Spec.SkySource} [DecidablePred (· ∈ B)]
    (hB : MeasurableSet B) :
    Spec.Samples (P.prod P) (ProbabilityTheory.poissonMeasure (S₁.found B + S₂.found B).toNNReal) fun k g n g' =>
      ∃ v₁ v₂, S₁.Finds k g.1 v₁ g'.1 ∧ S₂.Finds k g.2 v₂ g'.2 ∧ n = (v₁ ++ v₂).countP (· ∈ B) := by
  have i1 := found_finite h₁
  have i2 := found_finite h₂
  have c : ∀ κ : Measure Spec.SkySource, IsFiniteMeasure κ → MeasurePreserving
      (fun l : List Spec.SkySource => l.countP (· ∈ B)) (Spec.poissonProcess κ)
      (ProbabilityTheory.poissonMeasure (κ B).toNNReal) := fun κ _ =>
    measurePreserving_fst.comp (process_classes κ hB)
  have h := Samples.pair (C102_found h₁) (C102_found h₂)
  have hp : MeasurePreserving (fun q : ℕ × ℕ => q.1 + q.2) ((ProbabilityTheory.poissonMeasure (S₁.found B).toNNReal).prod
      (ProbabilityTheory.poissonMeasure (S₂.found B).toNNReal))
      (ProbabilityTheory.poissonMeasure (S₁.found B + S₂.found B).toNNReal) :=
    ⟨by fun_prop, by rw [poisson_add, ENNReal.toNNReal_add (measure_ne_top _ _) (measure_ne_top _ _)]⟩
  refine Samples.mapTo h (hp.comp ((c _ i1).prod (c _ i2))) fun k g v g' hv => ⟨v.1, v.2, hv.1, hv.2, ?_⟩
  simp

/-- **C102** (completeness and density): a survey of `k` times the density in which every source is
detected `1/k` times as often cannot be told from the first by what it detects. -/
theorem C102_degenerate (h : S.Valid P) (h' : T.Valid P) {k : ℝ} {q : ℝ≥0} (hv : Variant k q S T) (hk : k * q = 1) :
    T.found = S.found ∧ Spec.Samples P (Spec.poissonProcess S.found) S.Finds ∧
      Spec.Samples P (Spec.poissonProcess S.found) T.Finds := by
  have e : T.found = S.found := by
    rw [found_variant h hv, show k.toNNReal * q = 1 from ?_, one_smul]
    apply NNReal.coe_injective
    rw [NNReal.coe_mul, Real.coe_toNNReal _ hv.positive.le, hk, NNReal.coe_one]
  exact ⟨e, C102_found h, e ▸ C102_found h'⟩

/-- **C102** (a survey in two parts): two surveys with independent generators and densities and
completenesses that add up to those of a third: together they find what it finds. -/
theorem C102_parts (h : S.Valid P) (h₁ : S₁.Valid P) (h₂ : S₂.Valid P) {k₁ k₂ : ℝ} {q₁ q₂ : ℝ≥0}
    (v₁ : Variant k₁ q₁ S S₁) (v₂ : Variant k₂ q₂ S S₂) (hk : k₁ * q₁ + k₂ * q₂ = 1) :
    Spec.Samples P (Spec.poissonProcess S.found) S.Finds ∧
    Spec.Samples (P.prod P) (Spec.poissonProcess S.found) fun k g v g' => ∃ v₁ v₂,
      S₁.Finds k g.1 v₁ g'.1 ∧ S₂.Finds k g.2 v₂ g'.2 ∧ v = v₁ ++ v₂ := by
  have i := found_finite h
  have hs := C102_superposition h₁ h₂ (found_variant h v₁) (found_variant h v₂)
  rw [show k₁.toNNReal * q₁ + k₂.toNNReal * q₂ = 1 from ?_, one_smul] at hs
  · exact ⟨C102_found h, hs⟩
  · apply NNReal.coe_injective
    push_cast
    rw [Real.coe_toNNReal _ v₁.positive.le, Real.coe_toNNReal _ v₂.positive.le, hk]

namespace CombinedExample

/-- The survey of `LawExample`. -/
noncomputable def one : Spec.Campaign (ℕ → LawExample.Triple) where
  e := LawExample.survey
  env := LawExample.env
  c := constantSpherical
  tr ls ds := .ok (List.zipWith (fun l d => l / (4 * Real.pi * d ^ 2)) ls ds)
  y := LawExample.synth
  a := LawExample.args
  s := LawExample.state
  flux l d := l / (4 * Real.pi * d ^ 2)
  rm := 10
  m := constantSpherical.dens [5] 10
  vs := [5]
  number := LawExample.mean
  lum := Spec.uniformLaw 1
  p x := ENNReal.ofReal (LawExample.selEnv.softLog 2 (1 / 1000) x)
  showProgress := false
  galB a _ := a

theorem one_valid : one.Valid LawExample.seeds := ⟨LawExample.lawful, LawExample.counted⟩

/-- Two surveys from independent seeds find twice as many objects. -/
example : Spec.Samples (LawExample.seeds.prod LawExample.seeds) (Spec.poissonProcess ((1 + 1 : ℝ≥0) • one.found))
    fun k g v g' => ∃ v₁ v₂, one.Finds k g.1 v₁ g'.1 ∧ one.Finds k g.2 v₂ g'.2 ∧ v = v₁ ++ v₂ :=
  have := found_finite one_valid
  C102_superposition one_valid one_valid (one_smul _ _).symm (one_smul _ _).symm

/-- Twice the density, detected half as often. -/
example : Variant 2 (1 / 2) one { one with
    vs := [10], m := constantSpherical.dens [10] 10, number := 2 * LawExample.mean, p := fun x => (1 / 2 : ℝ≥0) * one.p x } where
  positive := by norm_num
  radius := rfl
  density r _ _ := by simp only [one, constantSpherical_dens, sphereVolume]; ring
  highest := by simp only [one, constantSpherical_dens, sphereVolume]; ring
  number := by simp [one]
  lum := rfl
  sigma := rfl
  detects x := rfl

end CombinedExample
end Popsynth
