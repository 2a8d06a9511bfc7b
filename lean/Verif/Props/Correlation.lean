import Verif.Props.Eddington
import Verif.Props.Malmquist
import Verif.Lemmas.TotalPositivity

/-!
# Luminosities and distances of detected objects are correlated (C97)
-/

set_option autoImplicit false
set_option linter.unusedSectionVars false

open MeasureTheory Filter
open scoped NNReal ENNReal

namespace Popsynth

/-- The logarithm of a probability is a concave function of the logarithm of the flux. -/
def Spec.LogConcave (p : ℝ → ℝ≥0∞) : Prop :=
  ∀ x s t, 0 < x → 1 ≤ s → 1 ≤ t → p x * p (x * s * t) ≤ p (x * s) * p (x * t)

/-- Fluxes are proportional to the luminosity and fall with the distance. -/
structure Spec.Dilution (flux : ℝ → ℝ → ℝ) (rm : ℝ) : Prop where
  pos : ∀ r, 0 < r → r ≤ rm → 0 < flux 1 r
  linear : ∀ r, 0 < r → r ≤ rm → ∀ l, flux l r = l * flux 1 r
  distant : ∀ r r', 0 < r → r ≤ r' → r' ≤ rm → flux 1 r' ≤ flux 1 r

/-- How many objects are far and luminous, far and faint, near and luminous, near and faint. -/
def Spec.quadrants [DecidableLT ℝ] [DecidableLE ℝ] (d t : ℝ) (x : List (ℝ × ℝ)) : (ℕ × ℕ) × ℕ × ℕ :=
  ((x.countP fun x => d < x.1 ∧ t ≤ x.2, x.countP fun x => d < x.1 ∧ x.2 < t),
    (x.countP fun x => x.1 ≤ d ∧ t ≤ x.2, x.countP fun x => x.1 ≤ d ∧ x.2 < t))

/-- Distances or luminosities above and below a threshold. -/
def Spec.side (d : ℝ) (far : Bool) : Set ℝ := if far then Set.Ioi d else Set.Iic d
def Spec.rank (t : ℝ) (luminous : Bool) : Set ℝ := if luminous then Set.Ici t else Set.Iio t

/-- Four independent Poisson numbers. -/
noncomputable def Spec.fourPoisson (n : Bool → Bool → ℝ≥0) : Measure ((ℕ × ℕ) × ℕ × ℕ) :=
  ((ProbabilityTheory.poissonMeasure (n true true)).prod (ProbabilityTheory.poissonMeasure (n true false))).prod
    ((ProbabilityTheory.poissonMeasure (n false true)).prod (ProbabilityTheory.poissonMeasure (n false false)))

section quarters
variable {α : Type} [MeasurableSpace α]

/-- The points in a set and the points outside of it are independent processes. -/
theorem process_parts (κ : Measure α) [IsFiniteMeasure κ] {B : Set α} [DecidablePred (· ∈ B)]
    (hB : MeasurableSet B) :
    MeasurePreserving (fun l : List α => (l.filter (· ∈ B), l.filter (· ∉ B)))
      (Spec.poissonProcess κ) ((Spec.poissonProcess (κ.restrict B)).prod
        (Spec.poissonProcess (κ.restrict Bᶜ))) := by
  have hf : Measurable fun x : α => (x, decide (x ∈ B)) :=
    measurable_id.prodMk (measurable_to_bool (by
      have : (fun x => decide (x ∈ B)) ⁻¹' {true} = B := by ext x; simp
      rw [this]; exact hB))
  have e1 : κ.map (fun x => (x, decide (x ∈ B))) = mixed (κ.restrict B) (κ.restrict Bᶜ) := by
    unfold mixed
    conv_lhs => rw [← Measure.restrict_add_restrict_compl (μ := κ) hB]
    rw [Measure.map_add _ _ hf]
    congr 1
    · refine Measure.map_congr ?_
      filter_upwards [ae_restrict_mem hB] with x hx
      simp [hx]
    · refine Measure.map_congr ?_
      filter_upwards [ae_restrict_mem hB.compl] with x hx
      simp [show x ∉ B from hx]
  have hm := measurable_map_list hf
  have h1 : MeasurePreserving (List.map fun x : α => (x, decide (x ∈ B))) (Spec.poissonProcess κ)
      (Spec.poissonProcess (mixed (κ.restrict B) (κ.restrict Bᶜ))) :=
    ⟨hm, by rw [process_map κ hf, e1]⟩
  have h2 : MeasurePreserving split (Spec.poissonProcess (mixed (κ.restrict B) (κ.restrict Bᶜ)))
      _ := ⟨measurable_split, process_split (κ.restrict B) (κ.restrict Bᶜ)⟩
  have h5 := h2.comp h1
  convert h5 using 1
  funext l
  simp only [Function.comp_apply, split, List.filter_map, Function.comp_def, List.map_map,
    List.map_id', decide_not]
  

/-- The numbers of points in the four classes that two sets make are independent. -/
theorem process_quarters (κ : Measure α) [IsFiniteMeasure κ] {B C : Set α} [DecidablePred (· ∈ B)]
    [DecidablePred (· ∈ C)] (hB : MeasurableSet B) (hC : MeasurableSet C) :
    MeasurePreserving (fun l : List α => ((l.countP fun x => x ∈ B ∧ x ∈ C,
        l.countP fun x => x ∈ B ∧ x ∉ C), (l.countP fun x => x ∉ B ∧ x ∈ C,
        l.countP fun x => x ∉ B ∧ x ∉ C)))
      (Spec.poissonProcess κ) (Spec.fourPoisson fun i j =>
        (κ ((if j then C else Cᶜ) ∩ (if i then B else Bᶜ))).toNNReal) := by
  have h := ((process_classes (κ.restrict B) hC).prod (process_classes (κ.restrict Bᶜ) hC)).comp
    (process_parts κ hB)
  rw [Measure.restrict_apply hC, Measure.restrict_apply hC.compl, Measure.restrict_apply hC,
    Measure.restrict_apply hC.compl] at h
  unfold Spec.fourPoisson
  simp only [if_true, Bool.false_eq_true, if_false]
  convert h using 1
  funext l
  simp only [Function.comp_apply, Prod.map, List.countP_filter]
  simp only [Prod.mk.injEq]
  refine ⟨⟨?_, ?_⟩, ?_, ?_⟩ <;> refine List.countP_congr fun x _ => ?_ <;> simp [and_comm]

end quarters

/-! ### Logarithmic concavity -/

theorem errorFactor_exp (b : Bool) : ∃ c : ℝ, 0 < c ∧ ∀ z, Spec.errorFactor b z = Real.exp (c * z) := by
  unfold Spec.errorFactor
  cases b
  · exact ⟨1, one_pos, fun z => by simp⟩
  · exact ⟨Real.log 10, Real.log_pos (by norm_num), fun z => by
      simp only [if_true]
      rw [Real.rpow_def_of_pos (by norm_num)]⟩

/-- Measurement errors preserve logarithmic concavity. -/
theorem concave_noisy {p : ℝ → ℝ≥0∞} (hm : Measurable p) (hp : Spec.LogConcave p) (sigma : ℝ) (b : Bool) :
    Spec.LogConcave fun f => ∫⁻ z, p (f * Spec.errorFactor b z) ∂(Spec.noiseLaw (some sigma)) := by
  intro x s t hx hs ht
  obtain ⟨v, -, hv⟩ := noise_gauss sigma
  obtain ⟨c, hc, he⟩ := errorFactor_exp b
  have hs0 : 0 < s := by linarith
  have ht0 : 0 < t := by linarith
  simp only [hv, he]
  have mP : Measurable fun u => p (Real.exp (c * u)) :=
    hm.comp (Real.measurable_exp.comp (measurable_const_mul c))
  have conc : ∀ u s t, 0 ≤ s → 0 ≤ t → p (Real.exp (c * u)) * p (Real.exp (c * (u + s + t))) ≤
      p (Real.exp (c * (u + s))) * p (Real.exp (c * (u + t))) := fun u s t h1 h2 => by
    have := hp (Real.exp (c * u)) (Real.exp (c * s)) (Real.exp (c * t)) (Real.exp_pos _)
      (Real.one_le_exp (by positivity)) (Real.one_le_exp (by positivity))
    simp only [← Real.exp_add, ← mul_add] at this
    exact this
  have e1 : ∀ f z, 0 < f → f * Real.exp (c * z) = Real.exp (c * (Real.log f / c + z)) := fun f z hf => by
    rw [mul_add, Real.exp_add, mul_div_cancel₀ _ hc.ne', Real.exp_log hf]
  have key := gauss_smooth mP conc v (u := Real.log x / c) (s := Real.log s / c) (t := Real.log t / c)
    (div_nonneg (Real.log_nonneg hs) hc.le) (div_nonneg (Real.log_nonneg ht) hc.le)
  have a1 : ∀ z, x * s * Real.exp (c * z) = Real.exp (c * (Real.log x / c + Real.log s / c + z)) := fun z => by
    rw [e1 _ _ (by positivity), Real.log_mul hx.ne' hs0.ne', add_div]
  have a2 : ∀ z, x * t * Real.exp (c * z) = Real.exp (c * (Real.log x / c + Real.log t / c + z)) := fun z => by
    rw [e1 _ _ (by positivity), Real.log_mul hx.ne' ht0.ne', add_div]
  have a3 : ∀ z, x * s * t * Real.exp (c * z) =
      Real.exp (c * (Real.log x / c + Real.log s / c + Real.log t / c + z)) := fun z => by
    rw [e1 _ _ (by positivity), Real.log_mul (by positivity) ht0.ne', Real.log_mul hx.ne' hs0.ne',
      add_div, add_div]
  simp only [e1 x _ hx, a1, a2, a3]
  exact key

/-- What a survey detects, at a flux: concave with and without measurement errors. -/
theorem concave_observed {G : Type} {e : SurveyEnv ℝ G} (he : Spec.Precise e) (sigma : Option ℝ) (b : Bool)
    {p : ℝ → ℝ≥0∞} (hm : Measurable p) (hp : Spec.LogConcave p) :
    Spec.LogConcave fun f => ∫⁻ z, p (Spec.observed e sigma b f z) ∂(Spec.noiseLaw sigma) := by
  intro x s t hx hs ht
  cases sigma with
  | none =>
    have i1 : IsProbabilityMeasure (Spec.noiseLaw none) := noiseLaw_prob _
    simp only [Spec.observed, lintegral_const, measure_univ, mul_one]
    exact hp x s t hx hs ht
  | some v =>
    have hs0 : 0 < s := by linarith
    have ht0 : 0 < t := by linarith
    have := concave_noisy hm hp v b x s t hx hs ht
    simp only [observed_factor he v b hx, observed_factor he v b (mul_pos hx hs0),
      observed_factor he v b (mul_pos hx ht0), observed_factor he v b (mul_pos (mul_pos hx hs0) ht0)]
    exact this

/-- The kernel of a survey favours far luminous objects together with near faint ones. -/
theorem concave_cross {flux : ℝ → ℝ → ℝ} {rm : ℝ} (hf : Spec.Dilution flux rm) {q : ℝ → ℝ≥0∞}
    (hq : Spec.LogConcave q) {r r' l l' : ℝ} (hr : 0 < r) (hrr : r ≤ r') (hr' : r' ≤ rm) (hl : 0 < l)
    (hll : l ≤ l') : q (flux l' r) * q (flux l r') ≤ q (flux l' r') * q (flux l r) := by
  have p1 := hf.pos r hr (hrr.trans hr')
  have p2 := hf.pos r' (hr.trans_le hrr) hr'
  have p3 := hf.distant r r' hr hrr hr'
  rw [hf.linear r hr (hrr.trans hr') l', hf.linear r hr (hrr.trans hr') l,
    hf.linear r' (hr.trans_le hrr) hr' l', hf.linear r' (hr.trans_le hrr) hr' l]
  have := hq (l * flux 1 r') (l' / l) (flux 1 r / flux 1 r') (by positivity) ((one_le_div hl).2 hll)
    ((one_le_div p2).2 p3)
  have e1 : l * flux 1 r' * (l' / l) * (flux 1 r / flux 1 r') = l' * flux 1 r := by field_simp
  have e2 : l * flux 1 r' * (l' / l) = l' * flux 1 r' := by field_simp
  have e3 : l * flux 1 r' * (flux 1 r / flux 1 r') = l * flux 1 r := by field_simp
  rw [e1, e2, e3, mul_comm] at this
  exact this

section laws
variable {G : Type} [MeasurableSpace G] {P : Measure G} [IsProbabilityMeasure P]
  {e : SurveyEnv ℝ G} {env : DistEnv ℝ G} {c : SpClass ℝ}
  {tr : List ℝ → List ℝ → Except Err (List ℝ)} {y : Synth ℝ} {a : SurveyArgs ℝ} {s : SurvSt ℝ G}
  {flux : ℝ → ℝ → ℝ} {rm m : ℝ} {vs : List ℝ} {Λ : ℝ≥0} {μL : Measure ℝ} {p : ℝ → ℝ≥0∞}

theorem side_measurable (d : ℝ) (i : Bool) : MeasurableSet (Spec.side d i) := by
  unfold Spec.side
  cases i
  · simp only [Bool.false_eq_true, if_false]; exact measurableSet_Iic
  · simp only [if_true]; exact measurableSet_Ioi

theorem rank_measurable (t : ℝ) (j : Bool) : MeasurableSet (Spec.rank t j) := by
  unfold Spec.rank
  cases j
  · simp only [Bool.false_eq_true, if_false]; exact measurableSet_Iio
  · simp only [if_true]; exact measurableSet_Ici

/-- The mean number of sources of one of the four classes. -/
theorem quarter_lintegral (h : Spec.Lawful P e env c tr y a s flux rm m vs μL p) {q : ℝ → ℝ≥0∞}
    (hq : Measurable q) (d t : ℝ) (i j : Bool) :
    ∫⁻ x in {x : Spec.SkySource | (x.distance, x.luminosity) ∈ Spec.side d i ×ˢ Spec.rank t j},
        Spec.detection e y a s flux q x ∂(Spec.intensity y a s c rm m vs Λ μL) =
      Λ * ∫⁻ r in Spec.side d i, ∫⁻ l in Spec.rank t j, (∫⁻ z, q (Spec.observed e
        (Spec.sigmaUsed (s.heap.selectors y.fluxSel).kind a) a.log10Draw (flux l r) z)
        ∂(Spec.noiseLaw (Spec.sigmaUsed (s.heap.selectors y.fluxSel).kind a))) ∂μL
        ∂(Spec.distanceLaw c rm m vs) := by
  rw [intensity_lintegral h ((side_measurable d i).prod (rank_measurable t j)) hq]
  congr 1
  unfold Spec.distanceLaw
  rw [← lintegral_indicator (side_measurable d i)]
  refine lintegral_congr fun r => ?_
  by_cases hr : r ∈ Spec.side d i
  · rw [Set.indicator_of_mem hr, ← lintegral_indicator (rank_measurable t j)]
    refine lintegral_congr fun l => ?_
    by_cases hl : l ∈ Spec.rank t j
    · have hm : (r, l) ∈ Spec.side d i ×ˢ Spec.rank t j := ⟨hr, hl⟩
      rw [Set.indicator_of_mem hl, Set.indicator_of_mem hm]
    · have hm : (r, l) ∉ Spec.side d i ×ˢ Spec.rank t j := fun h => hl h.2
      rw [Set.indicator_of_notMem hl, Set.indicator_of_notMem hm]
  · rw [Set.indicator_of_notMem hr]
    have : ∀ l, (r, l) ∉ Spec.side d i ×ˢ Spec.rank t j := fun l h => hr h.1
    simp [Set.indicator_of_notMem (this _)]

variable (h : Spec.Lawful P e env c tr y a s flux rm m vs μL p)
  (hc : Spec.Counted P e env c a rm vs Λ) (he : Spec.Precise e) (hf : Spec.Dilution flux rm)
  (hl : ∀ᵐ l ∂μL, 0 < l)

include h he hf hl in
/-- The mean numbers of the four classes. -/
theorem quarter_cross {q : ℝ → ℝ≥0∞} (hm : Measurable q) (hq : Spec.LogConcave q) (d t : ℝ)
    {N : Bool → Bool → ℝ≥0∞} (hN : ∀ i j, N i j =
      ∫⁻ x in {x : Spec.SkySource | (x.distance, x.luminosity) ∈ Spec.side d i ×ˢ Spec.rank t j},
        Spec.detection e y a s flux q x ∂(Spec.intensity y a s c rm m vs Λ μL)) :
    N false true * N true false ≤ N true true * N false false := by
  have i1 := h.distance_prob
  have i2 := h.lumProb
  have i3 : IsProbabilityMeasure (Spec.distanceLaw c rm m vs) := i1
  have i4 : IsProbabilityMeasure (Spec.noiseLaw (Spec.sigmaUsed (s.heap.selectors y.fluxSel).kind a)) :=
    noiseLaw_prob _
  simp only [hN, quarter_lintegral h hm]
  have aux : ∀ x a b c d : ℝ≥0∞, a * b ≤ c * d → x * a * (x * b) ≤ x * c * (x * d) :=
    fun x a b c d h => by
      rw [mul_mul_mul_comm, mul_mul_mul_comm x c]
      exact mul_le_mul_right h _
  apply aux
  set W : ℝ → ℝ → ℝ≥0∞ := fun r l => ∫⁻ z, q (Spec.observed e
    (Spec.sigmaUsed (s.heap.selectors y.fluxSel).kind a) a.log10Draw (flux l r) z)
      ∂(Spec.noiseLaw (Spec.sigmaUsed (s.heap.selectors y.fluxSel).kind a)) with hW
  have mW : Measurable (Function.uncurry W) := by
    have g1 : Measurable fun t : (ℝ × ℝ) × ℝ => (t.1.2, t.1.1) := by fun_prop
    have g2 : Measurable fun t : (ℝ × ℝ) × ℝ => t.2 := by fun_prop
    exact (hm.comp (h.observed.comp ((h.fluxes.comp g1).prodMk g2))).lintegral_prod_right'
  have hmem : ∀ᵐ r ∂(Spec.distanceLaw c rm m vs), 0 < r ∧ r ≤ rm :=
    densityLaw_mem (f := fun r => min (c.dens vs r) m) rm (h.density.min measurable_const)
  refine cross_le mW ((Spec.distanceLaw c rm m vs).restrict (Spec.side d true))
    ((Spec.distanceLaw c rm m vs).restrict (Spec.side d false)) (μL.restrict (Spec.rank t true))
    (μL.restrict (Spec.rank t false)) ?_
  have hside : ∀ i, ∀ᵐ r ∂((Spec.distanceLaw c rm m vs).restrict (Spec.side d i)),
      r ∈ Spec.side d i ∧ 0 < r ∧ r ≤ rm := fun i =>
    (ae_restrict_mem (side_measurable d i)).and (ae_restrict_of_ae hmem)
  have hrank : ∀ j, ∀ᵐ l ∂(μL.restrict (Spec.rank t j)), l ∈ Spec.rank t j ∧ 0 < l := fun j =>
    (ae_restrict_mem (rank_measurable t j)).and (ae_restrict_of_ae hl)
  refine (hside true).mono fun r' hr' => (hside false).mono fun r hr =>
    (hrank true).mono fun l' hl' => (hrank false).mono fun l hl => ?_
  have a1 : r ≤ d := hr.1
  have a2 : d < r' := hr'.1
  have a3 : t ≤ l' := hl'.1
  have a4 : l < t := hl.1
  exact concave_cross hf (concave_observed he _ _ hm hq) hr.2.1 (a1.trans a2.le) hr'.2.2 hl.2
    (a4.le.trans a3)

include h hc he hf hl in
/-- **C97**: distances and luminosities of a population are independent.  The numbers of detected
objects that are far and luminous, far and faint, near and luminous, near and faint are independent
Poisson numbers, and so are those of undetected objects.  Among the detected objects far ones are
luminous and near ones are faint: the product of the mean numbers of far luminous and near faint
objects is at least that of near luminous and far faint objects.  The same holds for the undetected
objects. -/
theorem C97_correlation (hp : Spec.LogConcave p) (hp' : Spec.LogConcave fun x => 1 - p x) (d t : ℝ)
    (showProgress : Bool) (galB : List ℝ → List ℝ → List ℝ) :
    ∃ n k : Bool → Bool → ℝ≥0,
      Spec.Samples P ((Spec.fourPoisson n).prod (Spec.fourPoisson k))
        (fun i g v g' => ∃ Q s' r1 l1 r2 l2,
          drawSurvey (Spec.surveyEnv e env c.code showProgress tr galB i g) y a s = .ok Q s' ∧
          s'.heap.rng = g' ∧
          (Q.distances.toSVar .float).selected = .ok r1 ∧ (Q.luminosities.toSVar .float).selected = .ok l1 ∧
          (Q.distances.toSVar .float).nonSelected = .ok r2 ∧
          (Q.luminosities.toSVar .float).nonSelected = .ok l2 ∧
          v.1 = Spec.quadrants d t (r1.latent.zip l1.latent) ∧
          v.2 = Spec.quadrants d t (r2.latent.zip l2.latent)) ∧
      n false true * n true false ≤ n true true * n false false ∧
      k false true * k true false ≤ k true true * k false false ∧
      ∀ i j, (n i j + k i j : ℝ≥0∞) =
        Λ * (Spec.distanceLaw c rm m vs (Spec.side d i) * μL (Spec.rank t j)) := by
  classical
  have i1 := h.distance_prob
  have i2 := h.lumProb
  set κ := Spec.intensity y a s c rm m vs Λ μL with hκ
  set q := Spec.detection e y a s flux p with hq
  have j2 := h.intensity_finite (Λ := Λ)
  have j3 := finite_withDensity κ (f := q) (fun x => h.le_one _)
  have j4 := finite_withDensity κ (f := fun x => 1 - q x) (fun x => tsub_le_self)
  have hB : MeasurableSet {x : Spec.SkySource | d < x.distance} :=
    measurableSet_lt measurable_const SkySource.measurable_distance
  have hC : MeasurableSet {x : Spec.SkySource | t ≤ x.luminosity} :=
    measurableSet_le measurable_const SkySource.measurable_luminosity
  have hcl : ∀ i j : Bool, ((if j then {x : Spec.SkySource | t ≤ x.luminosity} else
      {x : Spec.SkySource | t ≤ x.luminosity}ᶜ) ∩ (if i then {x : Spec.SkySource | d < x.distance} else
      {x : Spec.SkySource | d < x.distance}ᶜ)) =
      {x : Spec.SkySource | (x.distance, x.luminosity) ∈ Spec.side d i ×ˢ Spec.rank t j} := by
    intro i j
    ext x
    cases i <;> cases j <;> simp [Spec.side, Spec.rank, and_comm]
  have hms : ∀ i j, MeasurableSet {x : Spec.SkySource | (x.distance, x.luminosity) ∈
      Spec.side d i ×ˢ Spec.rank t j} := fun i j =>
    (SkySource.measurable_distance.prodMk SkySource.measurable_luminosity)
      ((side_measurable d i).prod (rank_measurable t j))
  have h1 := (process_quarters (κ.withDensity q) hB hC).prod
    (process_quarters (κ.withDensity fun x => 1 - q x) hB hC)
  simp only [hcl] at h1
  simp only [withDensity_apply _ (hms _ _)] at h1
  have f1 := fun C => class_finite (Λ := Λ) h h.le_one C
  have f2 : ∀ C, ∫⁻ x in C, 1 - q x ∂κ ≠ ⊤ :=
    fun C => class_finite (Λ := Λ) h (q := fun x => 1 - p x) (fun x => tsub_le_self) C
  have mp := h.detection_measurable
  have mp' : Measurable fun x => 1 - p x := measurable_const.sub mp
  refine ⟨_, _, Samples.mapTo (C75_thinning h hc showProgress galB) h1 ?_, ?_, ?_, ?_⟩
  · rintro k g v g' ⟨Q, s', q1, q2, q3⟩
    obtain ⟨⟨l1, a1, b1⟩, ⟨l2, a2, b2⟩, ⟨r1, a3, b3⟩, r2, a4, b4⟩ := selected_obs q3
    refine ⟨Q, s', r1, l1, r2, l2, q1, q2, a3, a1, a4, a2, ?_⟩
    rw [b1, b2, b3, b4]
    simp only [Spec.quadrants, List.zip_map', List.countP_map, Function.comp_def, Prod.map]
    constructor <;> simp only [Prod.mk.injEq] <;> refine ⟨⟨?_, ?_⟩, ?_, ?_⟩ <;>
      refine List.countP_congr fun x _ => ?_ <;> simp
  · rw [← ENNReal.coe_le_coe, ENNReal.coe_mul, ENNReal.coe_mul]
    exact quarter_cross (Λ := Λ) h he hf hl mp hp d t (N := fun i j => _) fun i j =>
      ENNReal.coe_toNNReal (f1 _)
  · rw [← ENNReal.coe_le_coe, ENNReal.coe_mul, ENNReal.coe_mul]
    exact quarter_cross (Λ := Λ) h he hf hl mp' hp' d t (N := fun i j => _) fun i j =>
      ENNReal.coe_toNNReal (f2 _)
  · intro i j
    rw [ENNReal.coe_toNNReal (f1 _), ENNReal.coe_toNNReal (f2 _)]
    refine (class_numbers h ((side_measurable d i).prod (rank_measurable t j))).trans ?_
    congr 1
    have e1 : ∀ r, ∫⁻ l, (Spec.side d i ×ˢ Spec.rank t j).indicator 1 (r, l) ∂μL =
        (Spec.side d i).indicator (fun _ => μL (Spec.rank t j)) r := fun r => by
      by_cases hr : r ∈ Spec.side d i
      · rw [Set.indicator_of_mem hr, ← lintegral_indicator_one (rank_measurable t j)]
        refine lintegral_congr fun l => ?_
        by_cases hl : l ∈ Spec.rank t j
        · have hm : (r, l) ∈ Spec.side d i ×ˢ Spec.rank t j := ⟨hr, hl⟩
          rw [Set.indicator_of_mem hl, Set.indicator_of_mem hm]; rfl
        · have hm : (r, l) ∉ Spec.side d i ×ˢ Spec.rank t j := fun h => hl h.2
          rw [Set.indicator_of_notMem hl, Set.indicator_of_notMem hm]
      · rw [Set.indicator_of_notMem hr]
        have : ∀ l, (r, l) ∉ Spec.side d i ×ˢ Spec.rank t j := fun l h => hr h.1
        simp [Set.indicator_of_notMem (this _)]
    simp only [e1]
    rw [lintegral_indicator_const (side_measurable d i), mul_comm]

end laws

/-- **C97** (selections): hard and soft lower limits, coins and no selection. -/
theorem C97_selections :
    (∀ b, Spec.LogConcave ((Set.Ici b).indicator 1) ∧
      Spec.LogConcave fun x => 1 - (Set.Ici b).indicator 1 x) ∧
    (∀ k b, 0 ≤ k →
      Spec.LogConcave (fun x =>
        ENNReal.ofReal (1 / (1 + Real.exp (-(k * (Real.logb 10 x - Real.logb 10 b)))))) ∧
      Spec.LogConcave fun x =>
        1 - ENNReal.ofReal (1 / (1 + Real.exp (-(k * (Real.logb 10 x - Real.logb 10 b)))))) ∧
    ∀ q, Spec.LogConcave fun _ => q := by
  refine ⟨fun b => ⟨fun x s t hx hs ht => ?_, fun x s t hx hs ht => ?_⟩, fun k b hk => ?_,
    fun q x s t _ _ _ => le_rfl⟩
  · have h1 : x ≤ x * s := le_mul_of_one_le_right hx.le hs
    have h2 : x ≤ x * t := le_mul_of_one_le_right hx.le ht
    by_cases hb : b ≤ x
    · simp [Set.indicator, hb, hb.trans h1, hb.trans h2]
      split_ifs <;> simp
    · simp [Set.indicator, hb]
  · have h1 : x * s ≤ x * s * t := le_mul_of_one_le_right (by positivity) ht
    have h2 : x * t ≤ x * s * t := by
      rw [mul_right_comm]; exact le_mul_of_one_le_right (by positivity) hs
    by_cases hb : b ≤ x * s * t
    · simp [Set.indicator, hb]
    · have h3 : ¬ b ≤ x * s := fun h => hb (h.trans h1)
      have h4 : ¬ b ≤ x * t := fun h => hb (h.trans h2)
      have h5 : ¬ b ≤ x := fun h => h3 (h.trans (le_mul_of_one_le_right hx.le hs))
      simp [Set.indicator, hb, h3, h4, h5]
  · have key : ∀ x s t, 0 < x → 1 ≤ s → 1 ≤ t → ∃ A σ τ : ℝ, 0 < A ∧ 0 < σ ∧ σ ≤ 1 ∧ 0 < τ ∧ τ ≤ 1 ∧
        Real.exp (-(k * (Real.logb 10 x - Real.logb 10 b))) = A ∧
        Real.exp (-(k * (Real.logb 10 (x * s) - Real.logb 10 b))) = A * σ ∧
        Real.exp (-(k * (Real.logb 10 (x * t) - Real.logb 10 b))) = A * τ ∧
        Real.exp (-(k * (Real.logb 10 (x * s * t) - Real.logb 10 b))) = A * σ * τ := by
      intro x s t hx hs ht
      have hs0 : s ≠ 0 := by linarith
      have ht0 : t ≠ 0 := by linarith
      have h1 := Real.logb_nonneg (b := 10) (by norm_num) hs
      have h2 := Real.logb_nonneg (b := 10) (by norm_num) ht
      refine ⟨_, Real.exp (-(k * Real.logb 10 s)), Real.exp (-(k * Real.logb 10 t)), Real.exp_pos _,
        Real.exp_pos _, Real.exp_le_one_iff.2 (by nlinarith), Real.exp_pos _,
        Real.exp_le_one_iff.2 (by nlinarith), rfl, ?_, ?_, ?_⟩
      · rw [Real.logb_mul hx.ne' hs0, ← Real.exp_add]; congr 1; ring
      · rw [Real.logb_mul hx.ne' ht0, ← Real.exp_add]; congr 1; ring
      · rw [Real.logb_mul (mul_ne_zero hx.ne' hs0) ht0, Real.logb_mul hx.ne' hs0, ← Real.exp_add,
          ← Real.exp_add]; congr 1; ring
    have sub : ∀ w : ℝ, 0 < w → 1 - ENNReal.ofReal (1 / (1 + w)) = ENNReal.ofReal (w / (1 + w)) := by
      intro w hw
      rw [← ENNReal.ofReal_one, ← ENNReal.ofReal_sub _ (by positivity)]
      congr 1
      field_simp
      ring
    constructor
    · intro x s t hx hs ht
      obtain ⟨A, σ, τ, hA, h1, h2, h3, h4, e1, e2, e3, e4⟩ := key x s t hx hs ht
      simp only [e1, e2, e3, e4]
      rw [← ENNReal.ofReal_mul (by positivity), ← ENNReal.ofReal_mul (by positivity)]
      refine ENNReal.ofReal_le_ofReal ?_
      rw [one_div_mul_one_div, one_div_mul_one_div]
      refine one_div_le_one_div_of_le (by positivity) ?_
      nlinarith [mul_nonneg hA.le (mul_nonneg (sub_nonneg.2 h2) (sub_nonneg.2 h4))]
    · intro x s t hx hs ht
      obtain ⟨A, σ, τ, hA, h1, h2, h3, h4, e1, e2, e3, e4⟩ := key x s t hx hs ht
      simp only [e1, e2, e3, e4]
      rw [sub _ hA, sub _ (by positivity), sub _ (by positivity), sub _ (by positivity),
        ← ENNReal.ofReal_mul (by positivity), ← ENNReal.ofReal_mul (by positivity)]
      refine ENNReal.ofReal_le_ofReal ?_
      rw [div_mul_div_comm, div_mul_div_comm]
      have e : A * (A * σ * τ) = A * σ * (A * τ) := by ring
      rw [e]
      refine div_le_div_of_nonneg_left (by positivity) (by positivity) ?_
      nlinarith [mul_nonneg hA.le (mul_nonneg (sub_nonneg.2 h2) (sub_nonneg.2 h4))]

theorem falls_dilution {F : ℝ → ℝ → Option ℝ} (h : Spec.FallsWithDistance F (Set.Ioi 0)) (rm : ℝ) :
    Spec.Dilution (fun L r => (F L r).getD 0) rm := by
  refine ⟨fun r r0 _ => ?_, fun r r0 _ l => ?_, fun r r' r0 rr _ => ?_⟩
  · obtain ⟨v, hv, e⟩ := h.positive 1 one_pos r r0
    simpa [e] using hv
  · obtain ⟨k, hk⟩ := h.linear r r0
    simp only [hk, Option.getD_some]
    ring
  · rcases rr.eq_or_lt with rfl | hlt
    · exact le_rfl
    · obtain ⟨v, v', e1, e2, hv⟩ := h.falls 1 one_pos r r0 r' (r0.trans hlt) hlt
      simp only [e1, e2, Option.getD_some]
      exact hv.le

/-- **C97** (fluxes): spherical and cosmological populations. -/
theorem C97_fluxes (rm : ℝ) :
    Spec.Dilution (fun L r => (sphericalFlux L r).getD 0) rm ∧
    ∀ c : Cosmo, Spec.FlatCosmology c → Spec.Dilution (fun L z => (cosmologicalFlux c L z).getD 0) rm := by
  refine ⟨falls_dilution ⟨fun r hr => ?_, fun L hL r hr => ?_, fun L hL r hr r' hr' h => ?_⟩ rm,
    fun c h => falls_dilution (C54_cosmological_partial h).1 rm⟩
  · exact C54_spherical.1.linear r (Set.mem_Ici.2 (le_of_lt hr))
  · exact C54_spherical.1.positive L hL r (Set.mem_Ici.2 (le_of_lt hr))
  · exact C54_spherical.1.falls L hL r (Set.mem_Ici.2 (le_of_lt hr)) r' (Set.mem_Ici.2 (le_of_lt hr')) h

namespace LawExample

theorem dilutes : Spec.Dilution (fun l d => l / (4 * Real.pi * d ^ 2)) 10 := by
  have hp := Real.pi_pos
  refine ⟨fun r r0 _ => by positivity, fun r r0 _ l => by ring, fun r r' r0 rr _ => by gcongr⟩

/-- The detected objects of a survey with a soft flux limit and measurement errors, divided at
distance 5 and luminosity 0.5. -/
example (showProgress : Bool) : ∃ n k : Bool → Bool → ℝ≥0,
    Spec.Samples seeds ((Spec.fourPoisson n).prod (Spec.fourPoisson k))
      (fun i g v g' => ∃ Q s' r1 l1 r2 l2,
        drawSurvey (Spec.surveyEnv survey LawExample.env constantSpherical.code showProgress
          (fun ls ds => .ok (List.zipWith (fun l d => l / (4 * Real.pi * d ^ 2)) ls ds)) (fun a _ => a) i g)
          synth args state = .ok Q s' ∧
        s'.heap.rng = g' ∧
        (Q.distances.toSVar .float).selected = .ok r1 ∧ (Q.luminosities.toSVar .float).selected = .ok l1 ∧
        (Q.distances.toSVar .float).nonSelected = .ok r2 ∧
        (Q.luminosities.toSVar .float).nonSelected = .ok l2 ∧
        v.1 = Spec.quadrants 5 (1 / 2) (r1.latent.zip l1.latent) ∧
        v.2 = Spec.quadrants 5 (1 / 2) (r2.latent.zip l2.latent)) ∧
    n false true * n true false ≤ n true true * n false false ∧
    k false true * k true false ≤ k true true * k false false := by
  obtain ⟨n, k, h1, h2, h3, -⟩ := C97_correlation lawful counted
    ⟨fun _ _ => rfl, fun _ _ => rfl, fun _ => rfl, fun _ _ => rfl, fun _ => rfl⟩ dilutes (by
      unfold Spec.uniformLaw
      refine Measure.ae_smul_measure ?_ _
      rw [Measure.restrict_congr_set Ioc_ae_eq_Icc.symm]
      exact (ae_restrict_mem measurableSet_Ioc).mono fun l h => h.1)
    (C97_selections.2.1 2 (1 / 1000) (by norm_num)).1 (C97_selections.2.1 2 (1 / 1000) (by norm_num)).2
    5 (1 / 2) showProgress fun a _ => a
  exact ⟨n, k, h1, h2, h3⟩

end LawExample

end Popsynth
