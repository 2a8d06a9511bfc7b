import Verif.Spec.AuxLaw
import Verif.Props.AuxSamplers
import Verif.Props.LawLum
import Verif.Props.LawSky
import Verif.Props.Sky
import Verif.Props.Truncated
import Verif.Lemmas.Thinning
import Verif.Lemmas.SurveyLaw
import Verif.Lemmas.Stream

/-!
# Auxiliary samplers follow the laws they are named after (C79)
-/

set_option autoImplicit false
set_option linter.unusedSectionVars false

open MeasureTheory ProbabilityTheory
open scoped ENNReal

namespace Popsynth

variable {G : Type} [MeasurableSpace G] {P : Measure G} [IsProbabilityMeasure P]
  {env : AuxEnv ℝ G} {V : String → ℝ}

/-! ### Numbers one after the other -/

theorem drawMany_repeats {α : Type} (next : G → α × G) (k : ℕ) :
    ∀ (l : List α) (g g' : G), Repeats (fun _ g x g' => next g = (x, g')) k l g g' →
      drawMany next l.length g = (l, g')
  | [], g, g', h => by cases h; rfl
  | x :: l, g, g', ⟨g1, h1, h2⟩ => by
    have := drawMany_repeats next k l g1 g' h2
    simp only [List.length_cons, drawMany, h1, this]

theorem drawMany_samples {α : Type} [MeasurableSpace α] {μ : Measure α} [IsProbabilityMeasure μ]
    {next : G → α × G} (h : Spec.Samples P μ fun _ g x g' => next g = (x, g')) (n : ℕ) :
    Spec.Samples P (Spec.iid n μ) fun _ g v g' => drawMany next n g = (List.ofFn v, g') := by
  refine Samples.mono (Samples.repeat h n) fun k g v g' hr => ?_
  have := drawMany_repeats next k _ _ _ hr
  rwa [List.length_ofFn] at this

/-- From one object to many. -/
theorem auxDraws_of {k : AuxKind} (hk : k ≠ .brokenPowerLaw) (hu : Spec.Usable env V k)
    {μ : Measure ℝ} [IsProbabilityMeasure μ]
    (h : Spec.Samples P μ fun _ g x g' => Spec.recipe env V k g = (x, g')) :
    Spec.AuxDraws P env k V μ := by
  refine ⟨inferInstance, fun n => ?_⟩
  refine Samples.mono (drawMany_samples h n) fun _ g v g' hd view hV => ?_
  obtain ⟨c1, c2, c3, c4⟩ := C62_true hk hV hu n g
  obtain ⟨names, -, c5⟩ := trueSampler_params hV hu n g
  rw [hd] at c2 c3
  refine ⟨((auxCode env k).trueSampler view n g).params, ?_, by rw [c5]; exact readMany_hasValues names hV⟩
  generalize (auxCode env k).trueSampler view n g = o at *
  cases o
  simp only at c1 c2 c3 c4
  subst c1 c2 c3 c4
  rfl

/-! ### Laws -/

instance normalLaw_prob (mu tau : ℝ) : IsProbabilityMeasure (Spec.normalLaw mu tau) :=
  instIsProbabilityMeasureGaussianReal mu (tau ^ 2).toNNReal

theorem normalLaw_std (mu tau : ℝ) :
    (gaussianReal 0 1).map (fun z => z * tau + mu) = Spec.normalLaw mu tau := by
  have h1 := gaussianReal_map_mul_const (μ := 0) (v := 1) tau
  have e : (gaussianReal 0 1).map (fun z => z * tau + mu) =
      ((gaussianReal 0 1).map (· * tau)).map (· + mu) := by
    rw [Measure.map_map (by fun_prop) (by fun_prop)]; rfl
  rw [e, h1, gaussianReal_map_add_const]
  unfold Spec.normalLaw
  congr 1
  · simp
  · ext; simp [Real.coe_toNNReal _ (sq_nonneg tau)]

/-- The law of a function of a conditioned value. -/
theorem cond_map {α β : Type} [MeasurableSpace α] [MeasurableSpace β] {μ : Measure α} {f : α → β}
    (hf : Measurable f) {s : Set β} (hs : MeasurableSet s) {t : Set α} (ht : t = f ⁻¹' s) :
    (μ[|t]).map f = (μ.map f)[|s] := by
  subst ht
  ext x hx
  rw [Measure.map_apply hf hx, cond_apply (hf hs), cond_apply hs, Measure.map_apply hf hs,
    Measure.map_apply hf (hs.inter hx)]
  rfl

/-- Normal numbers stay everywhere with positive probability. -/
theorem normalLaw_Icc {mu tau a b : ℝ} (ht : 0 < tau) (hab : a < b) :
    Spec.normalLaw mu tau (Set.Icc a b) ≠ 0 := by
  intro h
  have hv : (tau ^ 2).toNNReal ≠ 0 := by
    have : 0 < (tau ^ 2).toNNReal := Real.toNNReal_pos.2 (by positivity)
    exact this.ne'
  have := (gaussianReal_absolutelyContinuous' mu hv) h
  rw [Real.volume_Icc, ENNReal.ofReal_eq_zero] at this
  linarith

/-! ### Samples of the recipes -/

theorem located_samples (hx : Spec.ExactAux env) {gen : G → ℝ × G} {μ : Measure ℝ}
    [IsProbabilityMeasure μ] (h : Spec.Samples P μ fun _ g x g' => gen g = (x, g'))
    {mu tau : ℝ} (ht : tau ≠ 0) :
    Spec.Samples P (μ.map fun z => z * tau + mu) fun _ g x g' =>
      Spec.located env gen mu tau g = (x, g') := by
  refine Samples.map h (by fun_prop) fun _ g a g' hg => ?_
  unfold Spec.located
  rw [if_neg (by rw [hx.eq, hx.num]; simpa using ht), hg, hx.add, hx.mul]

theorem located_zero (hx : Spec.ExactAux env) (gen : G → ℝ × G) (mu : ℝ) :
    Spec.Samples P (Measure.dirac mu) fun _ g x g' => Spec.located env gen mu 0 g = (x, g') := by
  refine ⟨fun g => (mu, g), ⟨by fun_prop, by rw [Measure.dirac_prod]⟩, ?_⟩
  refine Filter.Eventually.of_forall fun g => Filter.Eventually.of_forall fun k => ?_
  show Spec.located env gen mu 0 g = (mu, g)
  unfold Spec.located
  rw [if_pos (by rw [hx.eq, hx.num]; simp)]

theorem located_normal (hx : Spec.ExactAux env) {pl : ℝ → Measure ℝ} (hf : Spec.FairAux P env pl)
    (mu tau : ℝ) :
    Spec.Samples P (Spec.normalLaw mu tau) fun _ g x g' =>
      Spec.located env env.normal mu tau g = (x, g') := by
  by_cases ht : tau = 0
  · subst ht
    have e : Spec.normalLaw mu 0 = Measure.dirac mu := by
      unfold Spec.normalLaw
      have : ((0 : ℝ) ^ 2).toNNReal = 0 := by simp
      rw [this, gaussianReal_zero_var]
    rw [e]
    exact located_zero hx env.normal mu
  · rw [← normalLaw_std]
    exact located_samples hx hf.normal ht

theorem through_samples {α : Type} [MeasurableSpace α] {gen : G → α × G} {μ : Measure α} [IsProbabilityMeasure μ]
    (h : Spec.Samples P μ fun _ g x g' => gen g = (x, g')) {f f' : α → ℝ} (hm : Measurable f')
    (he : ∀ x, f x = f' x) :
    Spec.Samples P (μ.map f') fun _ g x g' => Spec.through f gen g = (x, g') := by
  refine Samples.map h hm fun _ g a g' hg => ?_
  unfold Spec.through
  rw [hg, he]

/-- The same, for functions known almost everywhere. -/
theorem through_mp {α : Type} [MeasurableSpace α] {gen : G → α × G} {μ : Measure α} {ν : Measure ℝ}
    [IsProbabilityMeasure μ]
    (h : Spec.Samples P μ fun _ g x g' => gen g = (x, g')) {f f' : α → ℝ}
    (hm : MeasurePreserving f' μ ν) (he : ∀ᵐ x ∂μ, f x = f' x) :
    Spec.Samples P ν fun _ g x g' => Spec.through f gen g = (x, g') := by
  refine Samples.mapTo (Samples.and_ae h he) hm fun _ g a g' ⟨hg, ha⟩ => ?_
  unfold Spec.through
  rw [hg, ha]

/-- A law is known by its distribution function. -/
theorem law_of_cdf {T f : ℝ → ℝ} {a b : ℝ} (hab : a ≤ b) (hT : Measurable T)
    (hin : ∀ u ∈ Set.Ico (0 : ℝ) 1, T u ∈ Set.Icc a b)
    (hf : IntervalIntegrable f volume a b) (h0 : ∀ x ∈ Set.Icc a b, 0 ≤ f x)
    (h : ∀ t ∈ Set.Icc a b, volume {u : ℝ | u ∈ Set.Ico (0 : ℝ) 1 ∧ T u ≤ t} =
      ENNReal.ofReal (∫ x in a..t, f x)) :
    MeasurePreserving T (Spec.uniformLaw 1) (Spec.lumLaw f (Set.Icc a b)) := by
  have hi : IntegrableOn f (Set.Icc a b) := by
    rwa [integrableOn_Icc_iff_integrableOn_Ioc, ← intervalIntegrable_iff_integrableOn_Ioc_of_le hab]
  have hall : ∀ t, b ≤ t → {u : ℝ | u ∈ Set.Ico (0 : ℝ) 1 ∧ T u ≤ t} = Set.Ico 0 1 := by
    intro t ht
    ext u
    exact ⟨fun hu => hu.1, fun hu => ⟨hu, (hin u hu).2.trans ht⟩⟩
  have hone : ∫ x in a..b, f x = 1 := by
    have := h b ⟨hab, le_refl _⟩
    rw [hall b (le_refl _), Real.volume_Ico, sub_zero] at this
    rw [ENNReal.ofReal_eq_ofReal_iff zero_le_one] at this
    · exact this.symm
    · exact intervalIntegral.integral_nonneg hab h0
  have hd : Spec.DensityOn (fun x => some (f x)) (Set.Icc a b) := by
    refine ⟨fun x hx => ⟨f x, h0 x hx, rfl⟩, hi, ?_⟩
    simp only [Option.getD_some]
    rw [integral_Icc_eq_integral_Ioc, ← intervalIntegral.integral_of_le hab, hone]
  refine law_of_mass (phi := fun x => some (f x)) hT measurableSet_Icc hd fun t => ?_
  have e := uniformLaw_Ico {u | T u ≤ t}
  simp only [Set.mem_ofPred_eq] at e
  rw [e]
  unfold Spec.massUpTo
  simp only [Option.getD_some]
  rcases lt_or_ge t a with hta | hta
  · have e1 : {u : ℝ | u ∈ Set.Ico (0 : ℝ) 1 ∧ T u ≤ t} = ∅ := by
      ext u
      simp only [Set.mem_ofPred_eq, Set.mem_empty_iff_false, iff_false]
      rintro ⟨hu, hle⟩
      have := (hin u hu).1
      linarith
    have e2 : Set.Icc a b ∩ Set.Iic t = ∅ := by
      ext x
      simp only [Set.mem_inter_iff, Set.mem_Icc, Set.mem_Iic, Set.mem_empty_iff_false, iff_false]
      rintro ⟨⟨hx, -⟩, hle⟩
      linarith
    rw [e1, e2]; simp
  · rcases le_total t b with htb | htb
    · have e2 : Set.Icc a b ∩ Set.Iic t = Set.Icc a t := by
        ext x
        simp only [Set.mem_inter_iff, Set.mem_Icc, Set.mem_Iic]
        constructor
        · rintro ⟨⟨hx, -⟩, hle⟩; exact ⟨hx, hle⟩
        · rintro ⟨hx, hle⟩; exact ⟨⟨hx, hle.trans htb⟩, hle⟩
      rw [h t ⟨hta, htb⟩, e2, integral_Icc_eq_integral_Ioc, ← intervalIntegral.integral_of_le hta]
    · have e2 : Set.Icc a b ∩ Set.Iic t = Set.Icc a b :=
        Set.inter_eq_left.2 fun x hx => hx.2.trans htb
      rw [hall t htb, Real.volume_Ico, e2, integral_Icc_eq_integral_Ioc,
        ← intervalIntegral.integral_of_le hab, hone, sub_zero]

variable {pl : ℝ → Measure ℝ}

/-! ### The classes -/

/-- **C79**, `NormalAuxSampler`. -/
theorem C79_normal (hx : Spec.ExactAux env) (hf : Spec.FairAux P env pl) (ht : 0 ≤ V "tau") :
    Spec.AuxDraws P env .normal V (Spec.normalLaw (V "mu") (V "tau")) :=
  auxDraws_of (k := .normal) (by simp) (by show env.num 0 ≤ _; rw [hx.num]; simpa using ht)
    (located_normal hx hf _ _)

/-- **C79**, `LogNormalAuxSampler`: the logarithm is normal. -/
theorem C79_logNormal (hx : Spec.ExactAux env) (hf : Spec.FairAux P env pl) (ht : 0 ≤ V "tau") :
    Spec.AuxDraws P env .logNormal V ((Spec.normalLaw (V "mu") (V "tau")).map Real.exp) := by
  have : IsProbabilityMeasure ((Spec.normalLaw (V "mu") (V "tau")).map Real.exp) :=
    Measure.isProbabilityMeasure_map (by fun_prop)
  exact auxDraws_of (k := .logNormal) (by simp) (by show env.num 0 ≤ _; rw [hx.num]; simpa using ht)
    (through_samples (located_normal hx hf _ _) (by fun_prop) hx.exp)

theorem measurable_exp10 : Measurable fun x : ℝ => (10 : ℝ) ^ x :=
  (Real.continuous_const_rpow (by norm_num)).measurable

/-- **C79**, `Log10NormalAuxSampler`: the decimal logarithm is normal. -/
theorem C79_log10Normal (hx : Spec.ExactAux env) (hf : Spec.FairAux P env pl) (ht : 0 ≤ V "tau") :
    Spec.AuxDraws P env .log10Normal V
      ((Spec.normalLaw (V "mu") (V "tau")).map fun x => (10 : ℝ) ^ x) := by
  have : IsProbabilityMeasure ((Spec.normalLaw (V "mu") (V "tau")).map fun x => (10 : ℝ) ^ x) :=
    Measure.isProbabilityMeasure_map measurable_exp10.aemeasurable
  exact auxDraws_of (k := .log10Normal) (by simp) (by show env.num 0 ≤ _; rw [hx.num]; simpa using ht)
    (through_samples (located_normal hx hf _ _) measurable_exp10 hx.exp10)

/-- **C79**, `DeltaAuxSampler`. -/
theorem C79_delta : Spec.AuxDraws P env .delta V (Measure.dirac (V "xp")) := by
  refine auxDraws_of (k := .delta) (by simp) trivial ⟨fun g => (V "xp", g), ⟨by fun_prop, by rw [Measure.dirac_prod]⟩, ?_⟩
  exact Filter.Eventually.of_forall fun g => Filter.Eventually.of_forall fun k => rfl

/-- A truncated normal number from a truncated standard normal number. -/
theorem located_trunc (hx : Spec.ExactAux env) (hf : Spec.FairAux P env pl) {mu tau a b : ℝ}
    (ht : 0 < tau) (hab : a < b) :
    Spec.Samples P ((Spec.normalLaw mu tau)[|Set.Icc a b]) (fun _ g x g' =>
      Spec.located env (env.truncStd ((a - mu) / tau) ((b - mu) / tau)) mu tau g = (x, g')) ∧
    (∀ g, (Spec.located env (env.truncStd ((a - mu) / tau) ((b - mu) / tau)) mu tau g).1 ∈ Set.Icc a b) ∧
    IsProbabilityMeasure ((Spec.normalLaw mu tau)[|Set.Icc a b]) := by
  have hlt : (a - mu) / tau < (b - mu) / tau := by
    gcongr
  have hpre : Set.Icc ((a - mu) / tau) ((b - mu) / tau) = (fun z => z * tau + mu) ⁻¹' Set.Icc a b := by
    ext z
    simp only [Set.mem_Icc, Set.mem_preimage, div_le_iff₀ ht, le_div_iff₀ ht]
    constructor <;> rintro ⟨h1, h2⟩ <;> constructor <;> linarith
  have hp : IsProbabilityMeasure ((gaussianReal 0 1)[|Set.Icc ((a - mu) / tau) ((b - mu) / tau)]) := by
    refine cond_isProbabilityMeasure ?_
    have := normalLaw_Icc (mu := 0) (tau := 1) one_pos hlt
    rwa [← normalLaw_std, show (fun z : ℝ => z * 1 + 0) = id by funext z; simp, Measure.map_id] at this
  refine ⟨?_, fun g => ?_, cond_isProbabilityMeasure (normalLaw_Icc ht hab)⟩
  · have := located_samples hx (hf.trunc _ _ hlt) (mu := mu) ht.ne'
    rwa [cond_map (by fun_prop) measurableSet_Icc hpre, normalLaw_std] at this
  · have h1 := hf.truncInside _ _ hlt g
    rw [hpre] at h1
    unfold Spec.located
    rw [if_neg (by rw [hx.eq, hx.num]; simpa using ht.ne'), hx.add, hx.mul]
    exact h1

/-- **C79**, `TruncatedNormalAuxSampler`: the normal law, conditioned on the limits. -/
theorem C79_truncNormal (hx : Spec.ExactAux env) (hf : Spec.FairAux P env pl) (ht : 0 < V "tau")
    (hl : V "lower" < V "upper") :
    Spec.AuxDraws P env .truncNormal V
      ((Spec.normalLaw (V "mu") (V "tau"))[|Set.Icc (V "lower") (V "upper")]) := by
  obtain ⟨h1, h2, h3⟩ := located_trunc hx hf (mu := V "mu") ht hl
  have e : ∀ x, Spec.stdLimit env V x = (x - V "mu") / V "tau" := fun x => by
    unfold Spec.stdLimit; rw [hx.div, hx.sub]
  refine auxDraws_of (k := .truncNormal) (by simp) ⟨by rw [hx.num]; simpa using ht.le, ?_, ?_, ?_⟩ ?_
  · intro x _
    rw [e, hx.sub, hx.pyDiv _ _ ht.ne']
  · rw [hx.lt, e, e]
    gcongr
  · intro g
    have := h2 g
    simp only [Spec.recipe, e]
    exact this
  · simp only [Spec.recipe, e]
    exact h1

theorem truncLog_core (hx : Spec.ExactAux env) (hf : Spec.FairAux P env pl) (ht : 0 < V "tau")
    {c : ℝ} (hc : Spec.lowExponent env V = c) (hl : V "lower" ≤ Real.exp c)
    (hu : Real.exp c < V "upper") :
    Spec.AuxDraws P env .truncLogNormal V
      (((Spec.normalLaw (V "mu") (V "tau")).map Real.exp)[|Set.Icc (Real.exp c) (V "upper")]) := by
  have pu := (Real.exp_pos c).trans hu
  have hlog : c < Real.log (V "upper") := (Real.lt_log_iff_exp_lt pu).2 hu
  obtain ⟨h1, h2, h3⟩ := located_trunc hx hf (mu := V "mu") ht hlog
  have e : ∀ x, Spec.stdLimit env V x = (x - V "mu") / V "tau" := fun x => by
    unfold Spec.stdLimit; rw [hx.div, hx.sub]
  have hpre : Set.Icc c (Real.log (V "upper")) = Real.exp ⁻¹' Set.Icc (Real.exp c) (V "upper") := by
    ext z
    simp only [Set.mem_Icc, Set.mem_preimage, Real.exp_le_exp, Real.le_log_iff_exp_le pu]
  have law := cond_map (μ := Spec.normalLaw (V "mu") (V "tau")) Real.measurable_exp
    measurableSet_Icc hpre
  have : IsProbabilityMeasure (((Spec.normalLaw (V "mu") (V "tau")).map Real.exp)[|Set.Icc (Real.exp c) (V "upper")]) := by
    rw [← law]; exact Measure.isProbabilityMeasure_map (by fun_prop)
  refine auxDraws_of (k := .truncLogNormal) (by simp) ⟨by rw [hx.num]; simpa using ht.le, ?_, ?_⟩ ?_
  · rw [hx.lt, e, e, hc, hx.log]
    gcongr
  · intro g
    have := h2 g
    rw [hpre] at this
    simp only [Spec.recipe, e, hc, hx.log, Spec.through, hx.exp]
    exact ⟨hl.trans this.1, this.2⟩
  · rw [← law]
    simp only [Spec.recipe, e, hc, hx.log]
    exact through_samples h1 Real.measurable_exp hx.exp

/-- **C79**, `TruncatedLogNormalAuxSampler`: for positive lower limits, the law of
`LogNormalAuxSampler`, conditioned on the limits. -/
theorem C79_truncLogNormal_partial (hx : Spec.ExactAux env) (hf : Spec.FairAux P env pl) (ht : 0 < V "tau")
    (h0 : 0 < V "lower") (hl : V "lower" < V "upper") :
    Spec.AuxDraws P env .truncLogNormal V
      (((Spec.normalLaw (V "mu") (V "tau")).map Real.exp)[|Set.Icc (V "lower") (V "upper")]) := by
  have e := Real.exp_log h0
  have := truncLog_core hx hf ht (c := Real.log (V "lower")) (by
    unfold Spec.lowExponent
    rw [if_neg (by rw [hx.eq, hx.num]; simpa using h0.ne'), hx.log]) e.ge (by rwa [e])
  rwa [e] at this

/-- **C79 is violated** by `TruncatedLogNormalAuxSampler` for the lower limit zero: values below
an undocumented low quantile have positive probability under the law of `LogNormalAuxSampler`
conditioned on the limits, but are never drawn. -/
theorem C79_violated_truncLog_zero (hx : Spec.ExactAux env) (hf : Spec.FairAux P env pl)
    (ht : 0 < V "tau") (h0 : V "lower" = 0)
    (hl : Real.exp (env.ppfLow (V "mu") (V "tau")) < V "upper") :
    ∃ μ, Spec.AuxDraws P env .truncLogNormal V μ ∧
      μ (Set.Ioo 0 (Real.exp (env.ppfLow (V "mu") (V "tau")))) = 0 ∧
      (((Spec.normalLaw (V "mu") (V "tau")).map Real.exp)[|Set.Icc (V "lower") (V "upper")])
        (Set.Ioo 0 (Real.exp (env.ppfLow (V "mu") (V "tau")))) ≠ 0 := by
  set c := env.ppfLow (V "mu") (V "tau") with hc
  refine ⟨_, truncLog_core hx hf ht (c := c) (by
    unfold Spec.lowExponent
    rw [if_pos (by rw [hx.eq, hx.num, h0]; simp)]) (by rw [h0]; exact (Real.exp_pos _).le) hl, ?_, ?_⟩
  · rw [cond_apply measurableSet_Icc]
    have : Set.Icc (Real.exp c) (V "upper") ∩ Set.Ioo 0 (Real.exp c) = ∅ := by
      ext x
      simp only [Set.mem_inter_iff, Set.mem_Icc, Set.mem_Ioo, Set.mem_empty_iff_false, iff_false]
      rintro ⟨⟨h1, -⟩, -, h2⟩
      linarith
    rw [this]; simp
  · have : IsProbabilityMeasure ((Spec.normalLaw (V "mu") (V "tau")).map Real.exp) :=
      Measure.isProbabilityMeasure_map (by fun_prop)
    rw [cond_apply measurableSet_Icc]
    have e : Set.Icc (V "lower") (V "upper") ∩ Set.Ioo 0 (Real.exp c) = Set.Ioo 0 (Real.exp c) := by
      refine Set.inter_eq_right.2 fun x hx => ⟨by rw [h0]; exact hx.1.le, (hx.2.trans hl).le⟩
    rw [e]
    refine mul_ne_zero (ENNReal.inv_ne_zero.2 (measure_ne_top _ _)) fun h => ?_
    rw [Measure.map_apply Real.measurable_exp measurableSet_Ioo] at h
    refine normalLaw_Icc ht (show c - 2 < c - 1 by linarith) (measure_mono_null ?_ h)
    rintro z ⟨-, hz⟩
    exact ⟨Real.exp_pos _, Real.exp_lt_exp.2 (by linarith)⟩

/-- **C79**, `TruncatedLog10NormalAuxSampler`: for lower limits from one, the law of
`Log10NormalAuxSampler`, conditioned on a smaller interval than asked for: the lower limit is
raised to the power `log 10`. -/
theorem C79_truncLog10Normal_partial (hx : Spec.ExactAux env) (hf : Spec.FairAux P env pl)
    (ht : 0 < V "tau") (h0 : 1 ≤ V "lower") (hl : V "lower" ^ Real.log 10 < V "upper") :
    Spec.AuxDraws P env .truncLog10Normal V
      (((Spec.normalLaw (V "mu") (V "tau")).map fun x => (10 : ℝ) ^ x)[|Set.Icc
        (V "lower" ^ Real.log 10) (V "upper")]) := by
  have p0 : 0 < V "lower" := one_pos.trans_le h0
  have hlow : (10 : ℝ) ^ Real.log (V "lower") = V "lower" ^ Real.log 10 := ten_pow_log p0
  have hu : 0 < V "upper" := (Real.rpow_pos_of_pos p0 _).trans hl
  have hraise : V "lower" ≤ V "lower" ^ Real.log 10 := by
    have := Real.rpow_le_rpow_of_exponent_le h0 one_lt_log_ten.le
    rwa [Real.rpow_one] at this
  have hup : (10 : ℝ) ^ Real.logb 10 (V "upper") = V "upper" := ten_pow_logb hu
  have hmono : StrictMono fun x : ℝ => (10 : ℝ) ^ x := Real.strictMono_rpow_of_base_gt_one (by norm_num)
  have hlog : Real.log (V "lower") < Real.logb 10 (V "upper") := by
    rw [← hmono.lt_iff_lt]; simp only [hlow, hup]; exact hl
  obtain ⟨h1, h2, h3⟩ := located_trunc hx hf (mu := V "mu") ht hlog
  have e : ∀ x, Spec.stdLimit env V x = (x - V "mu") / V "tau" := fun x => by
    unfold Spec.stdLimit; rw [hx.div, hx.sub]
  have e0 : Spec.lowExponent env V = Real.log (V "lower") := by
    unfold Spec.lowExponent
    rw [if_neg (by rw [hx.eq, hx.num]; simpa using p0.ne'), hx.log]
  have hpre : Set.Icc (Real.log (V "lower")) (Real.logb 10 (V "upper")) =
      (fun x : ℝ => (10 : ℝ) ^ x) ⁻¹' Set.Icc (V "lower" ^ Real.log 10) (V "upper") := by
    ext z
    simp only [Set.mem_Icc, Set.mem_preimage]
    have a1 := hmono.le_iff_le (a := Real.log (V "lower")) (b := z)
    have a2 := hmono.le_iff_le (a := z) (b := Real.logb 10 (V "upper"))
    simp only [hlow, hup] at a1 a2
    rw [a1, a2]
  have law := cond_map (μ := Spec.normalLaw (V "mu") (V "tau")) measurable_exp10
    measurableSet_Icc hpre
  have : IsProbabilityMeasure (((Spec.normalLaw (V "mu") (V "tau")).map fun x => (10 : ℝ) ^ x)[|Set.Icc
        (V "lower" ^ Real.log 10) (V "upper")]) := by
    rw [← law]; exact Measure.isProbabilityMeasure_map measurable_exp10.aemeasurable
  refine auxDraws_of (k := .truncLog10Normal) (by simp) ⟨by rw [hx.num]; simpa using ht.le, ?_, ?_⟩ ?_
  · rw [hx.lt, e, e, e0, hx.log10]
    gcongr
  · intro g
    have := h2 g
    rw [hpre] at this
    simp only [Spec.recipe, e, e0, hx.log10, Spec.through, hx.exp10]
    exact ⟨hraise.trans this.1, this.2⟩
  · rw [← law]
    simp only [Spec.recipe, e, e0, hx.log10]
    exact through_samples h1 measurable_exp10 hx.exp10

/-- **C79 is violated** by `TruncatedLog10NormalAuxSampler` for lower limits above one: values
between the lower limit and its power `log 10` have positive probability under the law of
`Log10NormalAuxSampler` conditioned on the limits, but are never drawn. -/
theorem C79_violated_truncLog10 (hx : Spec.ExactAux env) (hf : Spec.FairAux P env pl)
    (ht : 0 < V "tau") (h0 : 1 < V "lower") (hl : V "lower" ^ Real.log 10 < V "upper") :
    ∃ μ, Spec.AuxDraws P env .truncLog10Normal V μ ∧
      μ (Set.Ico (V "lower") (V "lower" ^ Real.log 10)) = 0 ∧
      (((Spec.normalLaw (V "mu") (V "tau")).map fun x => (10 : ℝ) ^ x)[|Set.Icc
        (V "lower") (V "upper")]) (Set.Ico (V "lower") (V "lower" ^ Real.log 10)) ≠ 0 := by
  refine ⟨_, C79_truncLog10Normal_partial hx hf ht h0.le hl, ?_, ?_⟩
  · rw [cond_apply measurableSet_Icc]
    have : Set.Icc (V "lower" ^ Real.log 10) (V "upper") ∩
        Set.Ico (V "lower") (V "lower" ^ Real.log 10) = ∅ := by
      ext x
      simp only [Set.mem_inter_iff, Set.mem_Icc, Set.mem_Ico, Set.mem_empty_iff_false, iff_false]
      rintro ⟨⟨h1, -⟩, -, h2⟩
      linarith
    rw [this]; simp
  · have p0 : 0 < V "lower" := one_pos.trans h0
    have hlt : V "lower" < V "lower" ^ Real.log 10 := by
      have := Real.rpow_lt_rpow_of_exponent_lt h0 one_lt_log_ten
      rwa [Real.rpow_one] at this
    have hu : 0 < V "upper" := (Real.rpow_pos_of_pos p0 _).trans hl
    have : IsProbabilityMeasure ((Spec.normalLaw (V "mu") (V "tau")).map fun x => (10 : ℝ) ^ x) :=
      Measure.isProbabilityMeasure_map measurable_exp10.aemeasurable
    have hmono : StrictMono fun x : ℝ => (10 : ℝ) ^ x := Real.strictMono_rpow_of_base_gt_one (by norm_num)
    have key : ∀ a b : ℝ, 0 < a → a < b →
        ((Spec.normalLaw (V "mu") (V "tau")).map fun x => (10 : ℝ) ^ x) (Set.Ico a b) ≠ 0 := by
      intro a b ha hab
      rw [Measure.map_apply measurable_exp10 measurableSet_Ico]
      have hlab : Real.logb 10 a < Real.logb 10 b := by
        rw [← hmono.lt_iff_lt]; simp only [ten_pow_logb ha, ten_pow_logb (ha.trans hab)]; exact hab
      obtain ⟨c, c1, c2⟩ := exists_between hlab
      refine fun h => normalLaw_Icc ht c1 (measure_mono_null ?_ h)
      rintro z ⟨z1, z2⟩
      have w1 := hmono.monotone z1
      have w2 := hmono (z2.trans_lt c2)
      simp only [ten_pow_logb ha, ten_pow_logb (ha.trans hab)] at w1 w2
      exact ⟨w1, w2⟩
    rw [cond_apply measurableSet_Icc]
    have e : Set.Icc (V "lower") (V "upper") ∩ Set.Ico (V "lower") (V "lower" ^ Real.log 10) =
        Set.Ico (V "lower") (V "lower" ^ Real.log 10) := by
      ext x
      simp only [Set.mem_inter_iff, Set.mem_Icc, Set.mem_Ico]
      constructor
      · rintro ⟨-, h⟩; exact h
      · rintro ⟨h1, h2⟩; exact ⟨⟨h1, by linarith⟩, h1, h2⟩
    rw [e]
    exact mul_ne_zero (ENNReal.inv_ne_zero.2 (measure_ne_top _ _)) (key _ _ p0 hlt)

/-- **C79**, `ParetoAuxSampler`. -/
theorem C79_pareto (hx : Spec.ExactAux env)
    (hf : Spec.FairAux P env fun a => Spec.lumLaw (Spec.paretoDensity 1 a) (Set.Ici 1))
    (hm : 0 < V "xmin") (ha : 0 < V "alpha") :
    Spec.AuxDraws P env .pareto V
      (Spec.lumLaw (Spec.paretoDensity (V "xmin") (V "alpha")) (Set.Ici (V "xmin"))) := by
  obtain ⟨S, -, -, s1, s2⟩ := pareto_transform (lmin := 1) one_pos ha
  obtain ⟨T, -, -, t1, t2⟩ := pareto_transform hm ha
  have i1 : IsProbabilityMeasure (Spec.lumLaw (Spec.paretoDensity 1 (V "alpha")) (Set.Ici 1)) := by
    rw [← s2.map_eq]; exact Measure.isProbabilityMeasure_map s2.measurable.aemeasurable
  have i2 : IsProbabilityMeasure (Spec.lumLaw (Spec.paretoDensity (V "xmin") (V "alpha")) (Set.Ici (V "xmin"))) := by
    rw [← t2.map_eq]; exact Measure.isProbabilityMeasure_map t2.measurable.aemeasurable
  have i3 : IsProbabilityMeasure ((Spec.lumLaw (Spec.paretoDensity 1 (V "alpha")) (Set.Ici 1)).map fun x => x - 1) :=
    Measure.isProbabilityMeasure_map (by fun_prop)
  have e : ((Spec.lumLaw (Spec.paretoDensity 1 (V "alpha")) (Set.Ici 1)).map fun x => x - 1).map
      (fun y => (y + 1) * V "xmin") =
      Spec.lumLaw (Spec.paretoDensity (V "xmin") (V "alpha")) (Set.Ici (V "xmin")) := by
    have hS := s2.measurable
    rw [← s2.map_eq, ← t2.map_eq, Measure.map_map (by fun_prop) hS,
      Measure.map_map (by fun_prop) (by fun_prop)]
    congr 1
    rw [s1, t1]
    funext u
    simp [Function.comp]
  refine auxDraws_of (k := .pareto) (by simp) (by show ¬ _ ≤ env.num 0; rw [hx.num]; simpa using ha) ?_
  rw [← e]
  simp only [Spec.recipe]
  exact through_samples (hf.pareto _ ha) (by fun_prop) fun x => by rw [hx.mul, hx.add, hx.num]; simp

/-- The density of a power law between two limits. -/
noncomputable def Spec.powerDensity (xmin xmax alpha x : ℝ) : ℝ :=
  x ^ alpha / ∫ s in xmin..xmax, s ^ alpha

/-- **C79**, `PowerLawAuxSampler`. -/
theorem C79_powerLaw (hx : Spec.ExactAux env) (hf : Spec.FairAux P env pl)
    (hm : 0 < V "xmin") (hh : V "xmin" < V "xmax") :
    Spec.AuxDraws P env .powerLaw V
      (Spec.lumLaw (Spec.powerDensity (V "xmin") (V "xmax") (V "alpha"))
        (Set.Icc (V "xmin") (V "xmax"))) := by
  obtain ⟨S, hS, hmono, -, -, himg, -, hcdf⟩ := C49_inverse (V "alpha") hm hh
  have i := uniformLaw_prob (h := 1) one_pos
  set T : ℝ → ℝ := fun u => S (Set.projIcc (0 : ℝ) 1 zero_le_one u) with hTdef
  have hTS : ∀ u ∈ Set.Icc (0 : ℝ) 1, T u = S u := fun u hu => by
    simp only [hTdef, Set.projIcc_of_mem _ hu]
  have hTm : Monotone T := fun u v huv =>
    hmono.monotoneOn (Subtype.coe_prop _) (Subtype.coe_prop _)
      (Subtype.coe_le_coe.2 (Set.monotone_projIcc _ huv))
  have hpos : 0 < ∫ s in V "xmin"..V "xmax", s ^ V "alpha" := plMass_pos hm hh
  have hii : IntervalIntegrable (fun x : ℝ => x ^ V "alpha") volume (V "xmin") (V "xmax") := by
    refine intervalIntegral.intervalIntegrable_rpow (Or.inr ?_)
    rw [Set.uIcc_of_le hh.le]
    exact fun h => absurd h.1 (not_le.2 hm)
  have law : MeasurePreserving T (Spec.uniformLaw 1)
      (Spec.lumLaw (Spec.powerDensity (V "xmin") (V "xmax") (V "alpha"))
        (Set.Icc (V "xmin") (V "xmax"))) := by
    refine law_of_cdf hh.le hTm.measurable (fun u hu => ?_) (hii.div_const _) (fun x hx => ?_)
      fun t ht => ?_
    · have := Set.Ico_subset_Icc_self hu
      rw [hTS u this, ← himg]
      exact Set.mem_image_of_mem _ this
    · exact div_nonneg (Real.rpow_nonneg (hm.le.trans hx.1) _) hpos.le
    · unfold Spec.powerDensity
      rw [intervalIntegral.integral_div, ← hcdf t ht]
      congr 1
      ext u
      simp only [Set.mem_ofPred_eq]
      refine and_congr_right fun hu => ?_
      rw [hTS u (Set.Ico_subset_Icc_self hu)]
  have hp : IsProbabilityMeasure (Spec.lumLaw (Spec.powerDensity (V "xmin") (V "xmax") (V "alpha"))
        (Set.Icc (V "xmin") (V "xmax"))) := by
    rw [← law.map_eq]; exact Measure.isProbabilityMeasure_map law.measurable.aemeasurable
  refine auxDraws_of (k := .powerLaw) (by simp) trivial ?_
  simp only [Spec.recipe]
  refine through_mp hf.numba law (uniformLaw_inside.mono fun u hu => ?_)
  have hu' := Set.Ioo_subset_Icc_self hu
  rw [hTS u hu']
  exact hx.plaw _ _ _ _ _ (hS u hu')

/-- **C79**, `ViewingAngleSampler`: the angle to a fixed direction is isotropic up to the
maximum. -/
theorem C79_viewingAngle (hx : Spec.ExactAux env) (hf : Spec.FairAux P env pl)
    (hm : V "max_angle" ∈ Set.Ioc (0 : ℝ) 180) :
    Spec.AuxDraws P env .viewingAngle V (Spec.lumLaw (fun t => Real.sin t /
        (1 - Real.cos (V "max_angle" * (Real.pi / 180)))) (Set.Icc 0 (V "max_angle" * (Real.pi / 180)))) := by
  obtain ⟨c1, -, c3⟩ := C52_viewing_partial hm
  obtain ⟨⟨m0, mpi⟩, m1⟩ := cosMax_lt hm
  have i := uniformLaw_prob (h := 1) one_pos
  have hd : deg2rad (V "max_angle") = V "max_angle" * (Real.pi / 180) := rfl
  rw [← hd]
  set m := deg2rad (V "max_angle") with hmdef
  have hd : 0 < 1 - Real.cos m := by linarith
  have hprob : ∀ x, (viewingProb (V "max_angle") x).getD 0 = Real.sin x / (1 - Real.cos m) := fun x => by
    unfold viewingProb
    rw [npDiv_ne hd.ne', Option.getD_some]
  have law : MeasurePreserving (fun u => Real.arccos (1 - (1 - Real.cos m) * u)) (Spec.uniformLaw 1)
      (Spec.lumLaw (fun t => Real.sin t / (1 - Real.cos m)) (Set.Icc 0 m)) := by
    refine law_of_cdf m0.le (Real.continuous_arccos.comp (by fun_prop)).measurable
      (fun u hu => ?_) (Continuous.intervalIntegrable (by fun_prop) _ _) (fun x hx => ?_) fun t ht => ?_
    · obtain ⟨t, ht, e, -⟩ := c1 u hu
      rw [viewingAngle_eq hm hu] at e
      cases e
      exact ht
    · exact div_nonneg (Real.sin_nonneg_of_nonneg_of_le_pi hx.1 (hx.2.trans mpi)) hd.le
    · have := c3 t ht
      simp only [hprob] at this
      rw [← this]
      congr 1
      ext u
      simp only [Set.mem_ofPred_eq]
      refine and_congr_right fun hu => ?_
      rw [viewingAngle_eq hm hu]
      simp only [Option.some.injEq, exists_eq_left']
      rfl
  have hp : IsProbabilityMeasure (Spec.lumLaw (fun t => Real.sin t / (1 - Real.cos m)) (Set.Icc 0 m)) := by
    rw [← law.map_eq]; exact Measure.isProbabilityMeasure_map law.measurable.aemeasurable
  refine auxDraws_of (k := .viewingAngle) (by simp) trivial ?_
  simp only [Spec.recipe]
  refine through_mp hf.uniform law (Filter.Eventually.of_forall fun u => ?_)
  rw [hx.arccos, hx.sub, hx.mul, hx.sub, hx.num, hx.cosDeg]
  simp only [Nat.cast_one]
  rfl

/-- **C79**, `RASampler`: uniform between zero and 2 pi. -/
theorem C79_ra (hx : Spec.ExactAux env) (hf : Spec.FairAux P env pl) :
    Spec.AuxDraws P env .ra V (Spec.uniformLaw (2 * Real.pi)) := by
  have i := uniformLaw_prob (h := 1) one_pos
  have i2 := uniformLaw_prob (h := 2 * Real.pi) (by positivity)
  refine auxDraws_of (k := .ra) (by simp) trivial ?_
  simp only [Spec.recipe]
  refine through_mp hf.uniform (Stream.scale_uniform (by positivity)) (Filter.Eventually.of_forall fun u => ?_)
  rw [hx.mul, hx.mul, hx.num, hx.pi]; norm_num

/-- **C79**, `DecSampler`: the angles are not declinations but have the law of a polar angle. -/
theorem C79_dec (hx : Spec.ExactAux env) (hf : Spec.FairAux P env pl) :
    Spec.AuxDraws P env .dec V (Spec.densityLaw Real.sin Real.pi) := by
  have i1 := sin_law_prob
  have i := uniformLaw_prob (h := 1) one_pos
  refine auxDraws_of (k := .dec) (by simp) trivial ?_
  rw [← polar_law]
  simp only [Spec.recipe]
  refine through_samples hf.uniform ?_ fun u => ?_
  · exact (Real.continuous_arccos.comp (by fun_prop)).measurable
  · rw [hx.arccos, hx.sub, hx.mul, hx.num, hx.num]; norm_num

/-- **C79**, `BrokenPowerLawAuxSampler`: the law with a continuous broken power-law density. -/
theorem C79_bpl (hx : Spec.ExactAux env) (hf : Spec.FairAux P env pl)
    (h : Spec.BplParams (V "xmin") (V "xbreak") (V "xmax") (V "alpha") (V "beta")) :
    ∃ p : ℝ → ℝ, Spec.IsDensity p ∧
      Spec.IsBrokenPowerLaw p (V "xmin") (V "xbreak") (V "xmax") (V "alpha") (V "beta") ∧
      ContinuousAt p (V "xbreak") ∧
      Spec.AuxDraws P env .brokenPowerLaw V (Spec.lumLaw p Set.univ) := by
  obtain ⟨p, w1, w2, c, T, -, p2, p3, p4, hw, w0, w11, hpiece, hS⟩ := bpl_transform h
  have hc := coinLaw_prob w0 w11
  have i := uniformLaw_prob (h := 1) one_pos
  have hp : IsProbabilityMeasure (Spec.lumLaw p Set.univ) := by
    rw [← hS.map_eq]; exact Measure.isProbabilityMeasure_map hS.measurable.aemeasurable
  refine ⟨p, p2, p3, p4, hp, fun n => ?_⟩
  have hw' := hx.weight _ _ _ _ _ _ _ _ hw
  have q0 : env.num 0 ≤ w1 := by rw [hx.num]; simpa using w0
  have q1 : w1 ≤ env.num 1 := by rw [hx.num]; simpa using w11
  have hN := Samples.mapTo (Samples.seq (drawMany_samples hf.uniform n)
      (drawMany_samples (hf.bern w1 w0 w11) n)
      (Q := fun _ g v g' => ∃ g1, drawMany env.uniform n g = (List.ofFn v.1, g1) ∧
        drawMany (env.bernoulli w1) n g1 = (List.ofFn v.2, g'))
      fun k g a g1 b g2 ha hb => ⟨g1, ha, hb⟩) (iid_zip n _ _)
      (Q := fun _ g v g' => ∃ g1, drawMany env.uniform n g = (List.ofFn fun i => (v i).1, g1) ∧
        drawMany (env.bernoulli w1) n g1 = (List.ofFn fun i => (v i).2, g'))
      fun k g v g' ⟨g1, ha, hb⟩ => ⟨g1, ha, hb⟩
  have hin : ∀ᵐ x ∂((Spec.uniformLaw 1).prod (Spec.coinLaw w1)), x.1 ∈ Set.Ico (0 : ℝ) 1 :=
    Measure.quasiMeasurePreserving_fst.ae
      (uniformLaw_inside.mono fun u hu => Set.Ioo_subset_Ico_self hu)
  refine Samples.mapTo (Samples.and_ae hN (iid_ae hin n))
    (f := fun v i => T (v i)) (measurePreserving_pi _ _ fun _ => hS) fun _ g v g' ⟨⟨g1, ha, hb⟩, hv⟩ view hV => ?_
  have hu : Spec.Usable env V .brokenPowerLaw := ⟨w1, hw', q0, q1⟩
  obtain ⟨us, cs, d1, d2, d3, d4, d8, t, d5, d6, d7⟩ := C62_true_broken hV hw' q0 q1 n g
  obtain ⟨names, -, c5⟩ := trueSampler_params hV hu n g
  rw [ha] at d1
  subst d1
  simp only at d2
  rw [hb] at d2
  subst d2
  have ht : t = List.ofFn fun i => T (v i) := by
    refine List.ext_getElem? fun j => ?_
    by_cases hj : j < n
    · rw [d7 j (v ⟨j, hj⟩).1 (v ⟨j, hj⟩).2 (by simp [hj]) (by simp [hj])]
      rw [List.getElem?_ofFn, dif_pos hj]
      have := hpiece (v ⟨j, hj⟩).1 (v ⟨j, hj⟩).2 (hv ⟨j, hj⟩)
      by_cases hb : (v ⟨j, hj⟩).2 = true
      · rw [if_pos hb] at this ⊢
        rw [hx.piece _ _ _ _ _ this]
      · rw [if_neg hb] at this ⊢
        rw [hx.piece _ _ _ _ _ this]
    · rw [List.getElem?_eq_none (by omega), List.getElem?_eq_none (by simp; omega)]
  refine ⟨((auxCode env .brokenPowerLaw).trueSampler view n g).params, ?_, by rw [c5]; exact readMany_hasValues names hV⟩
  generalize (auxCode env .brokenPowerLaw).trueSampler view n g = o at *
  cases o
  simp only at d3 d4 d5 d8
  subst d3 d4 d5 d8 ht
  rfl

/-! ### Measurement errors -/

theorem iid_dirac {α : Type} [MeasurableSpace α] [MeasurableSingletonClass α] (n : ℕ) (c : α) :
    Spec.iid n (Measure.dirac c) = Measure.dirac fun _ => c := by
  have h : ∀ᵐ v ∂(Spec.iid n (Measure.dirac c)), v = fun _ => c := by
    have h1 : ∀ᵐ a ∂(Measure.dirac c), a = c := by rw [ae_dirac_eq]; rfl
    filter_upwards [iid_ae h1 n] with v hv
    exact funext hv
  calc Spec.iid n (Measure.dirac c) = (Spec.iid n (Measure.dirac c)).map id := Measure.map_id.symm
    _ = (Spec.iid n (Measure.dirac c)).map fun _ => fun _ => c := Measure.map_congr h
    _ = _ := by rw [Measure.map_const, measure_univ, one_smul]

/-- **C79**, observed values: the measurement errors are normal with standard deviation
`sigma`, independent of each other and of the true values. -/
theorem C79_errors {k : AuxKind} (hk : Spec.Observable k) (hx : Spec.ExactAux env)
    (hf : Spec.FairAux P env pl) (hs : 0 ≤ V "sigma") :
    Spec.AuxErrors P env k V (Spec.normalLaw 0 (V "sigma")) := by
  refine ⟨inferInstance, fun n => ?_⟩
  have h0 : env.num 0 ≤ V "sigma" := by rw [hx.num]; simpa using hs
  by_cases hz : V "sigma" = 0
  · have e : Spec.iid n (Spec.normalLaw 0 (V "sigma")) = Measure.dirac fun _ => 0 := by
      have e0 : Spec.normalLaw 0 (V "sigma") = Measure.dirac 0 := by
        rw [hz]; unfold Spec.normalLaw; simp
      rw [e0, iid_dirac]
    rw [e]
    refine ⟨fun g => (fun _ => 0, g), ⟨by fun_prop, by rw [Measure.dirac_prod]⟩, ?_⟩
    refine Filter.Eventually.of_forall fun g => Filter.Eventually.of_forall fun _ view t hV ho ht => ?_
    refine ⟨readSt env k view.params "sigma", ?_, (hasValues_readSt _ _).2 hV⟩
    rw [auxObs_observed hk ho ht (by simp) (hV _ _ hk.sigma) h0]
    rw [if_pos (by rw [hx.eq, hx.num, hz]; simp), if_pos (by rw [hx.eq, hx.num, hz]; simp)]
    simp
  · have hne : ¬ env.eq (V "sigma") (env.num 0) = true := by rw [hx.eq, hx.num]; simpa using hz
    have law : MeasurePreserving (fun z => z * V "sigma") (gaussianReal 0 1) (Spec.normalLaw 0 (V "sigma")) := by
      refine ⟨by fun_prop, ?_⟩
      have := normalLaw_std 0 (V "sigma")
      simpa using this
    refine Samples.mapTo (drawMany_samples hf.normal n) (f := fun v i => v i * V "sigma")
      (measurePreserving_pi _ _ fun _ => law) fun _ g v g' hd view t hV ho ht => ?_
    refine ⟨readSt env k view.params "sigma", ?_, (hasValues_readSt _ _).2 hV⟩
    rw [auxObs_observed hk ho ht (by simp) (hV _ _ hk.sigma) h0, if_neg hne, if_neg hne, hd]
    simp only [ofFn_zipWith, hx.add, hx.mul]
    congr 3
    funext i
    ring

end Popsynth
