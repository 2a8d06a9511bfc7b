import Verif.Props.LawAux
import Verif.Props.LawAuxExample

/-!
# The truncated base-ten sampler for lower limits below one (C79)

`TruncatedLog10NormalAuxSampler` takes the natural logarithm of its lower limit where it needs the decimal one
(trunc_lognormal_aux_sampler.py:122).  Below one the interval from which it draws is too large, and its own
assertion fails whenever a value falls below the limit.
-/

set_option autoImplicit false
set_option linter.unusedSectionVars false

open MeasureTheory ProbabilityTheory
open scoped ENNReal

namespace Popsynth

/-! ### What the code does with values outside the limits -/

section code
variable {F G : Type} [LE F] [DecidableLE F] {env : AuxEnv F G}
open Spec

theorem assertLimits_low {V : String → F} {k : AuxKind} {x : List F} {s : CodeSt F G}
    (h : HasValues env k V s.params) (hl : (Dict.get? (auxDecl env k) "lower").isSome = true)
    (hx : ∃ v ∈ x, ¬ V "lower" ≤ v) :
    assertLimits env k x s = .error .assertion { s with params := readMany env k ["lower"] s.params } := by
  have e1 : (x.all fun v => decide (V "lower" ≤ v)) = false := by
    obtain ⟨v, hv, hn⟩ := hx
    rw [List.all_eq_false]
    exact ⟨v, hv, by simpa using hn⟩
  unfold assertLimits
  rw [bind_of_ok (auxAttr_ok h hl)]
  simp only [bind_apply, e1, pyAssert, Bool.false_eq_true, if_false, raise_apply]
  rfl

/-- The logarithmic truncated samplers store what they draw before they look at the limits. -/
theorem truncLogCode_checks {V : String → F} {k : AuxKind} {s : CodeSt F G} {logUp power : F → F}
    {gen : G → F × G} (h : HasValues env k V s.params)
    (hk : k = .truncLogNormal ∨ k = .truncLog10Normal) (ht : env.num 0 ≤ V "tau")
    (hab : env.lt (stdLimit env V (lowExponent env V)) (stdLimit env V (logUp (V "upper"))) = true)
    (hg : gen = through power (located env (env.truncStd (stdLimit env V (lowExponent env V))
      (stdLimit env V (logUp (V "upper")))) (V "mu") (V "tau"))) (n : Nat) :
    ∃ names, truncLogCode env k logUp power n s = assertLimits env k (drawMany gen n s.rng).1
        { s with params := readMany env k names s.params,
                 trueVals := some (drawMany gen n s.rng).1, rng := (drawMany gen n s.rng).2 } := by
  have hl : ∀ name ∈ ["lower", "upper", "mu", "tau"],
      (Dict.get? (auxDecl env k) name).isSome = true := by
    rcases hk with rfl | rfl <;> simp [auxDecl, Dict.get?]
  obtain ⟨names, hn, e⟩ := lowerLimit_ok h hk
  have h' : HasValues env k V (readMany env k names s.params) := readMany_hasValues names h
  unfold truncLogCode
  rw [bind_of_ok e, bind_of_ok (auxAttr_ok h' (hl _ (by simp))),
    bind_of_ok (auxAttr_ok (by simpa using h') (hl _ (by simp))),
    bind_of_ok (auxAttr_ok (by simpa using h') (hl _ (by simp))),
    bind_of_ok (auxAttr_ok (by simpa using h') (hl _ (by simp))),
    bind_of_ok (auxAttr_ok (by simpa using h') (hl _ (by simp))),
    bind_of_ok (auxAttr_ok (by simpa using h') (hl _ (by simp))),
    bind_of_ok (auxAttr_ok (by simpa using h') (hl _ (by simp))),
    bind_of_ok (truncnormRvs_eq (by exact hab) ht _ _)]
  simp only
  have em : (drawMany gen n s.rng) =
      ((drawMany (located env (env.truncStd (stdLimit env V (lowExponent env V))
        (stdLimit env V (logUp (V "upper")))) (V "mu") (V "tau")) n s.rng).1.map power,
       (drawMany (located env (env.truncStd (stdLimit env V (lowExponent env V))
        (stdLimit env V (logUp (V "upper")))) (V "mu") (V "tau")) n s.rng).2) := by
    rw [hg, drawMany_through]
  rw [em]
  refine ⟨names ++ ["upper", "mu", "tau", "mu", "tau", "mu", "tau"], ?_⟩
  unfold setTrue
  rw [bind_apply, modify_apply]
  simp only [readMany, List.foldl_append]
  rfl

/-- One run of the base-ten sampler: the values are stored in any case; it returns if they are between the
limits and fails with `AssertionError` if one is below the lower limit. -/
theorem trunc10_run {V : String → F} {v : SView F} (h : HasValues env .truncLog10Normal V v.params)
    (ht : env.num 0 ≤ V "tau")
    (hab : env.lt (stdLimit env V (lowExponent env V)) (stdLimit env V (env.log10 (V "upper"))) = true)
    (n : Nat) (g : G) :
    ((∀ x ∈ (drawMany (recipe env V .truncLog10Normal) n g).1, V "lower" ≤ x ∧ x ≤ V "upper") →
      ((auxCode env .truncLog10Normal).trueSampler v n g).err = none ∧
      ((auxCode env .truncLog10Normal).trueSampler v n g).trueVals =
        some (drawMany (recipe env V .truncLog10Normal) n g).1) ∧
    ((∃ x ∈ (drawMany (recipe env V .truncLog10Normal) n g).1, ¬ V "lower" ≤ x) →
      ((auxCode env .truncLog10Normal).trueSampler v n g).err = some .assertion ∧
      ((auxCode env .truncLog10Normal).trueSampler v n g).trueVals =
        some (drawMany (recipe env V .truncLog10Normal) n g).1) := by
  have hl : (Dict.get? (auxDecl env .truncLog10Normal) "lower").isSome = true := by simp [auxDecl, Dict.get?]
  have hu : (Dict.get? (auxDecl env .truncLog10Normal) "upper").isSome = true := by simp [auxDecl, Dict.get?]
  obtain ⟨names, e⟩ := truncLogCode_checks (s := ⟨v.params, v.trueVals, v.obsVals, g⟩) (logUp := env.log10)
    (power := env.exp10) (gen := recipe env V .truncLog10Normal) h (.inr rfl) ht hab rfl n
  have h' : HasValues env .truncLog10Normal V (readMany env .truncLog10Normal names v.params) :=
    readMany_hasValues names h
  refine ⟨fun hx => ?_, fun hx => ?_⟩
  · rw [assertLimits_ok h' hl hu hx] at e
    have := asCode_of_ok (v := v) (n := n) (g := g) (m := fun _ n => auxTrue env .truncLog10Normal n) e
    simp only [auxCode, this, and_self]
  · rw [assertLimits_low h' hl hx] at e
    have e' : (auxCode env .truncLog10Normal).trueSampler v n g =
        (match truncLogCode env .truncLog10Normal env.log10 env.exp10 n ⟨v.params, v.trueVals, v.obsVals, g⟩ with
        | .ok _ s => { trueVals := s.trueVals, obsVals := s.obsVals, params := s.params, rng := s.rng }
        | .error e s => { err := some e, trueVals := s.trueVals, obsVals := s.obsVals, params := s.params, rng := s.rng }) := rfl
    rw [e', e]
    exact ⟨rfl, rfl⟩

end code

/-! ### Laws -/

variable {G : Type} [MeasurableSpace G] {P : Measure G} [IsProbabilityMeasure P]
  {env : AuxEnv ℝ G} {V : String → ℝ} {pl : ℝ → Measure ℝ}

/-- The law of `Log10NormalAuxSampler`. -/
noncomputable def Spec.log10Law (V : String → ℝ) : Measure ℝ :=
  (Spec.normalLaw (V "mu") (V "tau")).map fun x => (10 : ℝ) ^ x

theorem log10Law_Ico (ht : 0 < V "tau") {a b : ℝ} (ha : 0 < a) (hab : a < b) : Spec.log10Law V (Set.Ico a b) ≠ 0 := by
  have hmono : StrictMono fun x : ℝ => (10 : ℝ) ^ x := Real.strictMono_rpow_of_base_gt_one (by norm_num)
  unfold Spec.log10Law
  rw [Measure.map_apply measurable_exp10 measurableSet_Ico]
  have hlab : Real.logb 10 a < Real.logb 10 b := by
    rw [← hmono.lt_iff_lt]; simp only [ten_pow_logb ha, ten_pow_logb (ha.trans hab)]; exact hab
  obtain ⟨c, c1, c2⟩ := exists_between hlab
  refine fun h => normalLaw_Icc ht c1 (measure_mono_null ?_ h)
  rintro z ⟨z1, z2⟩
  have w1 := hmono.monotone z1
  have w2 := hmono (z2.trans_lt c2)
  simp only [ten_pow_logb ha, ten_pow_logb (ha.trans hab)] at w1 w2
  exact ⟨w1, w2⟩

/-- One value of the base-ten sampler. -/
theorem trunc10_samples (hx : Spec.ExactAux env) (hf : Spec.FairAux P env pl) (ht : 0 < V "tau") {c : ℝ}
    (hc : Spec.lowExponent env V = c) (hl : (10 : ℝ) ^ c < V "upper") :
    env.lt (Spec.stdLimit env V (Spec.lowExponent env V)) (Spec.stdLimit env V (env.log10 (V "upper"))) = true ∧
    IsProbabilityMeasure ((Spec.log10Law V)[|Set.Icc ((10 : ℝ) ^ c) (V "upper")]) ∧
    Spec.Samples P ((Spec.log10Law V)[|Set.Icc ((10 : ℝ) ^ c) (V "upper")])
      (fun _ g x g' => Spec.recipe env V .truncLog10Normal g = (x, g')) ∧
    ∀ g, (Spec.recipe env V .truncLog10Normal g).1 ∈ Set.Icc ((10 : ℝ) ^ c) (V "upper") := by
  have hu : 0 < V "upper" := (Real.rpow_pos_of_pos (by norm_num) _).trans hl
  have hup : (10 : ℝ) ^ Real.logb 10 (V "upper") = V "upper" := ten_pow_logb hu
  have hmono : StrictMono fun x : ℝ => (10 : ℝ) ^ x := Real.strictMono_rpow_of_base_gt_one (by norm_num)
  have hlog : c < Real.logb 10 (V "upper") := by
    rw [← hmono.lt_iff_lt]; simp only [hup]; exact hl
  obtain ⟨h1, h2, h3⟩ := located_trunc hx hf (mu := V "mu") ht hlog
  have e : ∀ x, Spec.stdLimit env V x = (x - V "mu") / V "tau" := fun x => by
    unfold Spec.stdLimit; rw [hx.div, hx.sub]
  have hpre : Set.Icc c (Real.logb 10 (V "upper")) =
      (fun x : ℝ => (10 : ℝ) ^ x) ⁻¹' Set.Icc ((10 : ℝ) ^ c) (V "upper") := by
    ext z
    simp only [Set.mem_Icc, Set.mem_preimage]
    have a1 := hmono.le_iff_le (a := c) (b := z)
    have a2 := hmono.le_iff_le (a := z) (b := Real.logb 10 (V "upper"))
    simp only [hup] at a1 a2
    rw [a1, a2]
  have law := cond_map (μ := Spec.normalLaw (V "mu") (V "tau")) measurable_exp10
    measurableSet_Icc hpre
  refine ⟨?_, ?_, ?_, fun g => ?_⟩
  · rw [hx.lt, e, e, hc, hx.log10]
    gcongr
  · unfold Spec.log10Law
    rw [← law]; exact Measure.isProbabilityMeasure_map measurable_exp10.aemeasurable
  · unfold Spec.log10Law
    rw [← law]
    simp only [Spec.recipe, e, hc, hx.log10]
    exact through_samples h1 measurable_exp10 hx.exp10
  · have := h2 g
    rw [hpre] at this
    simp only [Spec.recipe, e, hc, hx.log10, Spec.through, hx.exp10]
    exact this

/-- **C79**, `TruncatedLog10NormalAuxSampler` with the lower limit zero: the law of `Log10NormalAuxSampler`,
conditioned on the values from an undocumented low quantile to the upper limit. -/
theorem C79_truncLog10_zero_partial (hx : Spec.ExactAux env) (hf : Spec.FairAux P env pl) (ht : 0 < V "tau")
    (h0 : V "lower" = 0) (hl : (10 : ℝ) ^ env.ppfLow (V "mu") (V "tau") < V "upper") :
    Spec.AuxDraws P env .truncLog10Normal V
      ((Spec.log10Law V)[|Set.Icc ((10 : ℝ) ^ env.ppfLow (V "mu") (V "tau")) (V "upper")]) := by
  have hc : Spec.lowExponent env V = env.ppfLow (V "mu") (V "tau") := by
    unfold Spec.lowExponent
    rw [if_pos (by rw [hx.eq, hx.num, h0]; simp)]
  obtain ⟨h1, h2, h3, h4⟩ := trunc10_samples hx hf ht hc hl
  refine auxDraws_of (k := .truncLog10Normal) (by simp) ⟨by rw [hx.num]; simpa using ht.le, h1, fun g => ?_⟩ h3
  refine ⟨?_, (h4 g).2⟩
  rw [h0]
  exact (Real.rpow_pos_of_pos (by norm_num) _).le.trans (h4 g).1

/-- **C79 is violated** by `TruncatedLog10NormalAuxSampler` for the lower limit zero: values below the low
quantile have positive probability under the law of `Log10NormalAuxSampler` conditioned on the limits, but are
never drawn. -/
theorem C79_violated_truncLog10_zero (hx : Spec.ExactAux env) (hf : Spec.FairAux P env pl) (ht : 0 < V "tau")
    (h0 : V "lower" = 0) (hl : (10 : ℝ) ^ env.ppfLow (V "mu") (V "tau") < V "upper") :
    ∃ μ, Spec.AuxDraws P env .truncLog10Normal V μ ∧
      μ (Set.Ioo 0 ((10 : ℝ) ^ env.ppfLow (V "mu") (V "tau"))) = 0 ∧
      ((Spec.log10Law V)[|Set.Icc (V "lower") (V "upper")])
        (Set.Ioo 0 ((10 : ℝ) ^ env.ppfLow (V "mu") (V "tau"))) ≠ 0 := by
  set c := (10 : ℝ) ^ env.ppfLow (V "mu") (V "tau") with hc
  have pc : 0 < c := Real.rpow_pos_of_pos (by norm_num) _
  have : IsProbabilityMeasure (Spec.log10Law V) := Measure.isProbabilityMeasure_map measurable_exp10.aemeasurable
  refine ⟨_, C79_truncLog10_zero_partial hx hf ht h0 hl, ?_, ?_⟩
  · rw [cond_apply measurableSet_Icc]
    have e : Set.Icc c (V "upper") ∩ Set.Ioo 0 c = ∅ := by
      ext x
      simp only [Set.mem_inter_iff, Set.mem_Icc, Set.mem_Ioo, Set.mem_empty_iff_false, iff_false]
      rintro ⟨⟨a, -⟩, -, b⟩
      linarith
    rw [← hc, e]; simp
  · rw [cond_apply measurableSet_Icc]
    refine mul_ne_zero (ENNReal.inv_ne_zero.2 (measure_ne_top _ _)) fun hz => ?_
    refine log10Law_Ico (V := V) ht (half_pos pc) (half_lt_self pc) (measure_mono_null ?_ hz)
    rintro x ⟨x1, x2⟩
    have : 0 < x := (half_pos pc).trans_le x1
    exact ⟨⟨by rw [h0]; exact this.le, by linarith⟩, this, x2⟩

/-- The probability that `n` independent values are all in a set. -/
theorem iid_all {α : Type} [MeasurableSpace α] (μ : Measure α) [IsProbabilityMeasure μ] (n : ℕ) (s : Set α) :
    Spec.iid n μ {v | ∀ i, v i ∈ s} = μ s ^ n := by
  have : {v : Fin n → α | ∀ i, v i ∈ s} = Set.univ.pi fun _ => s := by ext v; simp
  rw [this]
  unfold Spec.iid
  rw [Measure.pi_pi]
  simp

/-- **C79 is violated** by `TruncatedLog10NormalAuxSampler` for lower limits between zero and one.  The values
are independent with the law of `Log10NormalAuxSampler` conditioned on a larger interval than asked for, from
`lower ^ log 10`; that a value is below the lower limit has positive probability.  The sampler returns with
the probability that all `n` values are above the limit, and otherwise fails with `AssertionError`; the more
objects there are, the more surely it fails. -/
theorem C79_violated_truncLog10_below (hx : Spec.ExactAux env) (hf : Spec.FairAux P env pl) (ht : 0 < V "tau")
    (h0 : 0 < V "lower") (h1 : V "lower" < 1) (hl : V "lower" ^ Real.log 10 < V "upper")
    {view : SView ℝ} (hv : Spec.HasValues env .truncLog10Normal V view.params) :
    let μ := (Spec.log10Law V)[|Set.Icc (V "lower" ^ Real.log 10) (V "upper")]
    let err := fun n g => ((auxCode env .truncLog10Normal).trueSampler view n g).err
    IsProbabilityMeasure μ ∧ μ (Set.Iio (V "lower")) ≠ 0 ∧
    (∀ n, P {g | err n g = none} = μ (Set.Ici (V "lower")) ^ n) ∧
    (∀ n, P {g | err n g = some .assertion} = 1 - μ (Set.Ici (V "lower")) ^ n) ∧
    Filter.Tendsto (fun n => P {g | err n g = some .assertion}) Filter.atTop (nhds 1) ∧
    ∀ n, Spec.Samples P (Spec.iid n μ) fun _ g v _ =>
      ((auxCode env .truncLog10Normal).trueSampler view n g).trueVals = some (List.ofFn v) := by
  intro μ err
  have hlow : (10 : ℝ) ^ Real.log (V "lower") = V "lower" ^ Real.log 10 := ten_pow_log h0
  have hc : Spec.lowExponent env V = Real.log (V "lower") := by
    unfold Spec.lowExponent
    rw [if_neg (by rw [hx.eq, hx.num]; simpa using h0.ne'), hx.log]
  obtain ⟨k1, k2, k3, k4⟩ := trunc10_samples hx hf ht hc (by rwa [hlow])
  rw [hlow] at k2 k3 k4
  have hless : V "lower" ^ Real.log 10 < V "lower" := by
    have := Real.rpow_lt_rpow_of_exponent_gt h0 h1 one_lt_log_ten
    rwa [Real.rpow_one] at this
  have hpos : 0 < V "lower" ^ Real.log 10 := Real.rpow_pos_of_pos h0 _
  have : IsProbabilityMeasure (Spec.log10Law V) := Measure.isProbabilityMeasure_map measurable_exp10.aemeasurable
  have i1 : IsProbabilityMeasure μ := k2
  have hlt : μ (Set.Iio (V "lower")) ≠ 0 := by
    show ((Spec.log10Law V)[|Set.Icc (V "lower" ^ Real.log 10) (V "upper")]) (Set.Iio (V "lower")) ≠ 0
    rw [cond_apply measurableSet_Icc]
    refine mul_ne_zero (ENNReal.inv_ne_zero.2 (measure_ne_top _ _)) fun hz => ?_
    refine log10Law_Ico (V := V) ht hpos (lt_min hless hl) (measure_mono_null ?_ hz)
    rintro x ⟨x1, x2⟩
    exact ⟨⟨x1, (x2.trans_le (min_le_right _ _)).le⟩, x2.trans_le (min_le_left _ _)⟩
  have run : ∀ n, Spec.Samples P (Spec.iid n μ) fun _ g v _ =>
      ((∀ i, v i ∈ Set.Ici (V "lower")) → err n g = none) ∧
      ((¬ ∀ i, v i ∈ Set.Ici (V "lower")) → err n g = some .assertion) ∧
      ((auxCode env .truncLog10Normal).trueSampler view n g).trueVals = some (List.ofFn v) := by
    intro n
    refine Samples.mono (drawMany_samples k3 n) fun _ g v g' hd => ?_
    obtain ⟨r1, r2⟩ := trunc10_run hv (by rw [hx.num]; simpa using ht.le) k1 n g
    have hup : ∀ x ∈ (drawMany (Spec.recipe env V .truncLog10Normal) n g).1, x ≤ V "upper" :=
      drawMany_all (p := fun x => x ≤ V "upper") (fun g => (k4 g).2) n g
    rw [hd] at r1 r2 hup
    simp only [List.forall_mem_ofFn_iff] at r1 hup
    by_cases hall : ∀ i, V "lower" ≤ v i
    · obtain ⟨a, b⟩ := r1 fun i => ⟨hall i, hup i⟩
      exact ⟨fun _ => a, fun h => absurd hall h, b⟩
    · obtain ⟨a, b⟩ := r2 (by
        push Not at hall
        obtain ⟨i, hi⟩ := hall
        exact ⟨v i, List.mem_ofFn.2 ⟨i, rfl⟩, not_le.2 hi⟩)
      exact ⟨fun h => absurd h hall, fun _ => a, b⟩
  have prob : ∀ n, P {g | err n g = none} = μ (Set.Ici (V "lower")) ^ n ∧
      P {g | err n g = some .assertion} = 1 - μ (Set.Ici (V "lower")) ^ n := by
    intro n
    obtain ⟨T, hT, hR⟩ := run n
    have i2 : IsProbabilityMeasure (Spec.iid n μ) := by unfold Spec.iid; infer_instance
    have ms : MeasurableSet {v : Fin n → ℝ | ∀ i, v i ∈ Set.Ici (V "lower")} := by
      have : {v : Fin n → ℝ | ∀ i, v i ∈ Set.Ici (V "lower")} = Set.univ.pi fun _ => Set.Ici (V "lower") := by
        ext v; simp only [Set.mem_setOf_eq, Set.mem_univ_pi]
      rw [this]
      exact MeasurableSet.univ_pi fun _ => measurableSet_Ici
    have law : ∀ B : Set (Fin n → ℝ), MeasurableSet B → P {g | (T g).1 ∈ B} = Spec.iid n μ B := by
      intro B hB
      have := hT.measure_preimage (hB.prod MeasurableSet.univ).nullMeasurableSet
      rw [Measure.prod_prod, measure_univ, mul_one] at this
      rw [← this]
      congr 1
      ext g
      simp
    have r : ∀ᵐ g ∂P, ((∀ i, (T g).1 i ∈ Set.Ici (V "lower")) → err n g = none) ∧
        ((¬ ∀ i, (T g).1 i ∈ Set.Ici (V "lower")) → err n g = some .assertion) := by
      filter_upwards [hR] with g hg
      obtain ⟨k, hk⟩ := hg.exists
      exact ⟨hk.1, hk.2.1⟩
    constructor
    · rw [← iid_all, ← law _ ms]
      refine measure_congr ?_
      filter_upwards [r] with g hg
      refine propext ⟨fun h => ?_, fun h => hg.1 h⟩
      by_contra hn
      have := (hg.2 hn).symm.trans h
      cases this
    · have hcomp : Spec.iid n μ {v : Fin n → ℝ | ∀ i, v i ∈ Set.Ici (V "lower")}ᶜ =
          1 - μ (Set.Ici (V "lower")) ^ n := by
        rw [prob_compl_eq_one_sub ms, iid_all]
      rw [← hcomp, ← law _ ms.compl]
      refine measure_congr ?_
      filter_upwards [r] with g hg
      refine propext ⟨fun h => ?_, fun h => hg.2 h⟩
      intro hn
      have := (hg.1 hn).symm.trans h
      cases this
  refine ⟨i1, hlt, fun n => (prob n).1, fun n => (prob n).2, ?_, fun n => Samples.mono (run n) fun _ _ _ _ h => h.2.2⟩
  have hq : μ (Set.Ici (V "lower")) < 1 := by
    have e : μ (Set.Ici (V "lower")) = 1 - μ (Set.Iio (V "lower")) := by
      rw [← prob_compl_eq_one_sub measurableSet_Iio, Set.compl_Iio]
    rw [e]
    exact ENNReal.sub_lt_self ENNReal.one_ne_top one_ne_zero hlt
  simp only [fun n => (prob n).2]
  have := ENNReal.Tendsto.sub (tendsto_const_nhds (x := (1 : ℝ≥0∞)) (f := Filter.atTop (α := ℕ)))
    (ENNReal.tendsto_pow_atTop_nhds_zero_of_lt_one hq) (.inl ENNReal.one_ne_top)
  simpa using this

namespace LawExample

/-- A sampler with lower limit one half and default location and width. -/
noncomputable def half (n : String) : ℝ :=
  if n = "mu" then 0 else if n = "lower" then 1 / 2 else if n = "upper" then 100 else 1

noncomputable def halfView : SView ℝ where
  params := { storage := [("lower", some (1 / 2)), ("upper", some 100)] }
  isObserved := true
  luminosity := none
  spatial := none
  trueVals := none
  obsVals := none
  secs := []

theorem half_values : Spec.HasValues auxEnv .truncLog10Normal half halfView.params := by
  intro name d h
  simp only [auxDecl, Dict.get?] at h
  split at h
  · subst_vars; cases h; simp [Spec.inForce, halfView, Dict.get?, half, auxEnv]
  · split at h
    · subst_vars; cases h; simp [Spec.inForce, halfView, Dict.get?, half, auxEnv]
    · split at h
      · subst_vars; cases h; simp [Spec.inForce, halfView, Dict.get?, half, auxEnv]
      · split at h
        · subst_vars; cases h; simp [Spec.inForce, halfView, Dict.get?, half, auxEnv]
        · split at h
          · subst_vars; cases h; simp [Spec.inForce, halfView, Dict.get?, half, auxEnv]
          · cases h

/-- With the lower limit one half the sampler fails the more surely the more objects there are. -/
example : Filter.Tendsto
    (fun n => seeds {g | ((auxCode auxEnv .truncLog10Normal).trueSampler halfView n g).err = some .assertion})
    Filter.atTop (nhds 1) :=
  (C79_violated_truncLog10_below exactAux fairAux (by simp [half]) (by simp [half])
    (by simp only [half, String.reduceEq, if_true, if_false]; norm_num)
    (by
      simp only [half, String.reduceEq, if_true, if_false]
      exact (Real.rpow_le_one (by norm_num) (by norm_num) (Real.log_nonneg (by norm_num))).trans_lt (by norm_num))
    half_values).2.2.2.2.1

/-- With the lower limit zero, location zero and width one it never draws values below `10 ^ (-4)` (the
quantile of these random numbers). -/
example : Spec.AuxDraws seeds auxEnv .truncLog10Normal (fun n => if n = "lower" then 0 else half n)
    ((Spec.log10Law half)[|Set.Icc ((10 : ℝ) ^ (-4 : ℝ)) 100]) := by
  have := C79_truncLog10_zero_partial (V := fun n => if n = "lower" then 0 else half n) exactAux fairAux
    (by simp [half]) (by simp) (by
      simp only [half, String.reduceEq, if_true, if_false, auxEnv]
      exact (Real.rpow_le_one_of_one_le_of_nonpos (by norm_num) (by norm_num)).trans_lt (by norm_num))
  simpa [half, auxEnv, Spec.log10Law] using this

end LawExample
end Popsynth
