import Verif.Props.VoverVmax

/-!
# Eddington bias: measurement errors change the number of detections (C95)
-/

set_option autoImplicit false
set_option linter.unusedSectionVars false

open MeasureTheory Filter
open scoped NNReal ENNReal

namespace Popsynth

/-- The factor by which the error `z` changes a flux. -/
noncomputable def Spec.errorFactor (decimal : Bool) (z : ℝ) : ℝ :=
  if decimal then (10 : ℝ) ^ z else Real.exp z

/-- The numbers of the survey behave like real numbers. -/
structure Spec.Precise {G : Type} (e : SurveyEnv ℝ G) : Prop where
  add : ∀ x z, e.add x z = x + z
  log10 : ∀ x, 0 < x → e.log10 x = Real.logb 10 x
  pow10 : ∀ x, e.pow10 x = (10 : ℝ) ^ x
  ln : ∀ x, 0 < x → e.ln x = Real.log x
  exp : ∀ x, e.exp x = Real.exp x

theorem noise_gauss (sigma : ℝ) : ∃ v : ℝ≥0, (v : ℝ) = sigma ^ 2 ∧
    Spec.noiseLaw (some sigma) = ProbabilityTheory.gaussianReal 0 v :=
  ⟨⟨sigma ^ 2, sq_nonneg sigma⟩, rfl, rfl⟩

theorem errorFactor_pos (b : Bool) (z : ℝ) : 0 < Spec.errorFactor b z := by
  unfold Spec.errorFactor
  cases b
  · exact Real.exp_pos z
  · exact Real.rpow_pos_of_pos (by norm_num) z

theorem errorFactor_neg (b : Bool) (z : ℝ) : Spec.errorFactor b (-z) = (Spec.errorFactor b z)⁻¹ := by
  unfold Spec.errorFactor
  cases b
  · exact Real.exp_neg z
  · exact Real.rpow_neg (by norm_num) z

theorem errorFactor_one {b : Bool} {z : ℝ} (h : Spec.errorFactor b z = 1) : z = 0 := by
  unfold Spec.errorFactor at h
  cases b
  · simpa using h
  · simp only [if_true] at h
    have := congrArg (Real.logb 10) h
    rwa [Real.logb_rpow (by norm_num) (by norm_num), Real.logb_one] at this

theorem errorFactor_measurable (b : Bool) : Measurable (Spec.errorFactor b) := by
  unfold Spec.errorFactor
  cases b
  · simp only [Bool.false_eq_true, if_false]; fun_prop
  · simp only [if_true]; exact measurable_const.pow measurable_id

theorem errorFactor_mono (b : Bool) {x z : ℝ} (h : x ≤ z) : Spec.errorFactor b x ≤ Spec.errorFactor b z := by
  unfold Spec.errorFactor
  cases b
  · exact Real.exp_le_exp.2 h
  · exact Real.rpow_le_rpow_of_exponent_le (by norm_num) h

/-- The observed flux is the flux times the factor of the error. -/
theorem observed_factor {G : Type} {e : SurveyEnv ℝ G} (he : Spec.Precise e) (sigma : ℝ) (b : Bool)
    {f : ℝ} (hf : 0 < f) (z : ℝ) :
    Spec.observed e (some sigma) b f z = f * Spec.errorFactor b z := by
  unfold Spec.observed Spec.errorFactor
  cases b
  · simp only [Bool.false_eq_true, if_false, he.exp, he.add, he.ln f hf, Real.exp_add, Real.exp_log hf]
  · simp only [if_true, he.pow10, he.add, he.log10 f hf]
    rw [Real.rpow_add (by norm_num), Real.rpow_logb (by norm_num) (by norm_num) hf]

/-- **C95**: with measurement errors, the mean number of detections above a flux limit is the mean,
over the errors, of the number without errors above the limit divided by the factor of the
error.  This holds for every density, every law of the luminosities and all positive fluxes. -/
theorem C95_errors {G : Type} {e : SurveyEnv ℝ G} (he : Spec.Precise e) {dens : ℝ → ℝ}
    (hd : Measurable dens) {rm F sigma : ℝ} {flux : ℝ → ℝ → ℝ}
    (hfl : Measurable fun q : ℝ × ℝ => flux q.1 q.2) {μL : Measure ℝ} [SFinite μL]
    (hpos : ∀ᵐ l ∂μL, ∀ r ∈ Set.Icc 0 rm, 0 < flux l r) (b : Bool) :
    Spec.expected dens rm flux μL (some sigma) (Spec.observed e (some sigma) b)
        ((Set.Ici F).indicator 1) =
      ∫⁻ z, Spec.expected dens rm flux μL none (Spec.observed e none b)
        ((Set.Ici (F / Spec.errorFactor b z)).indicator 1) ∂(Spec.noiseLaw (some sigma)) := by
  have hE := errorFactor_measurable b
  have hA : MeasurableSet {q : ℝ × ℝ × ℝ | F / Spec.errorFactor b q.2.2 ≤ flux q.2.1 q.1} := by
    have h1 : Measurable fun q : ℝ × ℝ × ℝ => F / Spec.errorFactor b q.2.2 :=
      measurable_const.div (hE.comp (measurable_snd.comp measurable_snd))
    have h2 : Measurable fun q : ℝ × ℝ × ℝ => flux q.2.1 q.1 :=
      hfl.comp ((measurable_fst.comp measurable_snd).prodMk measurable_fst)
    exact measurableSet_le h1 h2
  set f : ℝ × ℝ × ℝ → ℝ≥0∞ := {q : ℝ × ℝ × ℝ | F / Spec.errorFactor b q.2.2 ≤ flux q.2.1 q.1}.indicator 1
    with hfdef
  have hf : Measurable f := measurable_one.indicator hA
  have hval : ∀ r l z, (Set.Ici (F / Spec.errorFactor b z)).indicator (1 : ℝ → ℝ≥0∞) (flux l r) =
      f (r, l, z) := fun r l z => rfl
  have hin : ∀ r, ∫⁻ l, ∫⁻ z, f (r, l, z) ∂(Spec.noiseLaw (some sigma)) ∂μL =
      ∫⁻ z, ∫⁻ l, f (r, l, z) ∂μL ∂(Spec.noiseLaw (some sigma)) := fun r => by
    have h2 : Measurable fun t : ℝ × ℝ => f (r, t.1, t.2) := hf.comp measurable_prodMk_left
    exact lintegral_lintegral_swap (f := fun l z => f (r, l, z)) h2.aemeasurable
  have hJ : Measurable fun t : ℝ × ℝ => ∫⁻ l, f (t.1, l, t.2) ∂μL := by
    have h2 : Measurable fun t : (ℝ × ℝ) × ℝ => f (t.1.1, t.2, t.1.2) := hf.comp (by fun_prop)
    exact h2.lintegral_prod_right'
  have hstep : Spec.expected dens rm flux μL (some sigma) (Spec.observed e (some sigma) b)
      ((Set.Ici F).indicator 1) = ∫⁻ r in Set.Icc 0 rm, ENNReal.ofReal (dens r) *
        ∫⁻ z, ∫⁻ l, f (r, l, z) ∂μL ∂(Spec.noiseLaw (some sigma)) := by
    unfold Spec.expected
    refine setLIntegral_congr_fun measurableSet_Icc fun r hr => ?_
    rw [← hin r]
    congr 1
    refine lintegral_congr_ae (hpos.mono fun l hl => ?_)
    refine lintegral_congr fun z => ?_
    rw [← hval, observed_factor he sigma b (hl r hr) z]
    have hz := errorFactor_pos b z
    by_cases h1 : F ≤ flux l r * Spec.errorFactor b z
    · rw [Set.indicator_of_mem (Set.mem_Ici.2 h1),
        Set.indicator_of_mem (Set.mem_Ici.2 ((div_le_iff₀ hz).2 h1))]
      rfl
    · rw [Set.indicator_of_notMem (fun h => h1 (Set.mem_Ici.1 h)),
        Set.indicator_of_notMem (fun h => h1 ((div_le_iff₀ hz).1 (Set.mem_Ici.1 h)))]
  rw [hstep]
  have e1 : ∀ r, ENNReal.ofReal (dens r) * ∫⁻ z, ∫⁻ l, f (r, l, z) ∂μL ∂(Spec.noiseLaw (some sigma)) =
      ∫⁻ z, ENNReal.ofReal (dens r) * ∫⁻ l, f (r, l, z) ∂μL ∂(Spec.noiseLaw (some sigma)) := fun r => by
    rw [lintegral_const_mul]
    exact hJ.comp measurable_prodMk_left
  simp only [e1]
  rw [lintegral_lintegral_swap]
  · refine lintegral_congr fun z => ?_
    unfold Spec.expected
    refine lintegral_congr fun r => ?_
    simp only [Spec.noiseLaw, lintegral_dirac, Spec.observed]
    rfl
  · have h1 : Measurable fun t : ℝ × ℝ => ENNReal.ofReal (dens t.1) :=
      ENNReal.measurable_ofReal.comp (hd.comp measurable_fst)
    exact (h1.mul hJ).aemeasurable

/-- The volume in which an object is brighter than `F` in a sphere of radius `rm`. -/
noncomputable def Spec.seenVolume (rm F L : ℝ) : ℝ := Spec.ballVolume (min (Spec.reach F L) rm)

theorem seen_measurable {α : Type} [MeasurableSpace α] (lambda rm : ℝ) {f g : α → ℝ}
    (hf : Measurable f) (hg : Measurable g) :
    Measurable fun q => ENNReal.ofReal (lambda * Spec.seenVolume rm (f q) (g q)) := by
  unfold Spec.seenVolume Spec.ballVolume Spec.reach
  fun_prop

/-- The mean number above a limit in a sphere of constant density of any radius. -/
theorem seen_counts {μL : Measure ℝ} [SFinite μL] {lambda F rm : ℝ} (hl : 0 ≤ lambda) (hF : 0 < F)
    (obs : ℝ → ℝ → ℝ) (ho : ∀ f, obs f 0 = f) :
    Spec.expected (constantSpherical.dens [lambda]) rm sphericalFluxes μL none obs
        ((Set.Ici F).indicator 1) =
      ∫⁻ L, ENNReal.ofReal (lambda * Spec.seenVolume rm F L) ∂μL := by
  rw [C77_flux_limit sphericalFluxes_measurable _ _ ho]
  have hH : Measurable fun L => min (Spec.reach F L) rm := by unfold Spec.reach; fun_prop
  have h1 := ball_integral (μL := μL) hl hH (rm := rm) (Eventually.of_forall fun L => min_le_right _ _)
  refine Eq.trans ?_ h1
  refine setLIntegral_congr_fun measurableSet_Icc fun r hr => ?_
  congr 2
  ext L
  simp only [Set.mem_ofPred_eq, le_min_iff]
  rw [bright_iff hF hr.1]
  exact ⟨fun h => ⟨h, hr.2⟩, fun h => h.1⟩

theorem cube_mean {a b c : ℝ} (ha : 0 ≤ a) (hb : 0 ≤ b) (hc : 0 ≤ c) (h : 2 * c ≤ a + b) :
    2 * c ^ 3 ≤ a ^ 3 + b ^ 3 := by
  have h1 : c ^ 3 ≤ ((a + b) / 2) ^ 3 := pow_le_pow_left₀ hc (by linarith) 3
  nlinarith [mul_nonneg (add_nonneg ha hb) (sq_nonneg (a - b))]

theorem cube_mean_lt {a b c : ℝ} (ha : 0 ≤ a) (hb : 0 ≤ b) (hc : 0 ≤ c) (h : 2 * c < a + b) :
    2 * c ^ 3 < a ^ 3 + b ^ 3 := by
  have h1 : c ^ 3 < ((a + b) / 2) ^ 3 := pow_lt_pow_left₀ (by linarith) hc (by norm_num)
  nlinarith [mul_nonneg (add_nonneg ha hb) (sq_nonneg (a - b))]

theorem add_inv_gt {t : ℝ} (h : 0 < t) (h1 : t ≠ 1) : 2 < t + t⁻¹ := by
  have h2 : 0 < (t - 1) ^ 2 := by have := sub_ne_zero.2 h1; positivity
  have h3 : t * t⁻¹ = 1 := mul_inv_cancel₀ h.ne'
  have h4 : 0 < t⁻¹ := inv_pos.2 h
  nlinarith

/-- What an error gains outweighs what the opposite error loses. -/
theorem cubes_pair {x t R : ℝ} (hx : 0 ≤ x) (ht : 0 < t) (hR : 0 ≤ R) (h : 2 * max 0 (x - 1) ^ 3 ≤ R ^ 3) :
    2 * max 0 (x - 1) ^ 3 ≤ max 0 (min (x * t - 1) R) ^ 3 + max 0 (min (x * t⁻¹ - 1) R) ^ 3 := by
  have n1 : (0 : ℝ) ≤ max 0 (min (x * t - 1) R) := le_max_left _ _
  have n2 : (0 : ℝ) ≤ max 0 (min (x * t⁻¹ - 1) R) := le_max_left _ _
  have n0 : (0 : ℝ) ≤ max 0 (x - 1) := le_max_left _ _
  by_cases h1 : R ≤ x * t - 1
  · rw [min_eq_right h1, max_eq_right hR]
    have := pow_nonneg n2 3
    linarith
  by_cases h2 : R ≤ x * t⁻¹ - 1
  · rw [min_eq_right h2, max_eq_right hR]
    have := pow_nonneg n1 3
    linarith
  rw [min_eq_left (not_le.1 h1).le] at n1 ⊢
  rw [min_eq_left (not_le.1 h2).le] at n2 ⊢
  refine cube_mean n1 n2 n0 ?_
  have k1 : x * t - 1 ≤ max 0 (x * t - 1) := le_max_right _ _
  have k2 : x * t⁻¹ - 1 ≤ max 0 (x * t⁻¹ - 1) := le_max_right _ _
  have k3 : 2 ≤ t + t⁻¹ := by
    by_cases h3 : t = 1
    · subst h3; norm_num
    · exact (add_inv_gt ht h3).le
  rcases max_cases 0 (x - 1) with ⟨k, _⟩ | ⟨k, _⟩ <;> rw [k]
  · linarith
  · nlinarith

theorem cubes_pair_lt {x t R : ℝ} (hx : 1 < x) (ht : 0 < t) (ht1 : t ≠ 1) (hR : 0 ≤ R)
    (h : 2 * max 0 (x - 1) ^ 3 < R ^ 3) :
    2 * max 0 (x - 1) ^ 3 < max 0 (min (x * t - 1) R) ^ 3 + max 0 (min (x * t⁻¹ - 1) R) ^ 3 := by
  have n1 : (0 : ℝ) ≤ max 0 (min (x * t - 1) R) := le_max_left _ _
  have n2 : (0 : ℝ) ≤ max 0 (min (x * t⁻¹ - 1) R) := le_max_left _ _
  have n0 : (0 : ℝ) ≤ max 0 (x - 1) := le_max_left _ _
  by_cases h1 : R ≤ x * t - 1
  · rw [min_eq_right h1, max_eq_right hR]
    have := pow_nonneg n2 3
    linarith
  by_cases h2 : R ≤ x * t⁻¹ - 1
  · rw [min_eq_right h2, max_eq_right hR]
    have := pow_nonneg n1 3
    linarith
  rw [min_eq_left (not_le.1 h1).le] at n1 ⊢
  rw [min_eq_left (not_le.1 h2).le] at n2 ⊢
  refine cube_mean_lt n1 n2 n0 ?_
  have k1 : x * t - 1 ≤ max 0 (x * t - 1) := le_max_right _ _
  have k2 : x * t⁻¹ - 1 ≤ max 0 (x * t⁻¹ - 1) := le_max_right _ _
  have k3 := add_inv_gt ht ht1
  rw [max_eq_right (by linarith : (0 : ℝ) ≤ x - 1)]
  nlinarith

theorem reach_factor {F t : ℝ} (hF : 0 < F) (ht : 0 < t) (L : ℝ) :
    Spec.reach (F / t) L = √(L / (4 * Real.pi * F)) * √t - 1 := by
  have hp := Real.pi_pos
  unfold Spec.reach
  rw [← Real.sqrt_mul' _ ht.le]
  congr 2
  field_simp

theorem volumes_pair {F t L rm : ℝ} (hF : 0 < F) (ht : 0 < t) (hrm : 0 ≤ rm)
    (h : 2 * Spec.ballVolume (Spec.reach F L) ≤ Spec.ballVolume rm) :
    2 * Spec.ballVolume (Spec.reach F L) ≤
      Spec.seenVolume rm (F / t) L + Spec.seenVolume rm (F / t⁻¹) L := by
  have hp := Real.pi_pos
  unfold Spec.seenVolume
  rw [reach_factor hF ht, reach_factor hF (inv_pos.2 ht), Real.sqrt_inv]
  unfold Spec.ballVolume at h ⊢
  unfold Spec.reach at h ⊢
  rw [max_eq_right hrm] at h
  have := cubes_pair (Real.sqrt_nonneg (L / (4 * Real.pi * F))) (Real.sqrt_pos.2 ht) hrm (by
    have h4 : 0 < 4 / 3 * Real.pi := by positivity
    have : 4 / 3 * Real.pi * (2 * max 0 (√(L / (4 * Real.pi * F)) - 1) ^ 3) ≤ 4 / 3 * Real.pi * rm ^ 3 := by
      linarith
    exact le_of_mul_le_mul_left this h4)
  have h5 := mul_le_mul_of_nonneg_left this (by positivity : 0 ≤ 4 / 3 * Real.pi)
  linarith

theorem volumes_pair_lt {F t L rm : ℝ} (hF : 0 < F) (ht : 0 < t) (ht1 : t ≠ 1) (hrm : 0 ≤ rm)
    (hL : 0 < Spec.reach F L) (h : 2 * Spec.ballVolume (Spec.reach F L) < Spec.ballVolume rm) :
    2 * Spec.ballVolume (Spec.reach F L) <
      Spec.seenVolume rm (F / t) L + Spec.seenVolume rm (F / t⁻¹) L := by
  have hp := Real.pi_pos
  unfold Spec.seenVolume
  rw [reach_factor hF ht, reach_factor hF (inv_pos.2 ht), Real.sqrt_inv]
  unfold Spec.ballVolume at h ⊢
  unfold Spec.reach at h hL ⊢
  rw [max_eq_right hrm] at h
  have h4 : 0 < 4 / 3 * Real.pi := by positivity
  have := cubes_pair_lt (x := √(L / (4 * Real.pi * F))) (by linarith) (Real.sqrt_pos.2 ht)
    (fun h => ht1 (Real.sqrt_eq_one.1 h)) hrm (by
    have : 4 / 3 * Real.pi * (2 * max 0 (√(L / (4 * Real.pi * F)) - 1) ^ 3) < 4 / 3 * Real.pi * rm ^ 3 := by
      linarith
    exact lt_of_mul_lt_mul_left this h4.le)
  have h5 := mul_lt_mul_of_pos_left this h4
  linarith

/-- The mean number above the limit that belongs to an error. -/
noncomputable def shiftedCount (lambda rm F : ℝ) (μL : Measure ℝ) (b : Bool) (z : ℝ) : ℝ≥0∞ :=
  ∫⁻ L, ENNReal.ofReal (lambda * Spec.seenVolume rm (F / Spec.errorFactor b z) L) ∂μL

theorem shifted_measurable (lambda rm F : ℝ) (μL : Measure ℝ) [SFinite μL] (b : Bool) :
    Measurable (shiftedCount lambda rm F μL b) := by
  have h0 := errorFactor_measurable b
  have h2 : Measurable fun q : ℝ × ℝ => F / Spec.errorFactor b q.1 := by fun_prop
  have h1 : Measurable fun q : ℝ × ℝ =>
      ENNReal.ofReal (lambda * Spec.seenVolume rm (F / Spec.errorFactor b q.1) q.2) :=
    seen_measurable lambda rm h2 measurable_snd
  exact h1.lintegral_prod_right'

theorem seen_nonneg (rm F L : ℝ) : 0 ≤ Spec.seenVolume rm F L := by
  have := Real.pi_pos
  unfold Spec.seenVolume Spec.ballVolume
  have : (0 : ℝ) ≤ max 0 (min (Spec.reach F L) rm) := le_max_left _ _
  positivity

theorem shifted_pair {lambda : ℝ} (hl : 0 ≤ lambda) (rm F : ℝ) (μL : Measure ℝ) (b : Bool) (z : ℝ) :
    shiftedCount lambda rm F μL b z + shiftedCount lambda rm F μL b (-z) =
      ∫⁻ L, ENNReal.ofReal (lambda * (Spec.seenVolume rm (F / Spec.errorFactor b z) L +
        Spec.seenVolume rm (F / (Spec.errorFactor b z)⁻¹) L)) ∂μL := by
  unfold shiftedCount
  have hm : Measurable fun L => ENNReal.ofReal (lambda * Spec.seenVolume rm (F / Spec.errorFactor b z) L) :=
    seen_measurable lambda rm measurable_const measurable_id
  rw [errorFactor_neg, ← lintegral_add_left hm]
  refine lintegral_congr fun L => ?_
  rw [mul_add, ENNReal.ofReal_add (mul_nonneg hl (seen_nonneg _ _ _)) (mul_nonneg hl (seen_nonneg _ _ _))]

theorem two_counts (lambda F : ℝ) (μL : Measure ℝ) :
    2 * Spec.ballCounts lambda (Spec.reach F) μL =
      ∫⁻ L, ENNReal.ofReal (lambda * (2 * Spec.ballVolume (Spec.reach F L))) ∂μL := by
  unfold Spec.ballCounts
  rw [← lintegral_const_mul _ (show Measurable fun L => ENNReal.ofReal (lambda * (4 / 3 * Real.pi *
    max 0 (Spec.reach F L) ^ 3)) from reach_measurable F lambda)]
  refine lintegral_congr fun L => ?_
  rw [← ENNReal.ofReal_ofNat 2, ← ENNReal.ofReal_mul (by norm_num)]
  congr 1
  unfold Spec.ballVolume
  ring

section sphere
variable {G : Type} {e : SurveyEnv ℝ G} (he : Spec.Precise e) {μL : Measure ℝ} [IsProbabilityMeasure μL]
  {lambda F rm : ℝ} (hF : 0 < F) (hrm : 0 ≤ rm) (hpos : ∀ᵐ L ∂μL, 0 < L) (sigma : ℝ) (b : Bool)

include he hF hpos in
theorem noisy_counts (hl : 0 ≤ lambda) :
    Spec.expected (constantSpherical.dens [lambda]) rm sphericalFluxes μL (some sigma)
        (Spec.observed e (some sigma) b) ((Set.Ici F).indicator 1) =
      ∫⁻ z, shiftedCount lambda rm F μL b z ∂(Spec.noiseLaw (some sigma)) := by
  have hp := Real.pi_pos
  rw [C95_errors he (by rw [constantSpherical_dens]; unfold sphereVolume; fun_prop)
    sphericalFluxes_measurable (hpos.mono fun L hL r hr => by
      rw [sphericalFluxes_eq hr.1]
      have : 0 < r + 1 := by linarith [hr.1]
      positivity) b]
  refine lintegral_congr fun z => ?_
  exact seen_counts hl (div_pos hF (errorFactor_pos b z)) _ fun f => rfl

theorem noise_pair {g : ℝ → ℝ≥0∞} (hg : Measurable g) :
    2 * ∫⁻ z, g z ∂(Spec.noiseLaw (some sigma)) =
      ∫⁻ z, (g z + g (-z)) ∂(Spec.noiseLaw (some sigma)) := by
  have h1 : (Spec.noiseLaw (some sigma)).map (fun z => -z) = Spec.noiseLaw (some sigma) := by
    obtain ⟨v, -, hv⟩ := noise_gauss sigma
    rw [hv, ProbabilityTheory.gaussianReal_map_neg, neg_zero]
  have h2 : ∫⁻ z, g (-z) ∂(Spec.noiseLaw (some sigma)) = ∫⁻ z, g z ∂(Spec.noiseLaw (some sigma)) := by
    conv_rhs => rw [← h1, lintegral_map hg measurable_neg]
  rw [lintegral_add_left hg, h2, two_mul]

include he hF hrm hpos in
/-- **C95** (a sphere): if the ball in which an object is detected without errors is at most
half of the sphere, whatever its luminosity, then measurement errors do not lower the mean number
of detections. -/
theorem C95_gain (hl : 0 ≤ lambda)
    (hin : ∀ᵐ L ∂μL, 2 * Spec.ballVolume (Spec.reach F L) ≤ Spec.ballVolume rm) :
    Spec.ballCounts lambda (Spec.reach F) μL ≤
      Spec.expected (constantSpherical.dens [lambda]) rm sphericalFluxes μL (some sigma)
        (Spec.observed e (some sigma) b) ((Set.Ici F).indicator 1) := by
  rw [noisy_counts he hF hpos sigma b hl]
  refine (ENNReal.mul_le_mul_iff_right (a := 2) (by norm_num) (by norm_num)).1 ?_
  rw [noise_pair sigma (shifted_measurable lambda rm F μL b)]
  calc 2 * Spec.ballCounts lambda (Spec.reach F) μL
      = ∫⁻ _, 2 * Spec.ballCounts lambda (Spec.reach F) μL ∂(Spec.noiseLaw (some sigma)) := by simp
    _ ≤ _ := lintegral_mono fun z => ?_
  have ht := errorFactor_pos b z
  rw [shifted_pair hl, two_counts]
  refine lintegral_mono_ae (hin.mono fun L hL => ENNReal.ofReal_le_ofReal ?_)
  exact mul_le_mul_of_nonneg_left (volumes_pair hF ht hrm hL) hl

include he hF hrm hpos in
/-- **C95** (Eddington bias): if the balls are smaller than half of the sphere and some objects can
be detected at all, errors raise the mean number of detections. -/
theorem C95_gain_strict (hl : 0 < lambda) (hsigma : sigma ≠ 0)
    (hin : ∀ᵐ L ∂μL, 2 * Spec.ballVolume (Spec.reach F L) < Spec.ballVolume rm)
    (hsome : μL {L | 0 < Spec.reach F L} ≠ 0) :
    Spec.ballCounts lambda (Spec.reach F) μL <
      Spec.expected (constantSpherical.dens [lambda]) rm sphericalFluxes μL (some sigma)
        (Spec.observed e (some sigma) b) ((Set.Ici F).indicator 1) := by
  rw [noisy_counts he hF hpos sigma b hl.le]
  refine lt_of_mul_lt_mul_left (a := 2) ?_ (by norm_num)
  rw [noise_pair sigma (shifted_measurable lambda rm F μL b)]
  have hfin : 2 * Spec.ballCounts lambda (Spec.reach F) μL ≠ ∞ := by
    rw [two_counts]
    refine ne_top_of_le_ne_top (b := ∫⁻ _, ENNReal.ofReal (lambda * Spec.ballVolume rm) ∂μL) (by simp) ?_
    refine lintegral_mono_ae (hin.mono fun L hL => ENNReal.ofReal_le_ofReal ?_)
    exact mul_le_mul_of_nonneg_left hL.le hl.le
  have hms := shifted_measurable lambda rm F μL b
  have hne : ∀ᵐ z ∂(Spec.noiseLaw (some sigma)), z ≠ 0 := by
    obtain ⟨v, hv, hg⟩ := noise_gauss sigma
    have hv0 : v ≠ 0 := by
      rintro rfl
      exact hsigma (by simpa using hv.symm)
    rw [hg]
    exact (ProbabilityTheory.gaussianReal_absolutelyContinuous 0 hv0).ae_le
      (compl_mem_ae_iff.2 (by simp) : ({0}ᶜ : Set ℝ) ∈ ae volume)
  calc 2 * Spec.ballCounts lambda (Spec.reach F) μL
      = ∫⁻ _, 2 * Spec.ballCounts lambda (Spec.reach F) μL ∂(Spec.noiseLaw (some sigma)) := by
        rw [lintegral_const, measure_univ, mul_one]
    _ < _ := lintegral_strict_mono (IsProbabilityMeasure.ne_zero _)
      (hms.add (hms.comp measurable_neg)).aemeasurable
      (by rw [lintegral_const, measure_univ, mul_one]; exact hfin) (hne.mono fun z hz => ?_)
  show _ < shiftedCount lambda rm F μL b z + shiftedCount lambda rm F μL b (-z)
  have ht := errorFactor_pos b z
  rw [shifted_pair hl.le, two_counts]
  rw [two_counts] at hfin
  have hm1 : Measurable fun L => ENNReal.ofReal (lambda *
      (Spec.seenVolume rm (F / Spec.errorFactor b z) L +
        Spec.seenVolume rm (F / (Spec.errorFactor b z)⁻¹) L)) := by
    unfold Spec.seenVolume Spec.ballVolume Spec.reach
    fun_prop
  refine lintegral_strict_mono_of_ae_le_of_ae_lt_on hm1.aemeasurable hfin
    (hin.mono fun L hL => ENNReal.ofReal_le_ofReal
      (mul_le_mul_of_nonneg_left (volumes_pair hF ht hrm hL.le) hl.le)) hsome
    (hin.mono fun L hL hs => ?_)
  have hlt := volumes_pair_lt hF ht (fun h => hz (errorFactor_one h)) hrm hs hL
  have h0 : 0 ≤ 2 * Spec.ballVolume (Spec.reach F L) := by
    unfold Spec.ballVolume
    have := Real.pi_pos
    have : (0 : ℝ) ≤ max 0 (Spec.reach F L) := le_max_left _ _
    positivity
  exact (ENNReal.ofReal_lt_ofReal_iff (mul_pos hl (h0.trans_lt hlt))).2 (mul_lt_mul_of_pos_left hlt hl)

theorem errorFactor_grows (b : Bool) (n : ℕ) : (n : ℝ) ≤ Spec.errorFactor b n := by
  unfold Spec.errorFactor
  cases b
  · exact (le_add_of_nonneg_right zero_le_one).trans (Real.add_one_le_exp (n : ℝ))
  · simp only [if_true, Real.rpow_natCast]
    exact_mod_cast (Nat.lt_pow_self (by norm_num : 1 < 10)).le

include he hF hpos in
/-- **C95** (no Eddington bias nearby): if every object of the sphere is brighter than the limit,
errors lower the mean number of detections.  So the gain needs faint objects. -/
theorem C95_loss (hl : 0 < lambda) (hrm' : 0 < rm) (hsigma : sigma ≠ 0)
    (hall : ∀ᵐ L ∂μL, rm ≤ Spec.reach F L) :
    Spec.expected (constantSpherical.dens [lambda]) rm sphericalFluxes μL none
        (Spec.observed e none b) ((Set.Ici F).indicator 1) =
      ENNReal.ofReal (lambda * Spec.ballVolume rm) ∧
    Spec.expected (constantSpherical.dens [lambda]) rm sphericalFluxes μL (some sigma)
        (Spec.observed e (some sigma) b) ((Set.Ici F).indicator 1) <
      ENNReal.ofReal (lambda * Spec.ballVolume rm) := by
  have hp := Real.pi_pos
  constructor
  · rw [seen_counts hl.le hF _ fun f => rfl]
    have : ∫⁻ L, ENNReal.ofReal (lambda * Spec.seenVolume rm F L) ∂μL =
        ∫⁻ _, ENNReal.ofReal (lambda * Spec.ballVolume rm) ∂μL :=
      lintegral_congr_ae (hall.mono fun L hL => by
        show ENNReal.ofReal (lambda * Spec.ballVolume (min (Spec.reach F L) rm)) = _
        rw [min_eq_right hL])
    rw [this]; simp
  rw [noisy_counts he hF hpos sigma b hl.le]
  have hV : ∀ x, Spec.ballVolume (min x rm) ≤ Spec.ballVolume rm := fun x => by
    unfold Spec.ballVolume
    have h1 : max 0 (min x rm) ^ 3 ≤ max 0 rm ^ 3 :=
      pow_le_pow_left₀ (le_max_left _ _) (max_le_max le_rfl (min_le_right _ _)) 3
    exact mul_le_mul_of_nonneg_left h1 (by positivity)
  have hVlt : ∀ x, x < rm → Spec.ballVolume (min x rm) < Spec.ballVolume rm := fun x hx => by
    unfold Spec.ballVolume
    rw [min_eq_left hx.le]
    have h1 : max 0 x ^ 3 < max 0 rm ^ 3 :=
      pow_lt_pow_left₀ (by rw [max_eq_right hrm'.le]; exact max_lt hrm' hx) (le_max_left _ _) (by norm_num)
    exact mul_lt_mul_of_pos_left h1 (by positivity)
  have hVpos : 0 < Spec.ballVolume rm := by
    unfold Spec.ballVolume; rw [max_eq_right hrm'.le]; positivity
  have hle : ∀ z, shiftedCount lambda rm F μL b z ≤ ENNReal.ofReal (lambda * Spec.ballVolume rm) := fun z => by
    unfold shiftedCount
    refine (lintegral_mono (g := fun _ => ENNReal.ofReal (lambda * Spec.ballVolume rm)) fun L =>
      ENNReal.ofReal_le_ofReal (mul_le_mul_of_nonneg_left (hV _) hl.le)).trans (by simp)
  obtain ⟨n, hn⟩ : ∃ n : ℕ, μL {L | √(L / (4 * Real.pi * F)) * √(((n + 1 : ℕ) : ℝ)⁻¹) - 1 < rm} ≠ 0 := by
    by_contra hcon
    push Not at hcon
    have h1 : μL (⋃ n : ℕ, {L | √(L / (4 * Real.pi * F)) * √(((n + 1 : ℕ) : ℝ)⁻¹) - 1 < rm}) = 0 :=
      measure_iUnion_null hcon
    have h2 : (⋃ n : ℕ, {L | √(L / (4 * Real.pi * F)) * √(((n + 1 : ℕ) : ℝ)⁻¹) - 1 < rm}) = Set.univ := by
      refine Set.eq_univ_of_forall fun L => ?_
      obtain ⟨n, hn⟩ := exists_nat_gt (√(L / (4 * Real.pi * F)) ^ 2)
      refine Set.mem_iUnion.2 ⟨n, ?_⟩
      show √(L / (4 * Real.pi * F)) * √(((n + 1 : ℕ) : ℝ)⁻¹) - 1 < rm
      have h3 : 0 < ((n + 1 : ℕ) : ℝ) := by positivity
      have h4 : √(L / (4 * Real.pi * F)) ≤ √((n + 1 : ℕ) : ℝ) := by
        refine Real.le_sqrt_of_sq_le (hn.le.trans ?_)
        push_cast
        linarith
      rw [Real.sqrt_inv]
      have h5 : √(L / (4 * Real.pi * F)) * (√((n + 1 : ℕ) : ℝ))⁻¹ ≤ 1 := by
        rw [← div_eq_mul_inv, div_le_one (Real.sqrt_pos.2 h3)]
        exact h4
      linarith
    rw [h2] at h1
    simp at h1
  have hs : Spec.noiseLaw (some sigma) (Set.Iic (-((n + 1 : ℕ) : ℝ))) ≠ 0 := by
    obtain ⟨v, hv, hg⟩ := noise_gauss sigma
    have hv0 : v ≠ 0 := by
      rintro rfl
      exact hsigma (by simpa using hv.symm)
    rw [hg]
    intro h0
    have := ProbabilityTheory.gaussianReal_absolutelyContinuous' 0 hv0 h0
    simp at this
  calc ∫⁻ z, shiftedCount lambda rm F μL b z ∂(Spec.noiseLaw (some sigma))
      < ∫⁻ _, ENNReal.ofReal (lambda * Spec.ballVolume rm) ∂(Spec.noiseLaw (some sigma)) := by
        have hfin : ∫⁻ z, shiftedCount lambda rm F μL b z ∂(Spec.noiseLaw (some sigma)) ≠ ∞ :=
          ne_top_of_le_ne_top (b := ∫⁻ _, ENNReal.ofReal (lambda * Spec.ballVolume rm)
            ∂(Spec.noiseLaw (some sigma))) (by simp) (lintegral_mono hle)
        refine lintegral_strict_mono_of_ae_le_of_ae_lt_on aemeasurable_const hfin
          (Eventually.of_forall hle) hs (Eventually.of_forall fun z hz => ?_)
        have hz' : Spec.errorFactor b z ≤ ((n + 1 : ℕ) : ℝ)⁻¹ := by
          refine (errorFactor_mono b hz).trans ?_
          rw [errorFactor_neg]
          exact inv_anti₀ (by positivity) (errorFactor_grows b (n + 1))
        calc shiftedCount lambda rm F μL b z
            < ∫⁻ _, ENNReal.ofReal (lambda * Spec.ballVolume rm) ∂μL := by
              refine lintegral_strict_mono_of_ae_le_of_ae_lt_on aemeasurable_const
                (ne_top_of_le_ne_top ENNReal.ofReal_ne_top (hle z))
                (Eventually.of_forall fun L => ENNReal.ofReal_le_ofReal
                  (mul_le_mul_of_nonneg_left (hV _) hl.le)) hn (Eventually.of_forall fun L hL => ?_)
              refine (ENNReal.ofReal_lt_ofReal_iff (mul_pos hl hVpos)).2
                (mul_lt_mul_of_pos_left (hVlt _ ?_) hl)
              rw [reach_factor hF (errorFactor_pos b z)]
              refine lt_of_le_of_lt ?_ hL
              have h6 := mul_le_mul_of_nonneg_left (Real.sqrt_le_sqrt hz')
                (Real.sqrt_nonneg (L / (4 * Real.pi * F)))
              linarith
          _ = _ := by simp
    _ = _ := by simp

end sphere

section survey
variable {G : Type} [MeasurableSpace G] {P : Measure G} [IsProbabilityMeasure P]
  {e : SurveyEnv ℝ G} {env : DistEnv ℝ G}
  {tr : List ℝ → List ℝ → Except Err (List ℝ)} {y : Synth ℝ} {a : SurveyArgs ℝ} {s : SurvSt ℝ G}
  {rm m lambda F sigma : ℝ} {Λ : ℝ≥0} {μL : Measure ℝ}

/-- **C95** (a survey): the number of detections of a survey with measurement errors, a hard flux
limit and constant density is a Poisson number, with a mean that is higher than that of the survey
without errors (C78). -/
theorem C95_survey (he : Spec.Precise e) (hF : 0 < F) (hl : 0 < lambda)
    (h : Spec.Lawful P e env constantSpherical tr y a s sphericalFluxes rm m [lambda] μL
      ((Set.Ici F).indicator 1))
    (hs : Spec.sigmaUsed (s.heap.selectors y.fluxSel).kind a = some sigma) (hsigma : sigma ≠ 0)
    (hg : Spec.GridMax env)
    (hq : (env.quad rm).eval (constantSpherical.dens [lambda]) =
      ∫ r in (0)..rm, constantSpherical.dens [lambda] r)
    (hc : Spec.Counted P e env constantSpherical a rm [lambda] Λ)
    (hpos : ∀ᵐ L ∂μL, 0 < L)
    (hin : ∀ᵐ L ∂μL, 2 * Spec.ballVolume (Spec.reach F L) < Spec.ballVolume rm)
    (hsome : μL {L | 0 < Spec.reach F L} ≠ 0)
    (showProgress : Bool) (galB : List ℝ → List ℝ → List ℝ) :
    ∃ M : ℝ≥0, Spec.ballCounts lambda (Spec.reach F) μL < M ∧
      Spec.Samples P (ProbabilityTheory.poissonMeasure M)
        fun k g n g' => ∃ Q s',
          drawSurvey (Spec.surveyEnv e env constantSpherical.code showProgress tr galB k g) y a s =
            .ok Q s' ∧ s'.heap.rng = g' ∧ Q.nDetections = n := by
  have i1 := h.lumProb
  obtain ⟨hm, hΛ⟩ := sphere_mean hl.le h hg hq hc
  have h1 := C77_counts h hc hm hΛ showProgress galB
  rw [hs] at h1
  refine ⟨_, ?_, Samples.mapTo h1 measurePreserving_fst fun k g v g' ⟨Q, s', q1, q2, q3, _⟩ =>
    ⟨Q, s', q1, q2, q3⟩⟩
  have hlt := C95_gain_strict he hF h.radius.2.le hpos sigma a.log10Draw hl hsigma hin hsome
  rw [ENNReal.coe_toNNReal]
  · exact hlt
  · refine ne_top_of_le_ne_top (b := (Λ : ℝ≥0∞)) ENNReal.coe_ne_top ?_
    rw [hΛ]
    unfold Spec.expected
    refine lintegral_mono fun r => ?_
    refine mul_le_of_le_one_right' ?_
    calc _ ≤ ∫⁻ _, ∫⁻ _, 1 ∂(Spec.noiseLaw (some sigma)) ∂μL :=
          lintegral_mono fun l => lintegral_mono fun z => h.le_one _
      _ = 1 := by simp

end survey

namespace LawExample

/-- The sphere with log-uniform luminosities, a hard flux limit and measurement errors. -/
theorem lawful3 : Spec.Lawful seeds survey2 env constantSpherical
    (fun ls ds => .ok (List.zipWith sphericalFluxes ls ds)) synth args state2
    sphericalFluxes 10 (constantSpherical.dens [5] 10) [5] lums ((Set.Ici (1 / 100)).indicator 1) := by
  have hsig : Spec.sigmaUsed (state2.heap.selectors synth.fluxSel).kind args = some (1 / 2) := rfl
  have h := lawful
  have h2 := lawful2
  exact
    { plain := ⟨rfl, by simp [synth], rfl, rfl, by simp [synth], ⟨rfl, rfl⟩, rfl, by simp [synth], fun t => ⟨_, rfl⟩⟩
      uniform := fair
      lt := h.lt
      thetaOf := h.thetaOf
      twoPi := h.twoPi
      plainCount := rfl
      declared := h.declared
      unique := h.unique
      norm := h.norm
      radius := h.radius
      values := h.values
      highest := h.highest
      density := h.density
      somewhere := h.somewhere
      fluxes := sphericalFluxes_measurable
      transforms := fun _ _ _ => rfl
      lumProb := luminous2.1
      luminosity := fun n => (C76_survey luminous2 n).2
      noise := fun sigma hs => h.noise sigma hs
      observed := h.observed
      finite := Filter.Eventually.of_forall fun x _ => rfl
      detects := h2.detects }

/-- Errors of half a decade make this survey detect more objects. -/
example (showProgress : Bool) :
    ∃ M : ℝ≥0, Spec.ballCounts 5 (Spec.reach (1 / 100)) lums < M ∧
      Spec.Samples seeds (ProbabilityTheory.poissonMeasure M)
        fun k g n g' => ∃ Q s',
          drawSurvey (Spec.surveyEnv survey2 env constantSpherical.code showProgress
            (fun ls ds => .ok (List.zipWith sphericalFluxes ls ds)) (fun a _ => a) k g) synth args state2 =
            .ok Q s' ∧ s'.heap.rng = g' ∧ Q.nDetections = n := by
  have hp := Real.pi_gt_d2
  have hp4 := Real.pi_lt_four
  have i1 := luminous2.1
  have h1 : ∀ᵐ L ∂lums, L ∈ Set.Icc (1 : ℝ) 10 :=
    (withDensity_absolutelyContinuous _ _).ae_le (ae_restrict_mem measurableSet_Icc)
  have h2 : ∀ L ∈ Set.Icc (1 : ℝ) 10, 0 < Spec.reach (1 / 100) L ∧ Spec.reach (1 / 100) L ≤ 793 / 100 := by
    intro L hL
    unfold Spec.reach
    constructor
    · rw [sub_pos, Real.lt_sqrt (by norm_num), lt_div_iff₀ (by positivity)]
      nlinarith [hL.1]
    · have : √(L / (4 * Real.pi * (1 / 100))) ≤ 893 / 100 := by
        rw [Real.sqrt_le_left (by norm_num), div_le_iff₀ (by positivity)]
        nlinarith [hL.2]
      linarith
  refine C95_survey (sigma := 1 / 2) (Λ := mean) ⟨fun _ _ => rfl, fun _ _ => rfl, fun _ => rfl, fun _ _ => rfl, fun _ => rfl⟩
    (by norm_num) (by norm_num) lawful3 rfl (by norm_num) gridMax ?_ ⟨rfl, counted.poisson, counted.mean⟩
    (h1.mono fun L hL => by linarith [hL.1]) (h1.mono fun L hL => ?_) ?_ showProgress _
  · rw [← counted.mean]
    simp only [constantSpherical_dens, sphereVolume]
    rw [show (fun r : ℝ => 5 * (4 * Real.pi * r * r) / 1) = fun r => 20 * Real.pi * r ^ 2 by
      funext r; ring, intervalIntegral.integral_const_mul, integral_pow]
    show (20000 * Real.pi / 3 : ℝ) = _
    norm_num
    ring
  · obtain ⟨k1, k2⟩ := h2 L hL
    unfold Spec.ballVolume
    rw [max_eq_right k1.le, max_eq_right (by norm_num : (0 : ℝ) ≤ 10)]
    have k3 : Spec.reach (1 / 100) L ^ 3 ≤ (793 / 100) ^ 3 := pow_le_pow_left₀ k1.le k2 3
    have k4 := mul_le_mul_of_nonneg_left k3 (by positivity : 0 ≤ 4 / 3 * Real.pi)
    have k5 : 4 / 3 * Real.pi * (2 * (793 / 100) ^ 3) < 4 / 3 * Real.pi * 10 ^ 3 :=
      mul_lt_mul_of_pos_left (by norm_num) (by positivity)
    linarith
  · have : ∀ᵐ L ∂lums, L ∈ {L | 0 < Spec.reach (1 / 100) L} := h1.mono fun L hL => (h2 L hL).1
    rw [(measure_eq_measure_of_null_sdiff (Set.subset_univ _) (by
      rw [← Set.compl_eq_univ_diff]; exact this) : lums _ = lums Set.univ)]
    rw [measure_univ]
    norm_num

end LawExample
end Popsynth
