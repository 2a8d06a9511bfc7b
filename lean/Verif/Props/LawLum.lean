import Verif.Lemmas.LumLaw

/-!
# Luminosities follow the luminosity function (C76)
-/

set_option autoImplicit false
set_option linter.unusedSectionVars false

open MeasureTheory ProbabilityTheory
open scoped ENNReal

namespace Popsynth

theorem lumLaw_congr {f f' : ℝ → ℝ} {s : Set ℝ} (hs : MeasurableSet s) (h : Set.EqOn f f' s) :
    Spec.lumLaw f s = Spec.lumLaw f' s := by
  unfold Spec.lumLaw
  refine withDensity_congr_ae ?_
  filter_upwards [ae_restrict_mem hs] with x hx
  rw [h hx]

variable {G : Type} [MeasurableSpace G] {P : Measure G} [IsProbabilityMeasure P]
  {env : LumEnv G} {lum : Lum ℝ}

instance uniform_one : IsProbabilityMeasure (Spec.uniformLaw 1) := uniformLaw_prob one_pos

/-! ### Pareto -/

/-- The Pareto density. -/
noncomputable def Spec.paretoDensity (lmin alpha x : ℝ) : ℝ := alpha * lmin ^ alpha / x ^ (alpha + 1)

theorem paretoDensity_eq {lmin alpha x : ℝ} (hl : 0 < lmin) (hx : lmin ≤ x) :
    paretoPhi .float lmin alpha x = some (Spec.paretoDensity lmin alpha x) := by
  rw [paretoPhi_eq hl hx, Real.rpow_neg (hl.trans_le hx).le, ← div_eq_mul_inv]
  rfl

/-- Pareto numbers from uniform numbers. -/
theorem pareto_transform {lmin alpha : ℝ} (hl : 0 < lmin) (ha : 0 < alpha) :
    ∃ S : ℝ → ℝ, (∀ u, paretoDraw lmin alpha u = .ok (S u)) ∧
      (∀ u ∈ Set.Ico (0 : ℝ) 1, lmin ≤ S u) ∧
      (S = fun u => Real.exp (-Real.log (1 - u) / alpha) * lmin) ∧
      MeasurePreserving S (Spec.uniformLaw 1)
        (Spec.lumLaw (Spec.paretoDensity lmin alpha) (Set.Ici lmin)) := by
  obtain ⟨S, s1, s2, s3⟩ := C50_pareto_draw_partial hl ha
  have se : S = fun u => Real.exp (-Real.log (1 - u) / alpha) * lmin := by
    funext u
    have := s1 u
    unfold paretoDraw npPareto at this
    rw [if_pos ha] at this
    simp only [bind, Except.bind, pure, Except.pure, sub_add_cancel, Except.ok.injEq] at this
    exact this.symm
  have sm : Measurable S := by
    rw [se]
    have := Real.measurable_log
    fun_prop
  have hS := law_of_mass sm measurableSet_Ici (C50_pareto_partial hl ha).1
    (μ := Spec.uniformLaw 1) fun t => by
      have := uniformLaw_Ico {u | S u ≤ t}
      simp only [Set.mem_ofPred_eq] at this
      rw [this]
      by_cases ht : lmin ≤ t
      · exact s3 t ht
      · have e : {u | u ∈ Set.Ico (0 : ℝ) 1 ∧ S u ≤ t} = ∅ := by
          ext u
          refine ⟨fun hu => ht ((s2 u hu.1).trans hu.2), fun h => h.elim⟩
        have e' : Set.Ici lmin ∩ Set.Iic t = ∅ := by
          ext u
          exact ⟨fun hu => ht (le_trans hu.1 hu.2), fun h => h.elim⟩
        unfold Spec.massUpTo
        rw [e, e']; simp
  rw [lumLaw_congr measurableSet_Ici (f' := Spec.paretoDensity lmin alpha) fun x hx => by
    simp only [paretoDensity_eq hl hx, Option.getD_some]] at hS
  exact ⟨S, s1, s2, se, hS⟩

/-- **C76**, Pareto: luminosities are independent, none is below `Lmin`, and they follow the
Pareto law; the probability recorded for each is the density. -/
theorem C76_pareto (hf : Spec.FairNumbers P env (gaussianReal 0 1)) {lmin alpha : ℝ}
    (h1 : Spec.LumHas bPareto lum.params "Lmin" lmin)
    (h2 : Spec.LumHas bPareto lum.params "alpha" alpha) (hl : 0 < lmin) (ha : 0 < alpha) :
    Spec.Luminous P (paretoLum env) lum
      (Spec.lumLaw (Spec.paretoDensity lmin alpha) (Set.Ici lmin))
      (Spec.paretoDensity lmin alpha) := by
  obtain ⟨S, s1, s2, -, hS⟩ := pareto_transform hl ha
  obtain ⟨o1, e1, k1⟩ := lumParam_keeps h2
  obtain ⟨o2, e2, k2⟩ := lumParam_keeps (k1 _ _ h1)
  obtain ⟨o3, e3, k3⟩ := lumParam_keeps (k2 _ _ (k1 _ _ h1))
  obtain ⟨o4, e4, k4⟩ := lumParam_keeps (k3 _ _ (k2 _ _ (k1 _ _ h2)))
  refine luminous_of (N := fun n g l g' => lumNumbers env.uniform n g = (l, g'))
    (fun n => array_samples hf.uniform n) hS uniformLaw_inside
    fun n g l g' hn hp hN => ⟨{ lum with params := o2 }, ?_, o4, ?_⟩
  · simp only [paretoLum, bind, EStateM.bind, onLumParams, e1, e2, lumArray, hN, pure, EStateM.pure,
      if_neg (not_le.2 ha), liftE, allOk_map (S := S) l fun x _ => s1 x]
  · have := finiteAll_map (f := paretoPhi .float lmin alpha) (S := Spec.paretoDensity lmin alpha)
      (l.map S) fun x hx => by
        obtain ⟨u, hu, rfl⟩ := List.mem_map.1 hx
        exact paretoDensity_eq hl (s2 u ⟨(hp u hu).1.le, (hp u hu).2⟩)
    simp only [paretoLum, bind, EStateM.bind, e3, e4, liftE, this, pure, EStateM.pure]

/-! ### Schechter -/

/-- The Schechter density. -/
noncomputable def Spec.schechterDensity (lmin alpha x : ℝ) : ℝ :=
  x ^ alpha * Real.exp (-x / lmin) / (lmin ^ (1 + alpha) * Real.Gamma (1 + alpha))

/-- **C76**, Schechter: luminosities are independent, positive and follow the Schechter law; the
probability recorded for each is the density. -/
theorem C76_schechter (hf : Spec.FairNumbers P env (gaussianReal 0 1))
    (hinv : Spec.IsGammaincinv env.gammaincinv) {lmin alpha : ℝ}
    (h1 : Spec.LumHas bSchechter lum.params "Lmin" lmin)
    (h2 : Spec.LumHas bSchechter lum.params "alpha" alpha) (hl : 0 < lmin) (ha : -1 < alpha) :
    Spec.Luminous P (schechterLum env) lum
      (Spec.lumLaw (Spec.schechterDensity lmin alpha) (Set.Ioi 0))
      (Spec.schechterDensity lmin alpha) := by
  obtain ⟨S, s1, -, s3⟩ := C50_schechter_draw_partial hinv hl ha
  have ha1 : 0 < 1 + alpha := by linarith
  have hanti : AntitoneOn S (Set.Ioo 0 1) := by
    have hX : ∀ u ∈ Set.Ioo (0 : ℝ) 1, ∃ x ≥ 0, S u = lmin * x ∧
        Spec.gammaInc (1 + alpha) x = (1 - u) * Real.Gamma (1 + alpha) := by
      intro u hu
      obtain ⟨x, x0, x1, x2⟩ := hinv.inverse _ ha1 (1 - u) ⟨by linarith [hu.2], by linarith [hu.1]⟩
      refine ⟨x, x0, ?_, x2⟩
      have := (s1 u hu).1
      unfold schechterDraw at this
      rw [x1] at this
      exact (Option.some.inj this).symm
    intro u hu v hv huv
    obtain ⟨x, x0, x1, x2⟩ := hX u hu
    obtain ⟨y, y0, y1, y2⟩ := hX v hv
    rw [x1, y1]
    refine mul_le_mul_of_nonneg_left ?_ hl.le
    rw [← (gammaInc_strictMonoOn ha1).le_iff_le (Set.mem_Ici.2 y0) (Set.mem_Ici.2 x0), x2, y2]
    exact mul_le_mul_of_nonneg_right (by linarith) (Real.Gamma_pos_of_pos ha1).le
  have eu : Spec.uniformLaw 1 = volume.restrict (Set.Ioo (0 : ℝ) 1) := by
    unfold Spec.uniformLaw
    rw [ENNReal.ofReal_one, inv_one, one_smul, Measure.restrict_congr_set Ioo_ae_eq_Icc.symm]
  have hm : AEMeasurable S (Spec.uniformLaw 1) := by
    rw [eu]; exact aemeasurable_restrict_of_antitoneOn measurableSet_Ioo hanti
  have hS := law_of_mass hm.measurable_mk measurableSet_Ioi (C50_schechter_partial hl ha)
    (μ := Spec.uniformLaw 1) fun t => by
      have e0 : Spec.uniformLaw 1 {u | hm.mk S u ≤ t} = Spec.uniformLaw 1 {u | S u ≤ t} := by
        refine measure_congr ?_
        filter_upwards [hm.ae_eq_mk] with u hu
        exact propext (by show hm.mk S u ≤ t ↔ S u ≤ t; rw [hu])
      have := uniformLaw_Ioo {u | S u ≤ t}
      simp only [Set.mem_ofPred_eq] at this
      rw [e0, this]
      by_cases ht : 0 < t
      · exact s3 t ht
      · have e : {u | u ∈ Set.Ioo (0 : ℝ) 1 ∧ S u ≤ t} = ∅ := by
          ext u
          refine ⟨fun hu => ht ((s1 u hu.1).2.trans_le hu.2), fun h => h.elim⟩
        have e' : Set.Ioi 0 ∩ Set.Iic t = ∅ := by
          ext u
          exact ⟨fun hu => ht (lt_of_lt_of_le (Set.mem_Ioi.1 hu.1) hu.2), fun h => h.elim⟩
        unfold Spec.massUpTo
        rw [e, e']; simp
  rw [lumLaw_congr measurableSet_Ioi (f' := Spec.schechterDensity lmin alpha) fun x hx => by
    simp only [schechterPhi_eq hl ha hx, Option.getD_some]; rfl] at hS
  obtain ⟨o1, e1, k1⟩ := lumParam_keeps h1
  obtain ⟨o2, e2, k2⟩ := lumParam_keeps (k1 _ _ h2)
  obtain ⟨o3, e3, k3⟩ := lumParam_keeps (k2 _ _ (k1 _ _ h2))
  obtain ⟨o4, e4, k4⟩ := lumParam_keeps (k3 _ _ (k2 _ _ (k1 _ _ h1)))
  refine luminous_of (N := fun n g l g' => lumNumbers env.uniform n g = (l, g'))
    (p := fun u => u ∈ Set.Ioo (0 : ℝ) 1 ∧ S u = hm.mk S u)
    (fun n => array_samples hf.uniform n) hS (uniformLaw_inside.and hm.ae_eq_mk)
    fun n g l g' hn hp hN => ⟨{ lum with params := o2 }, ?_, o4, ?_⟩
  · have := finiteAll_map (f := schechterDraw env.gammaincinv lmin alpha) (S := hm.mk S) l
      fun u hu => by rw [← (hp u hu).2]; exact (s1 u (hp u hu).1).1
    simp only [schechterLum, bind, EStateM.bind, onLumParams, e1, e2, lumArray, hN, pure, EStateM.pure,
      liftE, this]
  · have := finiteAll_map (f := schechterPhi lmin alpha) (S := Spec.schechterDensity lmin alpha)
      (l.map (hm.mk S)) fun x hx => by
        obtain ⟨u, hu, rfl⟩ := List.mem_map.1 hx
        rw [← (hp u hu).2]
        exact schechterPhi_eq hl ha (s1 u (hp u hu).1).2
    simp only [schechterLum, bind, EStateM.bind, e3, e4, liftE, this, pure, EStateM.pure]

/-! ### Log-normal -/

/-- The log-normal density. -/
noncomputable def Spec.logNormalDensity (mu tau x : ℝ) : ℝ :=
  1 / (tau * x * √(2 * Real.pi)) * Real.exp (-(Real.log x - mu) ^ 2 / (2 * tau ^ 2))

theorem logNormalDensity_eq {mu tau x : ℝ} (ht : 0 < tau) (hx : 0 < x) :
    logNormalPhi mu tau x = some (Spec.logNormalDensity mu tau x) := by
  rw [logNormalPhi_eq ht hx]
  unfold lnFormula Spec.logNormalDensity
  rw [div_one]

/-- **C76**, log-normal: luminosities are independent, positive and follow the log-normal law;
the probability recorded for each is the density. -/
theorem C76_logNormal (hf : Spec.FairNumbers P env (gaussianReal 0 1)) {mu tau : ℝ}
    (h1 : Spec.LumHas bLogNormal lum.params "mu" mu)
    (h2 : Spec.LumHas bLogNormal lum.params "tau" tau) (ht : 0 < tau) :
    Spec.Luminous P (logNormalLum env) lum
      (Spec.lumLaw (Spec.logNormalDensity mu tau) (Set.Ioi 0))
      (Spec.logNormalDensity mu tau) := by
  obtain ⟨hd, S, s1, s3⟩ := C50_logNormal_partial (mu := mu) ht
  have sm : Measurable S := by
    have : S = fun z => Real.exp (mu + tau * z) := by
      funext z
      have := (s1 z).1
      unfold logNormalDraw at this
      rw [if_neg (not_lt.2 ht.le)] at this
      exact (Except.ok.inj this).symm
    rw [this]; fun_prop
  have hS := law_of_mass sm measurableSet_Ioi hd (μ := gaussianReal 0 1) fun t => by
      by_cases h0 : 0 < t
      · exact s3 t h0
      · have e : {z | S z ≤ t} = ∅ := by
          ext u
          refine ⟨fun hu => h0 ((s1 u).2.trans_le hu), fun h => h.elim⟩
        have e' : Set.Ioi 0 ∩ Set.Iic t = ∅ := by
          ext u
          exact ⟨fun hu => h0 (lt_of_lt_of_le (Set.mem_Ioi.1 hu.1) hu.2), fun h => h.elim⟩
        unfold Spec.massUpTo
        rw [e, e']; simp
  rw [lumLaw_congr measurableSet_Ioi (f' := Spec.logNormalDensity mu tau) fun x hx => by
    simp only [logNormalDensity_eq ht hx, Option.getD_some]] at hS
  obtain ⟨o1, e1, k1⟩ := lumParam_keeps h1
  obtain ⟨o2, e2, k2⟩ := lumParam_keeps (k1 _ _ h2)
  obtain ⟨o3, e3, k3⟩ := lumParam_keeps (k2 _ _ (k1 _ _ h2))
  obtain ⟨o4, e4, k4⟩ := lumParam_keeps (k3 _ _ (k2 _ _ (k1 _ _ h1)))
  refine luminous_of (N := fun n g l g' => lumNumbers env.normal n g = (l, g')) (p := fun _ => True)
    (fun n => array_samples hf.normal n) hS (Filter.Eventually.of_forall fun _ => trivial)
    fun n g l g' hn hp hN => ⟨{ lum with params := o2 }, ?_, o4, ?_⟩
  · simp only [logNormalLum, bind, EStateM.bind, onLumParams, e1, e2, lumArray, hN, pure, EStateM.pure,
      if_neg (not_lt.2 ht.le), liftE, allOk_map (S := S) l fun x _ => (s1 x).1]
  · have := finiteAll_map (f := logNormalPhi mu tau) (S := Spec.logNormalDensity mu tau)
      (l.map S) fun x hx => by
        obtain ⟨u, hu, rfl⟩ := List.mem_map.1 hx
        exact logNormalDensity_eq ht (s1 u).2
    simp only [logNormalLum, bind, EStateM.bind, e3, e4, liftE, this, pure, EStateM.pure]

/-! ### Log10-normal -/

/-- The density of a number whose decimal logarithm is normal. -/
noncomputable def Spec.log10NormalDensity (mu tau x : ℝ) : ℝ :=
  1 / (Real.log 10 * tau * x * √(2 * Real.pi)) *
    Real.exp (-(Real.logb 10 x - mu) ^ 2 / (2 * tau ^ 2))

theorem log10_pos : 0 < Real.log 10 := Real.log_pos (by norm_num)

theorem log10NormalDensity_eq {mu tau x : ℝ} (ht : 0 < tau) (hx : 0 < x) :
    log10NormalPhi mu tau x = some (Real.log 10 * Spec.log10NormalDensity mu tau x) := by
  rw [log10NormalPhi_eq ht hx]
  have h := log10_pos
  have h2 : 0 < √(2 * Real.pi) := Real.sqrt_pos.2 (by positivity)
  unfold lnFormula Spec.log10NormalDensity Real.logb
  congr 1
  rw [← mul_assoc]
  congr 1
  field_simp

/-- **C76**, log10-normal: luminosities are independent, positive, and their decimal logarithms
are normal.  Missing: the probability recorded for each is not the density but `log 10` times
that, see `C76_violated_log10`. -/
theorem C76_log10Normal_partial (hf : Spec.FairNumbers P env (gaussianReal 0 1)) {mu tau : ℝ}
    (h1 : Spec.LumHas bLog10Normal lum.params "mu" mu)
    (h2 : Spec.LumHas bLog10Normal lum.params "tau" tau) (ht : 0 < tau) :
    Spec.Luminous P (log10NormalLum env) lum
      (Spec.lumLaw (Spec.log10NormalDensity mu tau) (Set.Ioi 0))
      (fun x => Real.log 10 * Spec.log10NormalDensity mu tau x) := by
  have h10 := log10_pos
  obtain ⟨hn, S, s1, s3⟩ := C50_log10Normal_partial (mu := mu) ht
  have eq : Set.EqOn (fun x => (log10NormalPhi mu tau x).getD 0)
      (fun x => Real.log 10 * Spec.log10NormalDensity mu tau x) (Set.Ioi 0) := fun x hx => by
    simp only [log10NormalDensity_eq ht hx, Option.getD_some]
  have hI : IntegrableOn (Spec.log10NormalDensity mu tau) (Set.Ioi 0) := by
    have := ((lnFormula_univ (mu := mu) h10 ht).1.const_mul (Real.log 10)⁻¹)
    refine IntegrableOn.congr_fun this (fun x hx => ?_) measurableSet_Ioi
    have a := log10NormalPhi_eq (mu := mu) ht hx
    rw [log10NormalDensity_eq ht hx] at a
    simp only [← Option.some.inj a]
    field_simp
  have hd : Spec.DensityOn (fun x => some (Spec.log10NormalDensity mu tau x)) (Set.Ioi 0) := by
    refine ⟨fun x hx => ⟨_, ?_, rfl⟩, by simpa using hI, ?_⟩
    · unfold Spec.log10NormalDensity
      have : 0 < x := hx
      positivity
    · simp only [Option.getD_some]
      have := (C50_violated_log10 (mu := mu) ht).1
      rw [setIntegral_congr_fun measurableSet_Ioi eq, MeasureTheory.integral_const_mul] at this
      exact mul_left_cancel₀ h10.ne' (this.trans (mul_one _).symm)
  have sm : Measurable S := by
    have : S = fun z => (10 : ℝ) ^ (mu + tau * z) := by
      funext z
      have := (s1 z).1
      unfold log10NormalDraw at this
      rw [if_neg (not_lt.2 ht.le)] at this
      exact (Except.ok.inj this).symm
    rw [this]
    exact measurable_const.pow (by fun_prop)
  have hS := law_of_mass sm measurableSet_Ioi hd (μ := gaussianReal 0 1) fun t => by
      by_cases h0 : 0 < t
      · rw [s3 t h0]
        unfold Spec.massUpTo
        rw [setIntegral_congr_fun (measurableSet_Ioi.inter measurableSet_Iic)
          (eq.mono Set.inter_subset_left), MeasureTheory.integral_const_mul, ← mul_assoc,
          one_div_mul_cancel h10.ne', one_mul]
        rfl
      · have e : {z | S z ≤ t} = ∅ := by
          ext u
          refine ⟨fun hu => h0 ((s1 u).2.trans_le hu), fun h => h.elim⟩
        have e' : Set.Ioi 0 ∩ Set.Iic t = ∅ := by
          ext u
          exact ⟨fun hu => h0 (lt_of_lt_of_le (Set.mem_Ioi.1 hu.1) hu.2), fun h => h.elim⟩
        unfold Spec.massUpTo
        rw [e, e']; simp
  simp only [Option.getD_some] at hS
  obtain ⟨o1, e1, k1⟩ := lumParam_keeps h1
  obtain ⟨o2, e2, k2⟩ := lumParam_keeps (k1 _ _ h2)
  obtain ⟨o3, e3, k3⟩ := lumParam_keeps (k2 _ _ (k1 _ _ h2))
  obtain ⟨o4, e4, k4⟩ := lumParam_keeps (k3 _ _ (k2 _ _ (k1 _ _ h1)))
  refine luminous_of (N := fun n g l g' => lumNumbers env.normal n g = (l, g')) (p := fun _ => True)
    (fun n => array_samples hf.normal n) hS (Filter.Eventually.of_forall fun _ => trivial)
    fun n g l g' hn hp hN => ⟨{ lum with params := o2 }, ?_, o4, ?_⟩
  · simp only [log10NormalLum, bind, EStateM.bind, onLumParams, e1, e2, lumArray, hN, pure, EStateM.pure,
      if_neg (not_lt.2 ht.le), liftE, allOk_map (S := S) l fun x _ => (s1 x).1]
  · have := finiteAll_map (f := log10NormalPhi mu tau)
      (S := fun x => Real.log 10 * Spec.log10NormalDensity mu tau x)
      (l.map S) fun x hx => by
        obtain ⟨u, hu, rfl⟩ := List.mem_map.1 hx
        exact log10NormalDensity_eq ht (s1 u).2
    simp only [log10NormalLum, bind, EStateM.bind, e3, e4, liftE, this, pure, EStateM.pure]

/-- **C76 is violated** by the log10-normal distribution: the probability recorded for a
luminosity is more than twice the density of the law it was drawn from. -/
theorem C76_violated_log10 {mu tau x : ℝ} (ht : 0 < tau) (hx : 0 < x) :
    0 < Spec.log10NormalDensity mu tau x ∧
    ∃ v, log10NormalPhi mu tau x = some v ∧ 2 * Spec.log10NormalDensity mu tau x < v := by
  have h10 := log10_pos
  have hpos : 0 < Spec.log10NormalDensity mu tau x := by
    unfold Spec.log10NormalDensity
    have h2 : 0 < √(2 * Real.pi) := Real.sqrt_pos.2 (by positivity)
    positivity
  refine ⟨hpos, _, log10NormalDensity_eq ht hx, ?_⟩
  exact mul_lt_mul_of_pos_right (C50_violated_log10 (mu := mu) ht).2.1 hpos

/-! ### Log-uniform -/

/-- The log-uniform density. -/
noncomputable def Spec.logUniDensity (lmin lmax x : ℝ) : ℝ := 1 / (x * Real.log (lmax / lmin))

theorem logUniDensity_eq {lmin lmax x : ℝ} (hl : 0 < lmin) (hh : lmin < lmax) (hx : lmin ≤ x) :
    logUniPhi lmin lmax x = some (Spec.logUniDensity lmin lmax x) := by
  have hx0 : 0 < x := hl.trans_le hx
  rw [logUniPhi_eq hl hh hx0, Real.rpow_neg_one]
  unfold Spec.logUniDensity
  rw [one_div, one_div, mul_inv, mul_comm]

/-- **C76**, log-uniform: luminosities are independent, within their limits, and follow the
log-uniform law; the probability recorded for each is the density. -/
theorem C76_logUniform (hf : Spec.FairNumbers P env (gaussianReal 0 1)) {lmin lmax : ℝ}
    (h1 : Spec.LumHas bLogUni lum.params "Lmin" lmin)
    (h2 : Spec.LumHas bLogUni lum.params "Lmax" lmax) (hl : 0 < lmin) (hh : lmin < lmax) :
    Spec.Luminous P (logUniLum env) lum
      (Spec.lumLaw (Spec.logUniDensity lmin lmax) (Set.Icc lmin lmax))
      (Spec.logUniDensity lmin lmax) := by
  obtain ⟨hd, S, s1, s2, s3⟩ := C50_logUniform_partial hl hh
  have sm : Measurable S := by
    have : S = fun u => Real.exp (Real.log lmin + u * (Real.log lmax - Real.log lmin)) := by
      funext u
      have := s1 u
      unfold logUniDraw at this
      rw [if_pos ⟨hl, hh⟩] at this
      exact (Except.ok.inj this).symm
    rw [this]; fun_prop
  have hS := law_of_mass sm measurableSet_Icc hd (μ := Spec.uniformLaw 1) fun t => by
      have := uniformLaw_Ico {u | S u ≤ t}
      simp only [Set.mem_ofPred_eq] at this
      by_cases ht : lmin ≤ t
      · by_cases ht' : t ≤ lmax
        · rw [this]; exact s3 t ⟨ht, ht'⟩
        · have e' : Set.Icc lmin lmax ∩ Set.Iic t = Set.Icc lmin lmax :=
            Set.inter_eq_left.2 fun x hx => hx.2.trans (not_le.1 ht').le
          have e : {u | u ∈ Set.Ico (0 : ℝ) 1 ∧ S u ≤ t} = Set.Ico 0 1 := by
            ext u
            exact ⟨fun h => h.1, fun h => ⟨h, (s2 u h).2.trans (not_le.1 ht').le⟩⟩
          unfold Spec.massUpTo
          rw [this, e, e', hd.one, Real.volume_Ico]; simp
      · have e : {u | u ∈ Set.Ico (0 : ℝ) 1 ∧ S u ≤ t} = ∅ := by
          ext u
          refine ⟨fun hu => ht ((s2 u hu.1).1.trans hu.2), fun h => h.elim⟩
        have e' : Set.Icc lmin lmax ∩ Set.Iic t = ∅ := by
          ext u
          exact ⟨fun hu => ht (le_trans hu.1.1 hu.2), fun h => h.elim⟩
        unfold Spec.massUpTo
        rw [this, e, e']; simp
  rw [lumLaw_congr measurableSet_Icc (f' := Spec.logUniDensity lmin lmax) fun x hx => by
    simp only [logUniDensity_eq hl hh hx.1, Option.getD_some]] at hS
  obtain ⟨o1, e1, k1⟩ := lumParam_keeps h1
  obtain ⟨o2, e2, k2⟩ := lumParam_keeps (k1 _ _ h2)
  obtain ⟨o3, e3, k3⟩ := lumParam_keeps (k2 _ _ (k1 _ _ h2))
  obtain ⟨o4, e4, k4⟩ := lumParam_keeps (k3 _ _ (k2 _ _ (k1 _ _ h1)))
  refine luminous_of (N := fun n g l g' => lumNumbers env.uniform n g = (l, g'))
    (fun n => array_samples hf.uniform n) hS uniformLaw_inside
    fun n g l g' hn hp hN => ⟨{ lum with params := o2 }, ?_, o4, ?_⟩
  · have hc : ¬ (lmin ≤ 0 ∨ lmax ≤ lmin) := by
      rintro (h | h) <;> linarith
    simp only [logUniLum, bind, EStateM.bind, onLumParams, e1, e2, lumArray, hN, pure, EStateM.pure,
      if_neg hc, liftE, allOk_map (S := S) l fun x _ => s1 x]
  · have := finiteAll_map (f := logUniPhi lmin lmax) (S := Spec.logUniDensity lmin lmax)
      (l.map S) fun x hx => by
        obtain ⟨u, hu, rfl⟩ := List.mem_map.1 hx
        exact logUniDensity_eq hl hh (s2 u ⟨(hp u hu).1.le, (hp u hu).2⟩).1
    simp only [logUniLum, bind, EStateM.bind, e3, e4, liftE, this, pure, EStateM.pure]

/-! ### A single luminosity -/

/-- **C76**, a single luminosity: every luminosity is `Lp`, with probability one recorded. -/
theorem C76_delta {lp : ℝ} (h1 : Spec.LumHas bDelta lum.params "Lp" lp) :
    Spec.Luminous P deltaLum lum (Measure.dirac lp) (fun x => deltaPhi lp x) ∧
      deltaPhi lp lp = 1 := by
  refine ⟨?_, by unfold deltaPhi; rw [if_pos rfl]⟩
  obtain ⟨o1, e1, k1⟩ := lumParam_keeps h1
  obtain ⟨o2, e2, k2⟩ := lumParam_keeps (k1 _ _ h1)
  have hone : Spec.Samples P (Measure.dirac lp) fun _ g x g' => x = lp ∧ g' = g := by
    refine ⟨fun g => (lp, g), ⟨by fun_prop, ?_⟩,
      Filter.Eventually.of_forall fun g => Filter.Eventually.of_forall fun k => ⟨rfl, rfl⟩⟩
    rw [Measure.dirac_prod]
  have hrep : ∀ k (l : List ℝ) (g g' : G),
      Repeats (fun _ g x g' => x = lp ∧ g' = g) k l g g' → l = List.replicate l.length lp ∧ g' = g := by
    intro k l
    induction l with
    | nil => intro g g' h; exact ⟨rfl, h⟩
    | cons x l ih =>
      rintro g g' ⟨g1, ⟨rfl, rfl⟩, h⟩
      obtain ⟨a, b⟩ := ih _ _ h
      exact ⟨by rw [List.length_cons, List.replicate_succ, ← a], b⟩
  refine luminous_of (N := fun n g l g' => l = List.replicate n lp ∧ g' = g) (p := fun _ => True)
    (fun n => Samples.mono (Samples.repeat hone n) fun k g v g' h => by
      have := hrep k _ _ _ h
      rwa [List.length_ofFn] at this)
    (MeasurePreserving.id _) (Filter.Eventually.of_forall fun _ => trivial)
    fun n g l g' hn hp hN => ⟨{ lum with params := o1 }, ?_, o2, ?_⟩
  · obtain ⟨rfl, rfl⟩ := hN
    simp only [deltaLum, bind, EStateM.bind, onLumParams, e1, pure, EStateM.pure, deltaDraw, List.map_id]
  · simp only [deltaLum, bind, EStateM.bind, e2, pure, EStateM.pure]

/-! ### Broken power law -/

theorem coinLaw_prob {q : ℝ} (h0 : 0 ≤ q) (h1 : q ≤ 1) : IsProbabilityMeasure (Spec.coinLaw q) := by
  constructor
  unfold Spec.coinLaw
  simp only [Measure.add_apply, Measure.smul_apply, measure_univ, smul_eq_mul, mul_one]
  rw [← ENNReal.ofReal_add h0 (by linarith)]
  simp

/-- The probability of an event that depends on a uniform number and a coin. -/
theorem coin_event {q : ℝ} (h0 : 0 ≤ q) (h1 : q ≤ 1) {A : Set (ℝ × Bool)} (hA : MeasurableSet A) :
    ((Spec.uniformLaw 1).prod (Spec.coinLaw q)) A =
      ENNReal.ofReal (q * (volume {u : ℝ | u ∈ Set.Ico (0 : ℝ) 1 ∧ (u, true) ∈ A}).toReal +
        (1 - q) * (volume {u : ℝ | u ∈ Set.Ico (0 : ℝ) 1 ∧ (u, false) ∈ A}).toReal) := by
  have := coinLaw_prob h0 h1
  have hv : ∀ b, Spec.uniformLaw 1 ((fun u => (u, b)) ⁻¹' A) =
      ENNReal.ofReal (volume {u : ℝ | u ∈ Set.Ico (0 : ℝ) 1 ∧ (u, b) ∈ A}).toReal := fun b => by
    have e := uniformLaw_Ico {u | (u, b) ∈ A}
    simp only [Set.mem_ofPred_eq] at e
    rw [ENNReal.ofReal_toReal, ← e]
    · rfl
    · refine ne_top_of_le_ne_top (b := volume (Set.Ico (0 : ℝ) 1)) (by simp) (measure_mono ?_)
      exact fun u hu => hu.1
  rw [Measure.prod_apply_symm hA]
  unfold Spec.coinLaw
  rw [lintegral_add_measure, lintegral_smul_measure, lintegral_smul_measure, lintegral_dirac,
    lintegral_dirac, hv, hv, ENNReal.ofReal_add (by positivity)
      (mul_nonneg (by linarith) ENNReal.toReal_nonneg), ENNReal.ofReal_mul h0,
    ENNReal.ofReal_mul (by linarith)]
  rfl

/-- Broken power law numbers from uniform numbers and coins. -/
theorem bpl_transform {lmin lbreak lmax alpha beta : ℝ}
    (h : Spec.BplParams lmin lbreak lmax alpha beta) :
    ∃ (p : ℝ → ℝ) (w1 w2 c : ℝ) (T : ℝ × Bool → ℝ),
      (∀ x, bplAt .float lmin lbreak lmax alpha beta x = some (p x)) ∧ Spec.IsDensity p ∧
      Spec.IsBrokenPowerLaw p lmin lbreak lmax alpha beta ∧ ContinuousAt p lbreak ∧
      integratePl lmin lbreak lmax alpha beta = some (w1, w2, c) ∧ 0 ≤ w1 ∧ w1 ≤ 1 ∧
      (∀ (u : ℝ) (b : Bool), u ∈ Set.Ico (0 : ℝ) 1 →
        (if b then pieceSample lmin lbreak alpha u else pieceSample lbreak lmax beta u) =
          some (T (u, b))) ∧
      MeasurePreserving T ((Spec.uniformLaw 1).prod (Spec.coinLaw w1)) (Spec.lumLaw p Set.univ) := by
  obtain ⟨p, p1, p2, p3, p4, -⟩ := C47_density h
  obtain ⟨w1, w2, c, hw, S, s1, s2⟩ := C48_law h
  obtain ⟨v1, v2, c', hw', w10, w20, wsum, -⟩ := C47_weights h
  rw [hw] at hw'
  obtain ⟨rfl, rfl, rfl⟩ : w1 = v1 ∧ w2 = v2 ∧ c = c' := by simpa using hw'
  have w0 : 0 ≤ w1 := w10.le
  have w11 : w1 ≤ 1 := by linarith
  have hprob := coinLaw_prob w0 w11
  have hd : Spec.DensityOn (bplAt .float lmin lbreak lmax alpha beta) Set.univ := by
    refine ⟨fun x _ => ⟨p x, p2.nonneg x, p1 x⟩, ?_, ?_⟩
    · simp only [p1, Option.getD_some]; exact p2.integrable.integrableOn
    · simp only [p1, Option.getD_some, Measure.restrict_univ]; exact p2.one
  let T : ℝ × Bool → ℝ := fun x => if x.2 then
      (x.1 * (lbreak ^ (alpha + 1) - lmin ^ (alpha + 1)) + lmin ^ (alpha + 1)) ^ (1 / (1 + alpha))
    else (x.1 * (lmax ^ (beta + 1) - lbreak ^ (beta + 1)) + lbreak ^ (beta + 1)) ^ (1 / (1 + beta))
  have hpiece : ∀ (u : ℝ) (b : Bool), u ∈ Set.Ico (0 : ℝ) 1 →
      (if b then pieceSample lmin lbreak alpha u else pieceSample lbreak lmax beta u) =
        some (T (u, b)) := by
    intro u b hu
    cases b
    · exact pieceSample_eq h.pos1 h.upper h.ne2 ⟨hu.1, hu.2.le⟩
    · exact pieceSample_eq h.pos h.lower h.ne1 ⟨hu.1, hu.2.le⟩
  have hTS : ∀ (b : Bool) (u : ℝ), u ∈ Set.Ico (0 : ℝ) 1 → T (u, b) = S b u := by
    intro b u hu
    have := s1 b u hu
    unfold sampleBpl at this
    rw [hw] at this
    simp only [if_pos (And.intro w0 w11), List.zipWith_cons_cons, List.zipWith_nil_left,
      hpiece u b hu] at this
    simpa using this
  have Tm : Measurable T := by
    refine Measurable.ite (measurable_snd (measurableSet_singleton true)) ?_ ?_ <;>
      exact Measurable.pow_const (by fun_prop) _
  have hS := law_of_mass Tm MeasurableSet.univ hd
    (μ := (Spec.uniformLaw 1).prod (Spec.coinLaw w1)) fun t => by
      rw [coin_event w0 w11 (measurableSet_le Tm measurable_const)]
      have e : ∀ b, {u : ℝ | u ∈ Set.Ico (0 : ℝ) 1 ∧ (u, b) ∈ {a | T a ≤ t}} =
          {u : ℝ | u ∈ Set.Ico (0 : ℝ) 1 ∧ S b u ≤ t} := fun b => by
        ext u
        refine and_congr_right fun hu => ?_
        show T (u, b) ≤ t ↔ _
        rw [hTS b u hu]
      rw [e, e, show 1 - w1 = w2 by linarith, s2 t]
      unfold Spec.massUpTo
      rw [Set.univ_inter]
  simp only [p1, Option.getD_some] at hS
  exact ⟨p, w1, w2, c, T, p1, p2, p3, p4, hw, w0, w11, hpiece, hS⟩

/-- **C76**, broken power law: luminosities are independent and follow a density that is a
continuous broken power law with the parameters of the object; the probability recorded for each
is the density. -/
theorem C76_bpl (hf : Spec.FairNumbers P env (gaussianReal 0 1)) {lmin lbreak lmax alpha beta : ℝ}
    (h1 : Spec.LumHas bBPL lum.params "Lmin" lmin)
    (h2 : Spec.LumHas bBPL lum.params "Lbreak" lbreak)
    (h3 : Spec.LumHas bBPL lum.params "Lmax" lmax)
    (h4 : Spec.LumHas bBPL lum.params "alpha" alpha)
    (h5 : Spec.LumHas bBPL lum.params "beta" beta)
    (h : Spec.BplParams lmin lbreak lmax alpha beta) :
    ∃ p : ℝ → ℝ, Spec.IsDensity p ∧ Spec.IsBrokenPowerLaw p lmin lbreak lmax alpha beta ∧
      ContinuousAt p lbreak ∧
      Spec.Luminous P (bplLum env) lum (Spec.lumLaw p Set.univ) p := by
  obtain ⟨p, w1, w2, c, T, p1, p2, p3, p4, hw, w0, w11, hpiece, hS⟩ := bpl_transform h
  refine ⟨p, p2, p3, p4, ?_⟩
  have hprob := coinLaw_prob w0 w11
  obtain ⟨o1, e1, k1⟩ := lumParam_keeps h1
  obtain ⟨o2, e2, k2⟩ := lumParam_keeps (k1 _ _ h2)
  obtain ⟨o3, e3, k3⟩ := lumParam_keeps (k2 _ _ (k1 _ _ h3))
  obtain ⟨o4, e4, k4⟩ := lumParam_keeps (k3 _ _ (k2 _ _ (k1 _ _ h4)))
  obtain ⟨o5, e5, k5⟩ := lumParam_keeps (k4 _ _ (k3 _ _ (k2 _ _ (k1 _ _ h5))))
  have K : ∀ m w, Spec.LumHas bBPL lum.params m w → Spec.LumHas bBPL o5 m w := fun m w hm =>
    k5 _ _ (k4 _ _ (k3 _ _ (k2 _ _ (k1 _ _ hm))))
  obtain ⟨q1, f1, j1⟩ := lumParam_keeps (K _ _ h1)
  obtain ⟨q2, f2, j2⟩ := lumParam_keeps (j1 _ _ (K _ _ h3))
  obtain ⟨q3, f3, j3⟩ := lumParam_keeps (j2 _ _ (j1 _ _ (K _ _ h2)))
  obtain ⟨q4, f4, j4⟩ := lumParam_keeps (j3 _ _ (j2 _ _ (j1 _ _ (K _ _ h4))))
  obtain ⟨q5, f5, j5⟩ := lumParam_keeps (j4 _ _ (j3 _ _ (j2 _ _ (j1 _ _ (K _ _ h5)))))
  have hN : ∀ n, Spec.Samples P (Spec.iid n ((Spec.uniformLaw 1).prod (Spec.coinLaw w1)))
      fun _ g v g' => ∃ g1, lumNumbers env.uniform n g = ((List.ofFn v).map Prod.fst, g1) ∧
        lumNumbers (env.bern w1) n g1 = ((List.ofFn v).map Prod.snd, g') := fun n =>
    Samples.mapTo (Samples.seq (array_samples hf.uniform n)
      (array_samples (hf.bern w1 w0 w11) n)
      (Q := fun _ g v g' => ∃ g1, lumNumbers env.uniform n g = (List.ofFn v.1, g1) ∧
        lumNumbers (env.bern w1) n g1 = (List.ofFn v.2, g'))
      fun k g a g1 b g2 ha hb => ⟨g1, ha, hb⟩) (iid_zip n _ _) fun k g v g' ⟨g1, ha, hb⟩ =>
        ⟨g1, by rw [ha, List.map_ofFn]; rfl, by rw [hb, List.map_ofFn]; rfl⟩
  have hin : ∀ᵐ x ∂((Spec.uniformLaw 1).prod (Spec.coinLaw w1)), x.1 ∈ Set.Ico (0 : ℝ) 1 :=
    Measure.quasiMeasurePreserving_fst.ae
      (uniformLaw_inside.mono fun u hu => Set.Ioo_subset_Ico_self hu)
  refine luminous_of (N := fun n g l g' => ∃ g1, lumNumbers env.uniform n g = (l.map Prod.fst, g1) ∧
      lumNumbers (env.bern w1) n g1 = (l.map Prod.snd, g')) hN hS hin
    fun n g l g' hn hp ⟨g1, ha, hb⟩ => ⟨{ lum with params := o5 }, ?_, q5, ?_⟩
  · have hz : List.zipWith (fun u (c : Bool) =>
        if c then pieceSample lmin lbreak alpha u else pieceSample lbreak lmax beta u)
        (l.map Prod.fst) (l.map Prod.snd) = l.map fun x => some (T x) := by
      clear ha hb hn
      revert hp
      clear * - hpiece
      intro hp
      induction l with
      | nil => rfl
      | cons x l ih =>
        simp only [List.map_cons, List.zipWith_cons_cons]
        exact congrArg₂ List.cons (hpiece x.1 x.2 (hp x (List.mem_cons_self ..)))
          (ih fun y hy => hp y (List.mem_cons_of_mem _ hy))
    have hsb : sampleBpl (l.map Prod.fst) (l.map Prod.snd) lmin lbreak lmax alpha beta =
        .ok (l.map fun x => some (T x)) := by
      unfold sampleBpl
      rw [hw]
      simp only [if_pos (And.intro w0 w11), hz]
    have hfin : finiteAll (l.map fun x => some (T x)) = .ok (l.map T) :=
      finiteAll_map l fun _ _ => rfl
    simp only [bplLum, bind, EStateM.bind, onLumParams, e1, e2, e3, e4, e5, lumArray, ha, hb, pure,
      EStateM.pure, hw, if_neg (not_not.2 (And.intro w0 w11)), liftE, hsb, hfin]
  · have := finiteAll_map (f := bplPhi .float lmin lbreak lmax alpha beta) (S := p)
      (l.map T) fun x _ => by rw [C47_phi h, p1]
    simp only [bplLum, bind, EStateM.bind, f1, f2, f3, f4, f5, liftE, this, pure, EStateM.pure]

end Popsynth
