import Verif.Props.ConfigLawExample

/-!
# Surveys with measurement errors drawn from a configuration (C87)

As in `Verif.Props.ConfigLaw`, but the fluxes are measured with normal errors of their logarithm
(`flux_sigma`, `log10_flux_draw` of `draw_survey`, population_synth.py:938-960, 1236-1285).
-/

set_option autoImplicit false
set_option linter.unusedSectionVars false

open MeasureTheory
open scoped NNReal ENNReal

namespace Popsynth
variable {G : Type} [MeasurableSpace G] {P : Measure G} [IsProbabilityMeasure P]

namespace Spec

/-- The flux that is measured for an object of flux `f` if the error of its logarithm is `x`. -/
noncomputable def measured (decimal : Bool) (f x : ℝ) : ℝ :=
  f * if decimal then 10 ^ x else Real.exp x

/-- The mean number of detected objects if fluxes are measured with normal errors of standard
deviation `sigma` of their logarithm. -/
noncomputable def meanMeasured (dens : ℝ → ℝ) (rm : ℝ) (flux : ℝ → ℝ → ℝ) (μL : Measure ℝ)
    (sigma : ℝ) (decimal : Bool) (p : ℝ → ℝ≥0∞) : ℝ≥0∞ :=
  ∫⁻ r in Set.Icc 0 rm, ENNReal.ofReal (dens r) * ∫⁻ l, ∫⁻ x, p (measured decimal (flux l r) x)
    ∂(ProbabilityTheory.gaussianReal 0 ⟨sigma ^ 2, sq_nonneg sigma⟩) ∂μL

end Spec

open Spec

variable {M : Machine G} {base : SurveyEnv ℝ G} {half : ℝ} {C : Conv ℝ} {d e : Dict (PVal ℝ)}
  {y : CSynth ℝ} {fuel : ℕ} {at' : String → ℕ} {sel : Role → ℕ} {code : ℕ → SamplerCode ℝ G}
  {s : SurvSt ℝ G} {dens : ℝ → ℝ} {flux : ℝ → ℝ → ℝ} {rm sigma : ℝ} {μL : Measure ℝ}
  {p : ℝ → ℝ≥0∞} {Λ : ℝ≥0} {decimal : Bool}

/-- A selection that ignores measurement errors selects everything. -/
theorem unity_certain (hy : Describes (builtins half) C d y) {lg : ℝ → ℝ → ℝ → ℝ}
    (h : Detection C lg d p)
    (hu : (M.classes.kind (y.fluxSel.getD unitySel).cls).isUnity = true) : p = 1 := by
  have no : ∀ {cls : String} {ps : Dict (PVal ℝ)}, AsksFor d "flux selection" cls ps →
      (M.classes.kind cls).isUnity = false → False := by
    intro cls ps h1 h2
    obtain ⟨s, K, e1, e2, -⟩ := sel_section hy h1
    rw [e1] at hu
    rw [show (Option.getD (some s) unitySel).cls = cls from e2, h2] at hu
    cases hu
  cases h with
  | missing h => rfl
  | nothing h => rfl
  | unity ps hn => rfl
  | atLeast cls ps b hc hn h1 => exact (no hn (by rcases hc with rfl | rfl <;> rfl)).elim
  | atMost ps b hn h1 => exact (no hn rfl).elim
  | between ps lo hi hn h1 h2 => exact (no hn rfl).elim
  | soft cls ps b k hc hn h1 h2 => exact (no hn (by rcases hc with rfl | rfl <;> rfl)).elim
  | coin ps q hn h1 => exact (no hn rfl).elim

/-- The mean number for the code's measurements is that for exact logarithms. -/
theorem expected_measured (hN : FairNoise P base sigma decimal) (env : SurveyEnv ℝ G)
    (h1 : env.add = base.add ∧ env.log10 = base.log10 ∧ env.ln = base.ln ∧ env.pow10 = base.pow10 ∧
      env.exp = base.exp)
    (hpos : ∀ᵐ l ∂μL, ∀ r ∈ Set.Ioc 0 rm, 0 < flux l r) (q : ℝ → ℝ≥0∞) :
    expected dens rm flux μL (some sigma) (observed env (some sigma) decimal) q =
      meanMeasured dens rm flux μL sigma decimal q := by
  obtain ⟨b1, b2, b3, b4, b5⟩ := h1
  have hobs : ∀ f x, 0 < f → observed env (some sigma) decimal f x = measured decimal f x := by
    intro f x hf
    have e1 := hN.log f hf
    have e2 := hN.power
    simp only [observed, measured, b1, b2, b3, b4, b5, hN.add]
    cases decimal <;> simp only [if_true, Bool.false_eq_true, if_false] at e1 e2 ⊢
    · rw [e1, e2, Real.exp_add, Real.exp_log hf]
    · rw [e1, e2, Real.rpow_add (by norm_num), Real.rpow_logb (by norm_num) (by norm_num) hf]
  unfold expected meanMeasured
  rw [← restrict_Ioc_eq_restrict_Icc]
  refine setLIntegral_congr_fun measurableSet_Ioc fun r hr => ?_
  show _ * _ = _ * _
  congr 1
  refine lintegral_congr_ae ?_
  filter_upwards [hpos] with l hl
  exact lintegral_congr fun x => congrArg q (hobs _ _ (hl r hr))

theorem gauss_prob (sigma : ℝ) : IsProbabilityMeasure
    (ProbabilityTheory.gaussianReal 0 ⟨sigma ^ 2, sq_nonneg sigma⟩) :=
  ProbabilityTheory.instIsProbabilityMeasureGaussianReal _ _

/-- If the probability does not depend on the flux, errors do not matter. -/
theorem measured_const (dens : ℝ → ℝ) (rm : ℝ) (flux : ℝ → ℝ → ℝ) (μL : Measure ℝ) (sigma : ℝ)
    (decimal : Bool) (c : ℝ≥0∞) :
    meanMeasured dens rm flux μL sigma decimal (fun _ => c) = meanDetected dens rm flux μL fun _ => c := by
  have i := gauss_prob sigma
  have : ProbabilityTheory.gaussianReal 0 ⟨sigma ^ 2, sq_nonneg sigma⟩ Set.univ = 1 := measure_univ
  unfold meanMeasured meanDetected
  simp only [lintegral_const, this, mul_one]

/-- **C87 (detections and non-detections with measurement errors).**  A configuration is read,
objects are made as it says, and a survey is drawn with them with normal errors of the logarithm of
the flux.  The numbers of detected and of undetected objects are independent Poisson numbers; their
means are those of the population that the configuration describes, seen with these errors. -/
theorem C87_noisy (hM : FairMachine P M base) (hN : FairNoise P base sigma decimal)
    (hd : Proper (.dict d)) (hread : fromDict (builtins half) C d = .ok y e)
    (hs : Space C M.volume M.cosmoFlux d dens flux rm) (hl : Luminosities C d μL)
    (hpos : ∀ᵐ l ∂μL, ∀ r ∈ Set.Ioc 0 rm, 0 < flux l r)
    (hf : Detection C base.world.sel.softLog d p) (hn : NothingElse d)
    (hm : InMemory M.classes y at' sel code s) (hrm : 0 < rm)
    (hmax : ∀ r ∈ Set.Icc 0 rm, dens r ≤ M.dist.npMax ((M.dist.grid rm).map dens))
    (hΛ : (Λ : ℝ≥0∞) = ∫⁻ r in Set.Icc 0 rm, ENNReal.ofReal (dens r)) (h0 : Λ ≠ 0)
    (hquad : (M.dist.quad rm).eval dens = Λ)
    (hpois : Samples P (ProbabilityTheory.poissonMeasure Λ)
      fun _ g n g' => base.poisson (Λ : ℝ) g = (.ok n, g')) :
    Samples P
      ((ProbabilityTheory.poissonMeasure
          (meanMeasured dens rm flux μL sigma decimal p).toNNReal).prod
        (ProbabilityTheory.poissonMeasure
          (meanMeasured dens rm flux μL sigma decimal fun x => 1 - p x).toNNReal))
      fun k g v g' => ∃ Q s', drawSurvey (drawnEnv M half fuel base code y k g)
          (M.classes.synth at' sel y) { fluxSigma := some sigma, log10Draw := decimal } s = .ok Q s' ∧
        s'.heap.rng = g' ∧ Q.nDetections = v.1 ∧ Q.nNonDetections = v.2 := by
  have hy := C63_reads _ _ _ _ _ hd hread
  obtain ⟨c, vs, f, hlaw⟩ := config_lawful (fuel := fuel)
    (a := { fluxSigma := some sigma, log10Draw := decimal }) rfl
    (fun x h => by cases h; exact hN) (fun _ => hpos) hM hy hs hl hf hn hm hrm hmax (by
    rw [← hΛ]; exact_mod_cast h0)
  have h1 := C77_counts hlaw (Λ := Λ) ⟨rfl, hpois, by rw [f.density, hquad]⟩
    (by rw [f.density]; exact hmax) (by rw [f.density]; exact hΛ) M.showProgress M.galB
  have hmean : ∀ q : ℝ → ℝ≥0∞, (p = 1 → ∃ c, q = fun _ => c) →
      expected dens rm flux μL
        (sigmaUsed (s.heap.selectors (M.classes.synth at' sel y).fluxSel).kind
          { fluxSigma := some sigma, log10Draw := decimal })
        (observed (M.classes.env (builtins half) fuel base code y)
          (sigmaUsed (s.heap.selectors (M.classes.synth at' sel y).fluxSel).kind
            { fluxSigma := some sigma, log10Draw := decimal }) decimal) q =
        meanMeasured dens rm flux μL sigma decimal q := by
    intro q hq
    have hfx : s.heap.selectors (M.classes.synth at' sel y).fluxSel =
      M.classes.selector (y.fluxSel.getD unitySel) := hm.flux
    rw [hfx]
    unfold sigmaUsed
    split
    · rename_i hu
      obtain ⟨c, rfl⟩ := hq (unity_certain (M := M) hy hf hu)
      rw [expected_exact _ _ _ _ _
        (observed (M.classes.env (builtins half) fuel base code y) none decimal) fun _ _ => rfl,
        measured_const]
    · exact expected_measured hN _ ⟨rfl, rfl, rfl, rfl, rfl⟩ hpos q
  rw [f.density, hmean p (fun h => ⟨1, h⟩), hmean (fun x => 1 - p x) (fun h => ⟨0, by simp [h]⟩)] at h1
  refine Samples.mono h1 ?_
  intro k g v g' ⟨Q, s', q1, q2⟩
  refine ⟨Q, s', ?_, q2⟩
  have e : drawnEnv M half fuel base code y k g = surveyEnv (M.classes.env (builtins half) fuel base code y)
      M.dist c.code M.showProgress (M.transform y.spatial.cls) M.galB k g := by
    unfold surveyEnv
    rw [← f.code k]
    rfl
  rw [e]
  exact q1

/-- **C87 (a flux-limited survey of a flat space with measurement errors).**  If the configuration
names `FlatlandDistribution` and `HardFluxSelection`, the number of detections is a Poisson number;
its mean is the mean number of objects times the probability that the measured flux of an object
reaches the boundary. -/
theorem C87_flatland {ps qs : Dict (PVal ℝ)} {lambda F : ℝ} (hM : FairMachine P M base)
    (hN : FairNoise P base sigma decimal)
    (hd : Proper (.dict d)) (hread : fromDict (builtins half) C d = .ok y e)
    (hs : AsksFor d "spatial distribution" "FlatlandDistribution" ps)
    (hs1 : Says C ps "Lambda" (some 1) lambda) (hs2 : Says C ps "r_max" (some 10) rm)
    (hl : Luminosities C d μL) (hpos : ∀ᵐ l ∂μL, 0 < l)
    (hf : AsksFor d "flux selection" "HardFluxSelection" qs)
    (hf1 : Says C qs "boundary" none F) (hn : NothingElse d)
    (hm : InMemory M.classes y at' sel code s) (hrm : 0 < rm) (hlambda : 0 < lambda)
    (hg : GridMax M.dist) (hquad : (M.dist.quad rm).eval (fun _ => lambda) = lambda * rm)
    (hΛ : (Λ : ℝ) = lambda * rm)
    (hpois : Samples P (ProbabilityTheory.poissonMeasure Λ)
      fun _ g n g' => base.poisson (Λ : ℝ) g = (.ok n, g')) :
    Samples P (ProbabilityTheory.poissonMeasure (Λ *
        ((μL.prod (ProbabilityTheory.gaussianReal 0 ⟨sigma ^ 2, sq_nonneg sigma⟩))
          {q | F ≤ q.1 * if decimal then 10 ^ q.2 else Real.exp q.2}).toNNReal))
      fun k g n g' => ∃ Q s', drawSurvey (drawnEnv M half fuel base code y k g)
          (M.classes.synth at' sel y) { fluxSigma := some sigma, log10Draw := decimal } s = .ok Q s' ∧
        s'.heap.rng = g' ∧ Q.nDetections = n := by
  have i1 : IsProbabilityMeasure μL := by
    obtain ⟨l, phi, l1, l2⟩ := lum_facts hM (C63_reads _ _ _ _ _ hd hread) hl
    exact l2.1
  have i2 := gauss_prob sigma
  have hmax : ∀ r ∈ Set.Icc 0 rm, lambda ≤ M.dist.npMax ((M.dist.grid rm).map fun _ => lambda) := by
    intro r _
    rw [hg.end hrm fun _ _ _ _ _ => le_rfl]
  have hint : ∫⁻ _ in Set.Icc 0 rm, ENNReal.ofReal lambda = Λ := by
    rw [setLIntegral_const, Real.volume_Icc, sub_zero, ← ENNReal.ofReal_mul hlambda.le, ← hΛ,
      ENNReal.ofReal_coe_nnreal]
  have h1 := C87_noisy (fuel := fuel) (at' := at') (sel := sel) (code := code) (s := s) (Λ := Λ) hM hN hd
    hread (.flatland ps lambda rm hs hs1 hs2) hl (by filter_upwards [hpos] with l hl r _ using hl)
    (.atLeast _ qs F (Or.inl rfl) hf hf1) hn hm hrm hmax hint.symm
    (fun h => by rw [h] at hΛ; have : 0 < lambda * rm := by positivity
                 rw [← hΛ] at this; simp at this)
    (by rw [hquad, hΛ]) hpois
  have hms : MeasurableSet {q : ℝ × ℝ | F ≤ q.1 * if decimal then 10 ^ q.2 else Real.exp q.2} := by
    refine measurableSet_le measurable_const ?_
    cases decimal <;> simp only [if_true, Bool.false_eq_true, if_false] <;> fun_prop
  have hval : meanMeasured (fun _ => lambda) rm (fun l _ => l) μL sigma decimal
      ((Set.Ici F).indicator 1) = Λ * (μL.prod
        (ProbabilityTheory.gaussianReal 0 ⟨sigma ^ 2, sq_nonneg sigma⟩))
          {q | F ≤ q.1 * if decimal then 10 ^ q.2 else Real.exp q.2} := by
    unfold meanMeasured
    rw [lintegral_mul_const _ measurable_const, hint]
    congr 1
    rw [← lintegral_indicator_one hms, lintegral_prod _ (measurable_one.indicator hms).aemeasurable]
    rfl
  rw [hval, ENNReal.toNNReal_mul, ENNReal.toNNReal_coe] at h1
  exact Samples.mapTo h1 measurePreserving_fst fun k g v g' ⟨Q, s', q1, q2, q3, _⟩ => ⟨Q, s', q1, q2, q3⟩

namespace LawExample

theorem fairNoise (sigma : ℝ) (decimal : Bool) : FairNoise seeds survey sigma decimal where
  valid := rfl
  normal := by
    have i := gauss_prob sigma
    have h1 : MeasurePreserving (fun x => sigma * x) (ProbabilityTheory.gaussianReal 0 1)
        (ProbabilityTheory.gaussianReal 0 ⟨sigma ^ 2, sq_nonneg sigma⟩) := by
      refine ⟨by fun_prop, ?_⟩
      rw [ProbabilityTheory.gaussianReal_map_const_mul]
      simp
      rfl
    exact ⟨_, draws (h1.comp draws_normal),
      Filter.Eventually.of_forall fun g => Filter.Eventually.of_forall fun k => rfl⟩
  add _ _ := rfl
  finite _ _ _ := rfl
  measurable := by
    cases decimal
    · exact Real.measurable_log
    · exact measurable_logb
  log _ _ := rfl
  power _ := rfl

/-- A line of length 10, the luminosities of `config`, and a limit at 5. -/
noncomputable def flatConfig : Dict (PVal ℝ) :=
  [("seed", .int 1234),
   ("spatial distribution", .dict [("FlatlandDistribution",
     .dict [("Lambda", .num (2000 * Real.pi / 3))]), ("is_rate", .bool false)]),
   ("luminosity distribution", .dict [("LogUniLuminiosityDistribution",
     .dict [("Lmin", .int 1), ("Lmax", .int 10)])]),
   ("flux selection", .dict [("HardFluxSelection", .dict [("boundary", .int 5)])])]

theorem flat_read : ∃ y e, fromDict (builtins (1 / 2)) convReal flatConfig = .ok y e := by
  have h1 : lookup (builtins (1 / 2 : ℝ)).dists "FlatlandDistribution" =
      .ok (asDist [bFlatland, bSpatial, bDistribution]) := by
    rw [builtins_dists]; rfl
  have h2 : lookup (builtins (1 / 2 : ℝ)).dists "LogUniLuminiosityDistribution" =
      .ok (asDist [bLogUni, bLuminosity, bDistribution]) := by
    rw [builtins_dists]; rfl
  have h3 : lookup (builtins (1 / 2 : ℝ)).sels "HardFluxSelection" =
      .ok (asSel [bHardFlux, bLower, bSelection]) := by
    rw [builtins_sels]; rfl
  obtain ⟨o1, s1⟩ := sets (R := (asDist [bFlatland, bSpatial, bDistribution]).params)
    [("Lambda", .num (2000 * Real.pi / 3))] {} (by
      intro p hp
      obtain rfl := List.mem_singleton.1 hp
      have := Real.pi_pos
      exact ⟨_, _, rfl, rfl, rfl, .inl ⟨rfl, by positivity⟩, rfl⟩)
  obtain ⟨o2, s2⟩ := sets (R := (asDist [bLogUni, bLuminosity, bDistribution]).params)
    [("Lmin", .int 1), ("Lmax", .int 10)] {} (by
      intro p hp
      rcases List.mem_cons.1 hp with rfl | hp
      · exact ⟨_, _, rfl, rfl, rfl, .inl ⟨rfl, by norm_num [convReal]⟩, rfl⟩
      · obtain rfl := List.mem_singleton.1 hp
        exact ⟨_, _, rfl, rfl, rfl, .inl ⟨rfl, by norm_num [convReal]⟩, rfl⟩)
  have e1 : loadDist (builtins (1 / 2)) convReal (.dict [("FlatlandDistribution",
      .dict [("Lambda", .num (2000 * Real.pi / 3))]), ("is_rate", .bool false)]) = .ok _ :=
    (exc_bind rfl).trans ((exc_bind rfl).trans ((exc_bind h1).trans ((exc_bind rfl).trans
      ((exc_bind rfl).trans ((exc_bind s1).trans rfl)))))
  have e2 : loadLum (builtins (1 / 2)) convReal flatConfig = .ok _ :=
    (exc_bind ((exc_bind rfl).trans ((exc_bind rfl).trans ((exc_bind h2).trans ((exc_bind rfl).trans
      ((exc_bind rfl).trans ((exc_bind s2).trans rfl))))))).trans rfl
  have e3 : loadOptSel (builtins (1 / 2)) convReal (fun f => { f with flux := true }) flatConfig
      "flux selection" = .ok _ :=
    (exc_bind rfl).trans ((exc_bind rfl).trans ((exc_bind h3).trans rfl))
  have e4 : loadDists (builtins (1 / 2)) convReal flatConfig = .ok _ :=
    (exc_bind e2).trans ((exc_bind rfl).trans ((exc_bind e1).trans ((exc_bind rfl).trans
      ((exc_bind rfl).trans ((exc_bind rfl).trans ((exc_bind rfl).trans ((exc_bind rfl).trans rfl)))))))
  have e5 : loadHead (builtins (1 / 2)) convReal flatConfig = .ok _ :=
    (exc_bind e4).trans ((exc_bind e3).trans ((exc_bind rfl).trans ((exc_bind rfl).trans rfl)))
  exact ⟨_, flatConfig, read_head e5 rfl⟩

theorem flat_proper : Spec.Proper (.dict flatConfig) := by
  have leaf : ∀ v : PVal ℝ, (∀ d, v ≠ .dict d) → Spec.Proper v := .other
  refine .dict _ (by decide) fun k v hp => ?_
  simp only [flatConfig, List.mem_cons, List.not_mem_nil, or_false, Prod.mk.injEq] at hp
  rcases hp with ⟨-, rfl⟩ | ⟨-, rfl⟩ | ⟨-, rfl⟩ | ⟨-, rfl⟩
  · exact leaf _ (by simp)
  · refine .dict _ (by decide) fun k v hp => ?_
    simp only [List.mem_cons, List.not_mem_nil, or_false, Prod.mk.injEq] at hp
    rcases hp with ⟨-, rfl⟩ | ⟨-, rfl⟩
    · exact .one (leaf _ (by simp))
    · exact leaf _ (by simp)
  · refine .one (.dict _ (by decide) fun k v hp => ?_)
    simp only [List.mem_cons, List.not_mem_nil, or_false, Prod.mk.injEq] at hp
    rcases hp with ⟨-, rfl⟩ | ⟨-, rfl⟩ <;> exact leaf _ (by simp)
  · exact .one (.one (leaf _ (by simp)))

/-- The number of detections in a survey drawn from this configuration, if the error of the decimal
logarithm of a flux has standard deviation 1/10. -/
example : ∃ y e, fromDict (builtins (1 / 2)) convReal flatConfig = .ok y e ∧
    (∃ at' sel code s, Spec.InMemory machine.classes y at' sel code s) ∧
    ∀ at' sel code s fuel, Spec.InMemory machine.classes y at' sel code s →
      Spec.Samples seeds (ProbabilityTheory.poissonMeasure (mean *
          ((lums.prod (ProbabilityTheory.gaussianReal 0 ⟨(1 / 10) ^ 2, sq_nonneg (1 / 10)⟩))
            {q | 5 ≤ q.1 * 10 ^ q.2}).toNNReal))
        fun k g n g' => ∃ Q s', drawSurvey (Spec.drawnEnv machine (1 / 2) fuel survey code y k g)
            (machine.classes.synth at' sel y) { fluxSigma := some (1 / 10) } s = .ok Q s' ∧
          s'.heap.rng = g' ∧ Q.nDetections = n := by
  have hp := Real.pi_pos
  obtain ⟨y, e, hy⟩ := flat_read
  have hn : Spec.NothingElse flatConfig := ⟨.inl rfl, .inl rfl, .inl rfl⟩
  refine ⟨y, e, hy, ?_, fun at' sel code s fuel hm => ?_⟩
  · exact memory_exists _ (fun _ => (0, 0, 0)) (C63_reads _ _ _ _ _ flat_proper hy) hn
  refine C87_flatland (Λ := mean) (rm := 10) (decimal := true)
    (ps := [("Lambda", .num (2000 * Real.pi / 3))])
    (qs := [("boundary", .int 5)]) fairMachine (fairNoise _ _) flat_proper hy ⟨_, rfl⟩
    (.inl ⟨_, rfl, .num _⟩) (.inr ⟨rfl, rfl⟩)
    (.logUniform [("Lmin", .int 1), ("Lmax", .int 10)] 1 10 ⟨_, rfl⟩ (.inl ⟨_, rfl, whole_one⟩)
      (.inl ⟨_, rfl, whole 10⟩) (by norm_num) (by norm_num)) ?_
    ⟨_, rfl⟩ (.inl ⟨_, rfl, whole 5⟩) hn hm (by norm_num) (by positivity) gridMax ?_ ?_ counted.poisson
  · have h1 : ∀ᵐ L ∂lums, L ∈ Set.Icc (1 : ℝ) 10 :=
      (withDensity_absolutelyContinuous _ _).ae_le (ae_restrict_mem measurableSet_Icc)
    filter_upwards [h1] with L hL
    linarith [hL.1]
  · show (QuadStrat.weighted 0 [((0 : ℝ), 10 / 6), (10 / 2, 4 * 10 / 6), (10, 10 / 6)]).eval _ = _
    simp only [QuadStrat.weighted, QuadStrat.eval]
    ring
  · show (20000 * Real.pi / 3 : ℝ) = _
    ring

end LawExample
end Popsynth
