import Verif.Props.ConfigHistogram

/-!
# Histograms of the fluxes in surveys drawn from a configuration (C106)
-/

set_option autoImplicit false
set_option linter.unusedSectionVars false

open MeasureTheory Filter
open scoped NNReal ENNReal

namespace Popsynth
variable {G : Type} [MeasurableSpace G] {P : Measure G} [IsProbabilityMeasure P]

section
variable {e : SurveyEnv ℝ G} {env : DistEnv ℝ G} {c : SpClass ℝ}
  {tr : List ℝ → List ℝ → Except Err (List ℝ)} {y : Synth ℝ} {a : SurveyArgs ℝ} {s : SurvSt ℝ G}
  {flux : ℝ → ℝ → ℝ} {rm m : ℝ} {vs : List ℝ} {Λ : ℝ≥0} {μL : Measure ℝ} {p : ℝ → ℝ≥0∞}

/-- Histograms of observed fluxes in surveys without other samplers. -/
theorem flux_bars (h : Spec.Lawful P e env c tr y a s flux rm m vs μL p)
    (hc : Spec.Counted P e env c a rm vs Λ) {n : ℕ} {I : Fin n → Set ℝ}
    (hI : ∀ j, MeasurableSet (I j)) (hd : ∀ i j, i ≠ j → Disjoint (I i) (I j))
    (showProgress : Bool) (galB : List ℝ → List ℝ → List ℝ) :
    Spec.Samples P
      ((Measure.pi fun j => ProbabilityTheory.poissonMeasure (∫⁻ x,
          Spec.detection e y a s flux ((I j).indicator p) x ∂(Spec.intensity y a s c rm m vs Λ μL)).toNNReal).prod
        (Measure.pi fun j => ProbabilityTheory.poissonMeasure (∫⁻ x,
          Spec.detection e y a s flux ((I j).indicator fun x => 1 - p x) x
            ∂(Spec.intensity y a s c rm m vs Λ μL)).toNNReal))
      fun k g v g' => ∃ Q s',
        drawSurvey (Spec.surveyEnv e env c.code showProgress tr galB k g) y a s = .ok Q s' ∧
        s'.heap.rng = g' ∧ Spec.Binned Q.fluxes I v.1 v.2 := by
  classical
  have i2 := h.intensity_finite (Λ := Λ)
  have i3 := finite_withDensity (Spec.intensity y a s c rm m vs Λ μL)
    (f := Spec.detection e y a s flux p) (fun x => h.le_one _)
  have i4 := finite_withDensity (Spec.intensity y a s c rm m vs Λ μL)
    (f := fun x => 1 - Spec.detection e y a s flux p x) (fun x => tsub_le_self)
  have hF : Measurable fun x : Spec.SkySource => Spec.observed e
      (Spec.sigmaUsed (s.heap.selectors y.fluxSel).kind a) a.log10Draw (flux x.luminosity x.distance) x.noise :=
    h.observed.comp ((h.fluxes.comp (SkySource.measurable_luminosity.prodMk SkySource.measurable_distance)).prodMk
      SkySource.measurable_noise)
  have hB : ∀ j, MeasurableSet {x : Spec.SkySource | Spec.observed e
      (Spec.sigmaUsed (s.heap.selectors y.fluxSel).kind a) a.log10Draw (flux x.luminosity x.distance) x.noise ∈ I j} :=
    fun j => hF (hI j)
  have hD : ∀ i j, i ≠ j → Disjoint {x : Spec.SkySource | Spec.observed e
      (Spec.sigmaUsed (s.heap.selectors y.fluxSel).kind a) a.log10Draw (flux x.luminosity x.distance) x.noise ∈ I i}
      {x : Spec.SkySource | Spec.observed e
      (Spec.sigmaUsed (s.heap.selectors y.fluxSel).kind a) a.log10Draw (flux x.luminosity x.distance) x.noise ∈ I j} :=
    fun i j hij => (hd i j hij).preimage _
  have hp := (process_bins ((Spec.intensity y a s c rm m vs Λ μL).withDensity (Spec.detection e y a s flux p)) hB hD).prod
    (process_bins ((Spec.intensity y a s c rm m vs Λ μL).withDensity
      fun x => 1 - Spec.detection e y a s flux p x) hB hD)
  simp only [withDensity_apply _ (hB _), ← lintegral_indicator (hB _)] at hp
  refine Samples.mapTo (C75_thinning h hc showProgress galB) hp ?_
  rintro k g v g' ⟨Q, s', q1, q2, q3⟩
  obtain ⟨⟨w, w1, w2, -⟩, ⟨w', w3, w4, -⟩⟩ := q3.fluxes
  refine ⟨Q, s', q1, q2, ⟨w, w1, fun j => ?_⟩, ⟨w', w3, fun j => ?_⟩⟩
  · rw [w2, List.countP_map]
    exact List.countP_congr fun z _ => by simp
  · rw [w4, List.countP_map]
    exact List.countP_congr fun z _ => by simp

end

open Spec

variable {M : Machine G} {base : SurveyEnv ℝ G} {half : ℝ} {C : Conv ℝ} {d e : Dict (PVal ℝ)} {y : CSynth ℝ}
  {fuel : ℕ} {at' : String → ℕ} {sel : Role → ℕ} {code : ℕ → SamplerCode ℝ G} {s : SurvSt ℝ G}
  {dens : ℝ → ℝ} {flux : ℝ → ℝ → ℝ} {rm : ℝ} {μL : Measure ℝ} {p : ℝ → ℝ≥0∞} {Λ : ℝ≥0}

/-- **C106** (configurations, fluxes): a configuration is read, objects are made as it says, and a
survey is drawn with them.  The numbers of detected and of undetected objects in any disjoint ranges
of flux are independent Poisson numbers; their means are those of the population that the
configuration describes, with the probability of being detected, or missed, counted only in the range. -/
theorem C106_configured_fluxes (hM : FairMachine P M base) (hd : Proper (.dict d))
    (hread : fromDict (builtins half) C d = .ok y e)
    (hs : Space C M.volume M.cosmoFlux d dens flux rm) (hl : Luminosities C d μL)
    (hf : Detection C base.world.sel.softLog d p) (hn : NothingElse d)
    (hm : InMemory M.classes y at' sel code s) (hrm : 0 < rm)
    (hmax : ∀ r ∈ Set.Icc 0 rm, dens r ≤ M.dist.npMax ((M.dist.grid rm).map dens))
    (hΛ : (Λ : ℝ≥0∞) = ∫⁻ r in Set.Icc 0 rm, ENNReal.ofReal (dens r)) (h0 : Λ ≠ 0)
    (hquad : (M.dist.quad rm).eval dens = Λ)
    (hpois : Samples P (ProbabilityTheory.poissonMeasure Λ)
      fun _ g n g' => base.poisson (Λ : ℝ) g = (.ok n, g'))
    {n : ℕ} {I : Fin n → Set ℝ} (hI : ∀ j, MeasurableSet (I j)) (hdis : ∀ i j, i ≠ j → Disjoint (I i) (I j)) :
    Samples P
      ((Measure.pi fun j => ProbabilityTheory.poissonMeasure
          (∫⁻ r in Set.Icc 0 rm, ENNReal.ofReal (dens r) *
            ∫⁻ l, (I j).indicator p (flux l r) ∂μL).toNNReal).prod
        (Measure.pi fun j => ProbabilityTheory.poissonMeasure
          (∫⁻ r in Set.Icc 0 rm, ENNReal.ofReal (dens r) *
            ∫⁻ l, (I j).indicator (fun x => 1 - p x) (flux l r) ∂μL).toNNReal))
      fun k g v g' => ∃ Q s', drawSurvey (drawnEnv M half fuel base code y k g)
          (M.classes.synth at' sel y) {} s = .ok Q s' ∧
        s'.heap.rng = g' ∧ Binned Q.fluxes I v.1 v.2 := by
  have hy := C63_reads _ _ _ _ _ hd hread
  obtain ⟨c, vs, f, hlaw⟩ := config_lawful (fuel := fuel) (a := {}) rfl
    (fun _ h => by cases h) (fun h => (h rfl).elim) hM hy hs hl hf hn hm hrm hmax (by
    rw [← hΛ]; exact_mod_cast h0)
  have hsig : ∀ kind : SelKind ℝ G, sigmaUsed kind ({} : SurveyArgs ℝ) = none := fun kind => by
    unfold sigmaUsed; split <;> rfl
  have h1 := flux_bars hlaw (Λ := Λ) ⟨rfl, hpois, by rw [f.density, hquad]⟩ hI hdis M.showProgress M.galB
  have hb : ∀ (q : ℝ → ℝ≥0∞), Measurable q → ∀ j, _ := fun q hq j =>
    mean_expected hlaw (by rw [f.density]; exact hmax) (by rw [f.density]; exact hΛ) (hq.indicator (hI j))
  simp only [hb p hlaw.detection_measurable, hb (fun x => 1 - p x) (measurable_const.sub hlaw.detection_measurable)] at h1
  have ho : ∀ f x, observed (M.classes.env (builtins half) fuel base code y) none
      ({} : SurveyArgs ℝ).log10Draw f x = f := fun _ _ => rfl
  simp only [f.density, hsig, expected, noiseLaw, lintegral_dirac, ho] at h1
  refine Samples.mono h1 ?_
  intro k g v g' ⟨Q, s', q1, q2⟩
  refine ⟨Q, s', ?_, q2⟩
  have e : drawnEnv M half fuel base code y k g = surveyEnv (M.classes.env (builtins half) fuel base code y)
      M.dist c.code M.showProgress (M.transform y.spatial.cls) M.galB k g := by
    unfold surveyEnv
    rw [← f.code k]
    rfl
  rw [e]
  exact q1

namespace LawExample

/-- The bars below and above the flux 0.1 in a survey drawn from the example configuration. -/
example : ∃ y e, fromDict (builtins (1 / 2)) convReal config = .ok y e ∧
    (∃ at' sel code s, InMemory machine.classes y at' sel code s) ∧
    ∀ at' sel code s fuel, InMemory machine.classes y at' sel code s →
      Samples seeds
        ((Measure.pi fun j : Fin 2 => ProbabilityTheory.poissonMeasure
          (∫⁻ r in Set.Icc 0 10, ENNReal.ofReal (5 * (4 * Real.pi * r ^ 2)) *
            ∫⁻ l, (![Set.Iio (1 / 10), Set.Ici (1 / 10)] j : Set ℝ).indicator ((Set.Ici (1 / 100)).indicator 1)
              (l / (4 * Real.pi * (r + 1) ^ 2)) ∂lums).toNNReal).prod
        (Measure.pi fun j : Fin 2 => ProbabilityTheory.poissonMeasure
          (∫⁻ r in Set.Icc 0 10, ENNReal.ofReal (5 * (4 * Real.pi * r ^ 2)) *
            ∫⁻ l, (![Set.Iio (1 / 10), Set.Ici (1 / 10)] j : Set ℝ).indicator (fun x => 1 - (Set.Ici (1 / 100)).indicator 1 x)
              (l / (4 * Real.pi * (r + 1) ^ 2)) ∂lums).toNNReal))
        fun k g v g' => ∃ Q s', drawSurvey (drawnEnv machine (1 / 2) fuel survey code y k g)
            (machine.classes.synth at' sel y) {} s = .ok Q s' ∧ s'.heap.rng = g' ∧
          Binned Q.fluxes ![Set.Iio (1 / 10 : ℝ), Set.Ici (1 / 10)] v.1 v.2 := by
  have hp := Real.pi_pos
  obtain ⟨y, e, hy⟩ := config_read
  refine ⟨y, e, hy, ?_, fun at' sel code s fuel hm => ?_⟩
  · exact memory_exists _ (fun _ => (0, 0, 0)) (C63_reads _ _ _ _ _ config_proper hy) nothing_else
  have hmono : ∀ r t : ℝ, 0 ≤ r → r ≤ t → t ≤ 10 → 5 * (4 * Real.pi * r ^ 2) ≤ 5 * (4 * Real.pi * t ^ 2) := by
    intro r t h0 h1 _
    have : r ^ 2 ≤ t ^ 2 := pow_le_pow_left₀ h0 h1 2
    gcongr
  have hden : constantSpherical.dens [(5 : ℝ)] = fun r => 5 * (4 * Real.pi * r ^ 2) := by
    funext r
    simp only [constantSpherical, sphereVolume]; ring
  have hint := sphere_integral (lambda := 5) (x := 10) (by norm_num) (by norm_num)
  rw [hden] at hint
  refine C106_configured_fluxes (Λ := mean) (rm := 10) fairMachine config_proper hy
    (.constantSphere [("Lambda", .int 5)] 5 10 ⟨_, rfl⟩ (.inl ⟨_, rfl, whole 5⟩) (.inr ⟨rfl, rfl⟩))
    (.logUniform [("Lmin", .int 1), ("Lmax", .int 10)] 1 10 ⟨_, rfl⟩ (.inl ⟨_, rfl, whole_one⟩)
      (.inl ⟨_, rfl, whole 10⟩) (by norm_num) (by norm_num))
    (.atLeast _ [("boundary", .num (1 / 100))] _ (.inl rfl) ⟨_, rfl⟩ (.inl ⟨_, rfl, .num _⟩)) nothing_else hm
    (by norm_num) ?_ ?_ ?_ ?_ counted.poisson ?_ ?_
  · intro r hr
    have := gridMax.end (x := 10) (by norm_num) hmono
    refine (hmono r 10 hr.1 hr.2 le_rfl).trans (le_of_eq ?_)
    exact this.symm
  · rw [hint, ← ENNReal.ofReal_coe_nnreal]
    congr 1
    show (20000 * Real.pi / 3 : ℝ) = _
    ring
  · intro h
    have : (20000 * Real.pi / 3 : ℝ) = 0 := congrArg NNReal.toReal h
    linarith
  · have h := counted.mean
    simp only [constantSpherical_dens, sphereVolume] at h
    rw [show (fun r : ℝ => 5 * (4 * Real.pi * r * r) / 1) = fun r => 5 * (4 * Real.pi * r ^ 2) by
      funext r; ring] at h
    exact h.symm
  · intro j
    fin_cases j
    · exact measurableSet_Iio
    · exact measurableSet_Ici
  · intro i j hij
    fin_cases i <;> fin_cases j
    · exact (hij rfl).elim
    · exact Set.disjoint_left.2 fun r (h1 : r < 1 / 10) (h2 : 1 / 10 ≤ r) => absurd h1 (not_lt.2 h2)
    · exact Set.disjoint_left.2 fun r (h1 : 1 / 10 ≤ r) (h2 : r < 1 / 10) => absurd h2 (not_lt.2 h1)
    · exact (hij rfl).elim

end LawExample
end Popsynth
