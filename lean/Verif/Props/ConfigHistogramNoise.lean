import Verif.Props.ConfigHistogram
import Verif.Props.ConfigNoise

/-!
# Histograms of surveys with measurement errors, drawn from a configuration (C106)
-/

set_option autoImplicit false
set_option linter.unusedSectionVars false

open MeasureTheory Filter
open scoped NNReal ENNReal

namespace Popsynth
variable {G : Type} [MeasurableSpace G] {P : Measure G} [IsProbabilityMeasure P]

open Spec

/-- An integral over a part of the distances counts the density only there. -/
theorem part_density (dens : ℝ → ℝ) (rm : ℝ) (W : ℝ → ℝ≥0∞) {I : Set ℝ} (hI : MeasurableSet I) :
    ∫⁻ r in Set.Icc 0 rm ∩ I, ENNReal.ofReal (dens r) * W r =
      ∫⁻ r in Set.Icc 0 rm, ENNReal.ofReal (I.indicator dens r) * W r := by
  rw [Set.inter_comm, ← Measure.restrict_restrict hI, ← lintegral_indicator hI]
  refine lintegral_congr fun r => ?_
  by_cases hr : r ∈ I
  · simp only [Set.indicator_of_mem hr]
  · simp only [Set.indicator_of_notMem hr, ENNReal.ofReal_zero, zero_mul]

variable {M : Machine G} {base : SurveyEnv ℝ G} {half : ℝ} {C : Conv ℝ} {d e : Dict (PVal ℝ)}
  {y : CSynth ℝ} {fuel : ℕ} {at' : String → ℕ} {sel : Role → ℕ} {code : ℕ → SamplerCode ℝ G}
  {s : SurvSt ℝ G} {dens : ℝ → ℝ} {flux : ℝ → ℝ → ℝ} {rm sigma : ℝ} {μL : Measure ℝ}
  {p : ℝ → ℝ≥0∞} {Λ : ℝ≥0} {decimal : Bool}

/-- **C106** (configurations, measurement errors): a configuration is read, objects are made as it
says, and a survey is drawn with them with normal errors of the logarithm of the flux.  The numbers
of detected and of undetected objects in any disjoint ranges of distance are independent Poisson
numbers; their means are those of the population that the configuration describes, counted only in
the range and seen with these errors. -/
theorem C106_configured_noisy (hM : FairMachine P M base) (hN : FairNoise P base sigma decimal)
    (hd : Proper (.dict d)) (hread : fromDict (builtins half) C d = .ok y e)
    (hs : Space C M.volume M.cosmoFlux d dens flux rm) (hl : Luminosities C d μL)
    (hpos : ∀ᵐ l ∂μL, ∀ r ∈ Set.Ioc 0 rm, 0 < flux l r)
    (hf : Detection C base.world.sel.softLog d p) (hn : NothingElse d)
    (hm : InMemory M.classes y at' sel code s) (hrm : 0 < rm)
    (hmax : ∀ r ∈ Set.Icc 0 rm, dens r ≤ M.dist.npMax ((M.dist.grid rm).map dens))
    (hΛ : (Λ : ℝ≥0∞) = ∫⁻ r in Set.Icc 0 rm, ENNReal.ofReal (dens r)) (h0 : Λ ≠ 0)
    (hquad : (M.dist.quad rm).eval dens = Λ)
    (hpois : Samples P (ProbabilityTheory.poissonMeasure Λ)
      fun _ g n g' => base.poisson (Λ : ℝ) g = (.ok n, g'))
    {n : ℕ} {I : Fin n → Set ℝ} (hI : ∀ j, MeasurableSet (I j)) (hdis : ∀ i j, i ≠ j → Disjoint (I i) (I j)) :
    Samples P
      ((Measure.pi fun j => ProbabilityTheory.poissonMeasure
          (meanMeasured ((I j).indicator dens) rm flux μL sigma decimal p).toNNReal).prod
        (Measure.pi fun j => ProbabilityTheory.poissonMeasure
          (meanMeasured ((I j).indicator dens) rm flux μL sigma decimal fun x => 1 - p x).toNNReal))
      fun k g v g' => ∃ Q s', drawSurvey (drawnEnv M half fuel base code y k g)
          (M.classes.synth at' sel y) { fluxSigma := some sigma, log10Draw := decimal } s = .ok Q s' ∧
        s'.heap.rng = g' ∧ Binned Q.distances I v.1 v.2 := by
  have hy := C63_reads _ _ _ _ _ hd hread
  obtain ⟨c, vs, f, hlaw⟩ := config_lawful (fuel := fuel)
    (a := { fluxSigma := some sigma, log10Draw := decimal }) rfl
    (fun x h => by cases h; exact hN) (fun _ => hpos) hM hy hs hl hf hn hm hrm hmax (by
    rw [← hΛ]; exact_mod_cast h0)
  have h1 := distance_bars hlaw (Λ := Λ) ⟨rfl, hpois, by rw [f.density, hquad]⟩ hI hdis M.showProgress M.galB
  have hmean : ∀ (dens' : ℝ → ℝ) (q : ℝ → ℝ≥0∞), (p = 1 → ∃ c, q = fun _ => c) →
      expected dens' rm flux μL
        (sigmaUsed (s.heap.selectors (M.classes.synth at' sel y).fluxSel).kind
          { fluxSigma := some sigma, log10Draw := decimal })
        (observed (M.classes.env (builtins half) fuel base code y)
          (sigmaUsed (s.heap.selectors (M.classes.synth at' sel y).fluxSel).kind
            { fluxSigma := some sigma, log10Draw := decimal }) decimal) q =
        meanMeasured dens' rm flux μL sigma decimal q := by
    intro dens' q hq
    have hfx : s.heap.selectors (M.classes.synth at' sel y).fluxSel =
      M.classes.selector (y.fluxSel.getD unitySel) := hm.flux
    rw [hfx]
    unfold sigmaUsed
    split
    · rename_i hu
      obtain ⟨c, rfl⟩ := hq (unity_certain (M := M) hy hf hu)
      rw [expected_exact _ _ _ _ _
        (observed (M.classes.env (builtins half) fuel base code y) none decimal) fun _ _ => rfl,
        measured_const]
    · exact expected_measured hN _ ⟨rfl, rfl, rfl, rfl, rfl⟩ hpos q
  have hb : ∀ (q : ℝ → ℝ≥0∞), Measurable q → (p = 1 → ∃ c, q = fun _ => c) → ∀ j, _ := fun q hq hc j =>
    ((mean_bin hlaw (by rw [f.density]; exact hmax) (by rw [f.density]; exact hΛ) hq (hI j)).trans
      (part_density _ _ _ (hI j))).trans (hmean _ q hc)
  simp only [hb p hlaw.detection_measurable (fun h => ⟨1, h⟩),
    hb (fun x => 1 - p x) (measurable_const.sub hlaw.detection_measurable) (fun h => ⟨0, by simp [h]⟩),
    f.density] at h1
  refine Samples.mono h1 ?_
  intro k g v g' ⟨Q, s', q1, q2⟩
  refine ⟨Q, s', ?_, q2⟩
  have e : drawnEnv M half fuel base code y k g = surveyEnv (M.classes.env (builtins half) fuel base code y)
      M.dist c.code M.showProgress (M.transform y.spatial.cls) M.galB k g := by
    unfold surveyEnv
    rw [← f.code k]
    rfl
  rw [e]
  exact q1

namespace LawExample

/-- The bars below and above the distance five in a survey drawn from the example configuration
with errors. -/
example : ∃ y e, fromDict (builtins (1 / 2)) convReal config = .ok y e ∧
    (∃ at' sel code s, InMemory machine.classes y at' sel code s) ∧
    ∀ at' sel code s fuel, InMemory machine.classes y at' sel code s →
      Samples seeds
        ((Measure.pi fun j : Fin 2 => ProbabilityTheory.poissonMeasure
          (meanMeasured ((![Set.Iio 5, Set.Ici 5] j : Set ℝ).indicator fun r => 5 * (4 * Real.pi * r ^ 2)) 10
            (fun l r => l / (4 * Real.pi * (r + 1) ^ 2)) lums (1 / 2) true
            ((Set.Ici (1 / 100)).indicator 1)).toNNReal).prod
        (Measure.pi fun j : Fin 2 => ProbabilityTheory.poissonMeasure
          (meanMeasured ((![Set.Iio 5, Set.Ici 5] j : Set ℝ).indicator fun r => 5 * (4 * Real.pi * r ^ 2)) 10
            (fun l r => l / (4 * Real.pi * (r + 1) ^ 2)) lums (1 / 2) true
            fun x => 1 - (Set.Ici (1 / 100)).indicator 1 x).toNNReal))
        fun k g v g' => ∃ Q s', drawSurvey (drawnEnv machine (1 / 2) fuel survey code y k g)
            (machine.classes.synth at' sel y) { fluxSigma := some (1 / 2), log10Draw := true } s = .ok Q s' ∧ s'.heap.rng = g' ∧
          Binned Q.distances ![Set.Iio (5 : ℝ), Set.Ici 5] v.1 v.2 := by
  have hp := Real.pi_pos
  obtain ⟨y, e, hy⟩ := config_read
  refine ⟨y, e, hy, ?_, fun at' sel code s fuel hm => ?_⟩
  · exact memory_exists _ (fun _ => (0, 0, 0)) (C63_reads _ _ _ _ _ config_proper hy) nothing_else
  have hmono : ∀ r t : ℝ, 0 ≤ r → r ≤ t → t ≤ 10 → 5 * (4 * Real.pi * r ^ 2) ≤ 5 * (4 * Real.pi * t ^ 2) := by
    intro r t h0 h1 _
    have : r ^ 2 ≤ t ^ 2 := pow_le_pow_left₀ h0 h1 2
    gcongr
  have hden : constantSpherical.dens [(5 : ℝ)] = fun r => 5 * (4 * Real.pi * r ^ 2) := by
    funext r
    simp only [constantSpherical, sphereVolume]; ring
  have hint := sphere_integral (lambda := 5) (x := 10) (by norm_num) (by norm_num)
  rw [hden] at hint
  refine C106_configured_noisy (Λ := mean) (rm := 10) fairMachine (fairNoise _ _) config_proper hy
    (.constantSphere [("Lambda", .int 5)] 5 10 ⟨_, rfl⟩ (.inl ⟨_, rfl, whole 5⟩) (.inr ⟨rfl, rfl⟩))
    (.logUniform [("Lmin", .int 1), ("Lmax", .int 10)] 1 10 ⟨_, rfl⟩ (.inl ⟨_, rfl, whole_one⟩)
      (.inl ⟨_, rfl, whole 10⟩) (by norm_num) (by norm_num)) ?_
    (.atLeast _ [("boundary", .num (1 / 100))] _ (.inl rfl) ⟨_, rfl⟩ (.inl ⟨_, rfl, .num _⟩)) nothing_else hm
    (by norm_num) ?_ ?_ ?_ ?_ counted.poisson ?_ ?_
  · have h1 : ∀ᵐ L ∂lums, L ∈ Set.Icc (1 : ℝ) 10 :=
      (withDensity_absolutelyContinuous _ _).ae_le (ae_restrict_mem measurableSet_Icc)
    filter_upwards [h1] with L hL
    intro r hr
    have h2 := hr.1
    have h3 : 0 < L := zero_lt_one.trans_le hL.1
    positivity
  · intro r hr
    have := gridMax.end (x := 10) (by norm_num) hmono
    refine (hmono r 10 hr.1 hr.2 le_rfl).trans (le_of_eq ?_)
    exact this.symm
  · rw [hint, ← ENNReal.ofReal_coe_nnreal]
    congr 1
    show (20000 * Real.pi / 3 : ℝ) = _
    ring
  · intro h
    have : (20000 * Real.pi / 3 : ℝ) = 0 := congrArg NNReal.toReal h
    linarith
  · have h := counted.mean
    simp only [constantSpherical_dens, sphereVolume] at h
    rw [show (fun r : ℝ => 5 * (4 * Real.pi * r * r) / 1) = fun r => 5 * (4 * Real.pi * r ^ 2) by
      funext r; ring] at h
    exact h.symm
  · intro j
    fin_cases j
    · exact measurableSet_Iio
    · exact measurableSet_Ici
  · intro i j hij
    fin_cases i <;> fin_cases j
    · exact (hij rfl).elim
    · exact Set.disjoint_left.2 fun r (h1 : r < 5) (h2 : 5 ≤ r) => absurd h1 (not_lt.2 h2)
    · exact Set.disjoint_left.2 fun r (h1 : 5 ≤ r) (h2 : r < 5) => absurd h2 (not_lt.2 h1)
    · exact (hij rfl).elim

end LawExample
end Popsynth
