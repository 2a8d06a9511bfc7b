import Verif.Props.LawThinning
import Verif.Props.LawDetect
import Verif.Props.LawSky

/-!
# A survey with known law (C74, C75)

A generator whose states are sequences of independent triples: a uniform number, a Poisson
number and a normal number.  A sphere with constant density, luminosities uniform on
`[0, 1]`, measurement errors of 0.5 in the decimal logarithm, and a soft flux limit.
-/

set_option autoImplicit false
set_option linter.unusedSectionVars false

open MeasureTheory Filter
open scoped NNReal ENNReal

namespace Popsynth
namespace LawExample

/-- One triple of numbers. -/
abbrev Triple := ℝ × ℕ × ℝ

/-- The mean number of objects: `5` per unit volume in a sphere of radius `10`. -/
noncomputable def mean : ℝ≥0 := ⟨20000 * Real.pi / 3, by have := Real.pi_pos; positivity⟩

/-- The law of a triple. -/
noncomputable def tripleLaw : Measure Triple :=
  (Spec.uniformLaw 1).prod ((ProbabilityTheory.poissonMeasure mean).prod
    (ProbabilityTheory.gaussianReal 0 1))

instance : IsProbabilityMeasure tripleLaw := by unfold tripleLaw; infer_instance

/-- The law of the generator state. -/
noncomputable abbrev seeds : Measure (ℕ → Triple) := Stream.law tripleLaw

/-- A function of the next triple. -/
theorem draws {α : Type} [MeasurableSpace α] {f : Triple → α} {μ : Measure α}
    (h : MeasurePreserving f tripleLaw μ) [IsProbabilityMeasure μ] :
    MeasurePreserving (fun g => (f (Stream.next g).1, (Stream.next g).2)) seeds (μ.prod seeds) :=
  (h.prod (MeasurePreserving.id seeds)).comp (Stream.next_preserves tripleLaw)

theorem draws_uniform : MeasurePreserving (fun t : Triple => t.1) tripleLaw (Spec.uniformLaw 1) :=
  measurePreserving_fst

theorem draws_poisson : MeasurePreserving (fun t : Triple => t.2.1) tripleLaw
    (ProbabilityTheory.poissonMeasure mean) :=
  measurePreserving_fst.comp measurePreserving_snd

theorem draws_normal : MeasurePreserving (fun t : Triple => t.2.2) tripleLaw
    (ProbabilityTheory.gaussianReal 0 1) :=
  measurePreserving_snd.comp measurePreserving_snd

/-- The distribution in space. -/
noncomputable def env : DistEnv ℝ (ℕ → Triple) where
  uniform h g := (.ok (h * (Stream.next g).1.1), (Stream.next g).2)
  quad := Stream.env.quad
  grid := Stream.env.grid
  npMax := Stream.env.npMax
  div := Stream.env.div
  lt := Stream.env.lt
  thetaOf := Stream.env.thetaOf
  twoPi := Stream.env.twoPi
  ten := 10
  budget := 0

theorem fair : Spec.FairUniform seeds env.uniform := by
  intro h hh
  have := uniformLaw_prob hh
  exact ⟨_, draws ((Stream.scale_uniform hh).comp draws_uniform), fun g => rfl⟩

/-- Luminosities: one uniform number each. -/
noncomputable def lumDraw : ℕ → (ℕ → Triple) → List ℝ × (ℕ → Triple)
  | 0, g => ([], g)
  | n + 1, g => ((Stream.next g).1.1 :: (lumDraw n (Stream.next g).2).1, (lumDraw n (Stream.next g).2).2)

open Classical in
/-- Selections. -/
noncomputable def selEnv : SelEnv ℝ (ℕ → Triple) where
  bern q g := (decide ((Stream.next g).1.1 < q), (Stream.next g).2)
  validProb q := decide (0 ≤ q ∧ q ≤ 1)
  softLog k b v := 1 / (1 + Real.exp (-(k * (Real.logb 10 v - Real.logb 10 b))))
  softLin k b v := 1 / (1 + Real.exp (-(k * (v - b))))
  neg v := -v

theorem uniform_below {q : ℝ} (h0 : 0 ≤ q) (h1 : q ≤ 1) :
    Spec.uniformLaw 1 {u | u < q} = ENNReal.ofReal q := by
  unfold Spec.uniformLaw
  rw [Measure.smul_apply, show {u : ℝ | u < q} = Set.Iio q from rfl,
    Measure.restrict_apply measurableSet_Iio]
  have : Set.Iio q ∩ Set.Icc 0 1 = Set.Ico 0 q := by
    ext u
    simp only [Set.mem_inter_iff, Set.mem_Iio, Set.mem_Icc, Set.mem_Ico]
    constructor
    · rintro ⟨a, b, _⟩; exact ⟨b, a⟩
    · rintro ⟨a, b⟩; exact ⟨b, a, by linarith⟩
  rw [this, Real.volume_Ico]
  simp

open Classical in
theorem fairBern : Spec.FairBern seeds selEnv := by
  refine ⟨Spec.uniformLaw 1, {x | x.2 < x.1}, inferInstance, inferInstance,
    measurableSet_lt measurable_snd measurable_fst, ?_, _, draws draws_uniform,
    Eventually.of_forall fun g => Eventually.of_forall fun k q _ => ?_⟩
  · intro q hq
    have hq : 0 ≤ q ∧ q ≤ 1 := by simpa [selEnv] using hq
    exact uniform_below hq.1 hq.2
  · simp [selEnv]

/-- The survey. -/
noncomputable def survey : SurveyEnv ℝ (ℕ → Triple) where
  world := { sel := selEnv, half := 1 / 2, ninety := 90, showProgress := false
             code := fun _ => { trueSampler := fun _ _ g => { err := some .runtime, trueVals := none, obsVals := none, params := {}, rng := g }
                                obsSampler := fun _ _ g => { err := some .runtime, trueVals := none, obsVals := none, params := {}, rng := g } } }
  spatial := SpatialCode.base env constantSpherical.code false (fun ls ds => .ok (List.zipWith (fun l d => l / (4 * Real.pi * d ^ 2)) ls ds)) (fun a _ => a)
  lum := { draw := fun n s => .ok (lumDraw n s.rng).1 { s with rng := (lumDraw n s.rng).2 }
           phi := fun l o => .ok (l.map fun _ => 1) o }
  seed _ g := .ok g
  poisson _ g := (.ok (Stream.next g).1.2.1, (Stream.next g).2)
  normal sigma g := (sigma * (Stream.next g).1.2.2, (Stream.next g).2)
  validScale _ := true
  mul := (· * ·)
  add := (· + ·)
  log10 := Real.logb 10
  pow10 x := (10 : ℝ) ^ x
  ln := Real.log
  exp := Real.exp
  isFinite _ := true
  minusOne := -1
  frames := 100
  toDict _ _ := .ok .none

/-- The synth. -/
def synth : Synth ℝ :=
  { name := "example", seed := 1234, spatialName := "ConstantSphericalDistribution"
    lumName := some "UniformLuminosity", fluxSel := 1, distSel := 2 }

/-- The soft flux limit. -/
noncomputable def limit : Selector ℝ (ℕ → Triple) where
  kind := .soft
  data := { useFlux := true }
  params := { storage := [("boundary", some (1 / 1000)), ("strength", some 2)] }

/-- The attached objects. -/
noncomputable def state : SurvSt ℝ (ℕ → Triple) where
  heap := { samplers := fun _ => { name := "", obsName := "" }
            selectors := fun i => if i = 1 then limit else { kind := .unity }
            rng := fun _ => (0, 0, 0) }
  sp := LawExample.sp
  lum := {}
  graph := {}

/-- The arguments of `draw_survey`. -/
noncomputable def args : SurveyArgs ℝ := { fluxSigma := some (1 / 2) }

theorem soft_valid (k b x : ℝ) : selEnv.validProb (selEnv.softLog k b x) = true := by
  have h := Real.exp_pos (-(k * (Real.logb 10 x - Real.logb 10 b)))
  simp only [selEnv, decide_eq_true_eq]
  refine ⟨by positivity, ?_⟩
  rw [div_le_one (by positivity)]
  linarith

theorem measurable_logb : Measurable (Real.logb 10) := by
  unfold Real.logb
  exact Real.measurable_log.div_const _

theorem measurable_pow10 : Measurable fun x : ℝ => (10 : ℝ) ^ x :=
  measurable_const.pow measurable_id

theorem soft_measurable (k b : ℝ) : Measurable (selEnv.softLog k b) := by
  have h := measurable_logb
  show Measurable fun x => 1 / (1 + Real.exp (-(k * (Real.logb 10 x - Real.logb 10 b))))
  fun_prop

theorem lum_repeats (k : ℕ) : ∀ (l : List ℝ) (g g' : ℕ → Triple),
    Repeats (fun _ g x g' => x = (Stream.next g).1.1 ∧ g' = (Stream.next g).2) k l g g' →
      lumDraw l.length g = (l, g')
  | [], _, _, h => by cases h; rfl
  | x :: l, g, g', ⟨g1, ⟨h1, h2⟩, h3⟩ => by
    subst h1; subst h2
    simp only [List.length_cons, lumDraw, lum_repeats k l _ g' h3]

theorem gridMax : Spec.GridMax env where
  grid := by
    have e : env.grid = Stream.env.grid := by simp only [env]
    rw [e]; exact Stream.gridMax.grid
  max := by
    have e : env.npMax = Stream.env.npMax := by simp only [env]
    rw [e]; exact Stream.gridMax.max

/-- All assumptions of C74 and C75 hold for this survey. -/
theorem lawful : Spec.Lawful seeds survey env constantSpherical
    (fun ls ds => .ok (List.zipWith (fun l d => l / (4 * Real.pi * d ^ 2)) ls ds)) synth args state
    (fun l d => l / (4 * Real.pi * d ^ 2)) 10 (constantSpherical.dens [5] 10) [5]
    (Spec.uniformLaw 1) (fun x => ENNReal.ofReal (selEnv.softLog 2 (1 / 1000) x)) := by
  have hp := Real.pi_pos
  have hsel : state.heap.selectors synth.fluxSel = limit := rfl
  have hsig : Spec.sigmaUsed (state.heap.selectors synth.fluxSel).kind args = some (1 / 2) := rfl
  have hmono : ∀ r s, 0 ≤ r → r ≤ s → s ≤ (10 : ℝ) →
      constantSpherical.dens [5] r ≤ constantSpherical.dens [5] s := by
    intro r s h0 hrs _
    simp only [constantSpherical_dens, sphereVolume, div_one]
    have : r * r ≤ s * s := mul_self_le_mul_self h0 hrs
    nlinarith
  have hflux : Measurable fun q : ℝ × ℝ => q.1 / (4 * Real.pi * q.2 ^ 2) := by fun_prop
  refine
    { plain := ⟨rfl, by simp [synth], rfl, rfl, by simp [synth], ⟨rfl, rfl⟩, rfl, by simp [synth], fun t => ⟨_, rfl⟩⟩
      uniform := fair
      lt := fun a b => by simp [env, Stream.env]
      thetaOf := fun _ => rfl
      twoPi := rfl
      plainCount := rfl
      declared := constantSpherical_rmax rfl
      unique := constantSpherical_flag
      norm := by intro n h; cases h; exact ⟨rfl, rfl⟩
      radius := ⟨rfl, by norm_num⟩
      values := rfl
      highest := ⟨(gridMax.end (by norm_num) hmono).symm, ?_⟩
      density := by rw [constantSpherical_dens]; unfold sphereVolume; fun_prop
      somewhere := ?_
      fluxes := hflux
      transforms := fun _ _ _ => rfl
      lumProb := inferInstance
      luminosity := ?_
      noise := ?_
      observed := ?_
      finite := Eventually.of_forall fun x _ => rfl
      detects := ?_ }
  · rw [constantSpherical_dens]; simp only [sphereVolume]; positivity
  · have := sphere_mass (l := 5) (x := 10) (by norm_num) (by norm_num)
    rwa [setLIntegral_congr_fun measurableSet_Icc fun r hr => by
      rw [← min_eq_left (hmono r 10 hr.1 hr.2 le_rfl)]] at this
  · intro n
    have h1 : Spec.Samples seeds (Spec.uniformLaw 1)
        fun _ g x g' => x = (Stream.next g).1.1 ∧ g' = (Stream.next g).2 :=
      ⟨_, draws draws_uniform, Eventually.of_forall fun g => Eventually.of_forall fun k => ⟨rfl, rfl⟩⟩
    refine Samples.mono (Samples.repeat h1 n) fun k g v g' hr => ?_
    have h2 := lum_repeats k _ _ _ hr
    rw [List.length_ofFn] at h2
    refine ⟨state.lum, ?_, (List.ofFn v).map fun _ => 1, state.lum.params, rfl, by simp⟩
    show EStateM.Result.ok (lumDraw n g).1 _ = _
    rw [h2]
  · intro sigma hs
    refine ⟨rfl, ?_⟩
    have h1 : MeasurePreserving (fun x => sigma * x) (ProbabilityTheory.gaussianReal 0 1)
        (Spec.noiseLaw (some sigma)) := by
      refine ⟨by fun_prop, ?_⟩
      rw [ProbabilityTheory.gaussianReal_map_const_mul]
      simp [Spec.noiseLaw]
      rfl
    exact ⟨_, draws (h1.comp draws_normal), Eventually.of_forall fun g => Eventually.of_forall fun k => rfl⟩
  · rw [hsig]
    have h1 := measurable_logb
    have h2 := measurable_pow10
    show Measurable fun q : ℝ × ℝ => (10 : ℝ) ^ (Real.logb 10 q.1 + q.2)
    exact h2.comp ((h1.comp measurable_fst).add measurable_snd)
  · rw [hsel]
    exact C74_detects_soft survey.world fairBern rfl rfl rfl rfl (soft_measurable _ _) (soft_valid _ _)

theorem counted : Spec.Counted seeds survey env constantSpherical args 10 [5] mean where
  drawn := rfl
  poisson := ⟨_, draws draws_poisson, Eventually.of_forall fun g => Eventually.of_forall fun k => rfl⟩
  mean := by
    show (20000 * Real.pi / 3 : ℝ) = (QuadStrat.weighted 0 [((0 : ℝ), 10 / 6), (10 / 2, 4 * 10 / 6), (10, 10 / 6)]).eval _
    simp only [QuadStrat.weighted, QuadStrat.eval, constantSpherical_dens, sphereVolume]
    ring

/-- The catalogue of this survey, its detected sources and the probability of an empty
catalogue. -/
example (showProgress : Bool) :
    (Spec.Samples seeds (Spec.poissonSample mean (Spec.catalogueLaw survey constantSpherical synth args
        state (fun l d => l / (4 * Real.pi * d ^ 2)) 10 (constantSpherical.dens [5] 10) [5]
        (Spec.uniformLaw 1) fun x => ENNReal.ofReal (selEnv.softLog 2 (1 / 1000) x)))
      fun k g v g' => ∃ Q s', drawSurvey (Spec.surveyEnv survey env constantSpherical.code showProgress
          (fun ls ds => .ok (List.zipWith (fun l d => l / (4 * Real.pi * d ^ 2)) ls ds)) (fun a _ => a) k g)
          synth args state = .ok Q s' ∧ s'.heap.rng = g' ∧
        Spec.Holds Q (fun l d => l / (4 * Real.pi * d ^ 2)) (Spec.observed survey (some (1 / 2)) true) v) ∧
    ∃ N : (ℕ → Triple) → ℕ, Measurable N ∧
      (∀ᵐ g ∂seeds, ∀ᶠ k in atTop, ∃ Q s', drawSurvey (Spec.surveyEnv survey env constantSpherical.code
          showProgress (fun ls ds => .ok (List.zipWith (fun l d => l / (4 * Real.pi * d ^ 2)) ls ds))
          (fun a _ => a) k g) synth args state = .ok Q s' ∧ Q.nDetections = N g) ∧
      0 < seeds {g | N g = 0} := by
  refine ⟨C74_catalogue lawful counted showProgress _, ?_⟩
  obtain ⟨N, h1, h2, h3⟩ := C75_nothing_detected lawful counted showProgress fun a _ => a
  exact ⟨N, h1, h2, by rw [h3]; exact ENNReal.ofReal_pos.2 (Real.exp_pos _)⟩

end LawExample
end Popsynth
