import Verif.Props.DistanceReal
import Verif.Props.Cosmology
import Mathlib.MeasureTheory.Constructions.HaarToSphere
import Mathlib.MeasureTheory.Measure.Lebesgue.VolumeOfBalls
import Mathlib.MeasureTheory.Integral.IntervalIntegral.Basic
import Mathlib.Analysis.SpecialFunctions.Integrals.Basic

/-!
# The expected number of objects (C66)

`draw_survey` asks for a Poisson number of objects whose mean is the integral of the density of
the spatial distribution.  Here it is compared with the number of objects that the documented
number density puts into the surveyed volume.
-/

set_option autoImplicit false
set_option linter.unusedSectionVars false

namespace Popsynth

open MeasureTheory Set

noncomputable section

variable {G : Type}

namespace Spec

/-- The documented number density at a distance, for the distributions around an observer in
flat space; `V` are the values of the parameters. -/
inductive NumberDensity (V : String → ℝ) : SpClass ℝ → (ℝ → ℝ) → Prop
  | constant : NumberDensity V constantSpherical fun _ => V "Lambda"
  | zpower : NumberDensity V zpowerSpherical fun r => V "Lambda" * (1 + r) ^ V "delta"
  | spiral : NumberDensity V spiralGalaxy fun r =>
      V "rho" * ((r + V "R1") / (V "R0" + V "R1")) ^ V "a" *
        Real.exp (-(V "b" * (r - V "R0") / (V "R0" + V "R1")))

/-- The documented number density per comoving volume at a redshift.  (The one of
`UniformCosmoDistribution` is what the code computes; its documentation repeats the one of
`ZPowerCosmoDistribution`.) -/
inductive ComovingDensity (dv : ℝ → ℝ) (isRate : Bool) (V : String → ℝ) :
    SpClass ℝ → (ℝ → ℝ) → Prop
  | sfr : ComovingDensity dv isRate V (sfr dv isRate) fun z =>
      V "r0" * (V "a" + V "rise" * z) / (1 + (z / V "peak") ^ V "decay")
  | zpower : ComovingDensity dv isRate V (zpowerCosmo dv isRate) fun z =>
      V "Lambda" * (1 + z) ^ V "delta"
  | uniform : ComovingDensity dv isRate V (uniformCosmo dv isRate) fun _ =>
      V "r0" / (V "zmax" - V "zmin")

/-- All parameters that the class uses have a value in the object, and `V` are the values. -/
structure ValuesOf (c : SpClass ℝ) (o : Obj ℝ) (V : String → ℝ) : Prop where
  reads : ∀ n ∈ c.reads, outcome (paramGet (c.decl n) n o) = .ok (V n)
  rMax : outcome (paramGet (c.decl "r_max") "r_max" o) = .ok (V "r_max")

/-- The quadrature is exact for this function between zero and `b`. -/
def ExactFor (q : QuadStrat ℝ) (f : ℝ → ℝ) (b : ℝ) : Prop := q.eval f = ∫ r in (0 : ℝ)..b, f r

end Spec

open Spec

theorem rd_of_outcome {decl : String → ParamDecl ℝ} {n : String} {o : Obj ℝ} {v : ℝ}
    (h : outcome (paramGet (decl n) n o) = .ok v) : rd decl n o = some v := by
  rw [outcome_paramGet_rd] at h
  cases h' : rd decl n o with
  | none => rw [h'] at h; cases h
  | some x => rw [h'] at h; cases h; rfl

theorem Spec.ValuesOf.readAll {c : SpClass ℝ} {o : Obj ℝ} {V : String → ℝ}
    (h : ValuesOf c o V) : outcome (readAll c.decl c.reads o) = .ok (c.reads.map V) := by
  rw [readAll_outcome]
  have : ∀ ns : List String, (∀ n ∈ ns, outcome (paramGet (c.decl n) n o) = .ok (V n)) →
      rdAll c.decl ns o = .ok (ns.map V) := by
    intro ns
    induction ns with
    | nil => intro _; rfl
    | cons n ns ih =>
      intro hn
      have h1 := rd_of_outcome (hn n (by simp))
      have h2 := ih fun m hm => hn m (by simp [hm])
      simp [rdAll, h1, h2]
  exact this _ h.reads

/-- **C66**: the mean of the Poisson number is what the quadrature makes of the density with the
values of the parameters, up to `r_max`. -/
theorem C66_count (env : DistEnv ℝ G) (c : SpClass ℝ) (hrmax : c.decl "r_max" = declRMaxR)
    (hten : env.ten = 10) (o : Obj ℝ) (V : String → ℝ) (h : ValuesOf c o V) :
    ∃ o', expectedCount env c.code false o =
      .ok ((env.quad (V "r_max")).eval (c.dens (c.reads.map V))) o' := by
  have hdecl : c.decl "r_max" = declRMax env := by rw [hrmax]; simp [declRMaxR, declRMax, hten]
  have hvs := h.readAll
  rw [readAll_outcome] at hvs
  unfold expectedCount
  rw [if_neg (by simp)]
  obtain ⟨o1, g1, k1⟩ := readRMax_returns env hdecl (rd_of_outcome h.rMax)
  rw [bind_of_ok g1]
  obtain ⟨o2, g2, k2⟩ := QuadStrat.run_returns (f := c.code.at')
    (g := fun r => c.dens (c.reads.map V) r)
    (P := fun o' => RdRel c.decl o o') (fun o1 r hP => by
      obtain ⟨o2, h3, h4⟩ := c.at_returns (o := o1) (vs := c.reads.map V)
        (by rw [rdAll_congr _ _ hP.same]; exact hvs) r
      exact ⟨o2, h3, hP.trans h4⟩) (env.quad (V "r_max")) o1 k1
  exact ⟨o2, g2⟩

/-- A function of the distance integrated over a ball in three dimensions. -/
theorem integral_ball (f : ℝ → ℝ) {R : ℝ} (hR : 0 ≤ R) :
    ∫ x in Metric.ball (0 : EuclideanSpace ℝ (Fin 3)) R, f ‖x‖ =
      ∫ r in (0 : ℝ)..R, 4 * Real.pi * r ^ 2 * f r := by
  have h1 : ∫ x in Metric.ball (0 : EuclideanSpace ℝ (Fin 3)) R, f ‖x‖ =
      ∫ x : EuclideanSpace ℝ (Fin 3), (Iio R).indicator f ‖x‖ := by
    rw [← integral_indicator Metric.isOpen_ball.measurableSet]
    congr 1
    funext x
    simp [indicator]
  rw [h1, integral_fun_norm_addHaar volume ((Iio R).indicator f)]
  have hv : (volume : Measure (EuclideanSpace ℝ (Fin 3))).real (Metric.ball 0 1) =
      Real.pi * 4 / 3 := by
    unfold Measure.real
    rw [EuclideanSpace.volume_ball_fin_three]
    rw [ENNReal.toReal_mul, ENNReal.toReal_pow, ENNReal.toReal_ofReal (by norm_num),
      ENNReal.toReal_ofReal (by positivity)]
    ring
  have hdim : Module.finrank ℝ (EuclideanSpace ℝ (Fin 3)) = 3 := by simp
  rw [hv, hdim, intervalIntegral.integral_of_le hR, integral_Ioc_eq_integral_Ioo]
  have h2 : ∫ y in Ioi (0 : ℝ), y ^ (3 - 1) • (Iio R).indicator f y =
      ∫ y in Ioo (0 : ℝ) R, y ^ 2 * f y := by
    rw [← integral_indicator measurableSet_Ioi, ← integral_indicator measurableSet_Ioo]
    congr 1
    funext y
    by_cases h0 : 0 < y <;> by_cases hr : y < R <;> simp [indicator, h0, hr]
  rw [h2, nsmul_eq_mul, smul_eq_mul, ← mul_assoc, ← integral_const_mul]
  congr 1
  funext y
  push_cast
  ring

theorem NumberDensity_rMax {V : String → ℝ} {c : SpClass ℝ} {ρ : ℝ → ℝ}
    (h : NumberDensity V c ρ) : c.decl "r_max" = declRMaxR := by cases h <;> rfl

theorem ComovingDensity_rMax {dv : ℝ → ℝ} {b : Bool} {V : String → ℝ} {c : SpClass ℝ} {ρ : ℝ → ℝ}
    (h : ComovingDensity dv b V c ρ) : c.decl "r_max" = declRMaxR := by cases h <;> rfl

theorem NumberDensity_dens {V : String → ℝ} {c : SpClass ℝ} {ρ : ℝ → ℝ}
    (h : NumberDensity V c ρ) (r : ℝ) :
    c.dens (c.reads.map V) r = 4 * Real.pi * r ^ 2 * ρ r := by
  cases h
  · simp only [constantSpherical, List.map_cons, List.map_nil, sphereVolume]; ring
  · simp only [zpowerSpherical, List.map_cons, List.map_nil, sphereVolume, add_comm r 1]; ring
  · simp only [spiralGalaxy, List.map_cons, List.map_nil, sphereVolume, neg_mul, neg_div]; ring

theorem ComovingDensity_dens {dv : ℝ → ℝ} {b : Bool} {V : String → ℝ} {c : SpClass ℝ} {ρ : ℝ → ℝ}
    (h : ComovingDensity dv b V c ρ) (z : ℝ) :
    c.dens (c.reads.map V) z = ρ z * dv z / (if b then 1 + z else 1) := by
  cases h
  · simp only [sfr, List.map_cons, List.map_nil, timeAdjustment]
  · simp only [zpowerCosmo, List.map_cons, List.map_nil, timeAdjustment, add_comm z 1]
  · simp only [uniformCosmo, List.map_cons, List.map_nil, timeAdjustment]

/-- **C66**: around an observer in flat space the expected number of objects is the documented
number density integrated over the ball of radius `r_max`. -/
theorem C66_ball (env : DistEnv ℝ G) (hten : env.ten = 10) {c : SpClass ℝ} {V : String → ℝ}
    {ρ : ℝ → ℝ} (hc : NumberDensity V c ρ) (o : Obj ℝ) (h : ValuesOf c o V)
    (hR : 0 ≤ V "r_max")
    (hq : ExactFor (env.quad (V "r_max")) (c.dens (c.reads.map V)) (V "r_max")) :
    ∃ o', expectedCount env c.code false o =
      .ok (∫ x in Metric.ball (0 : EuclideanSpace ℝ (Fin 3)) (V "r_max"), ρ ‖x‖) o' := by
  obtain ⟨o', e⟩ := C66_count env c (NumberDensity_rMax hc) hten o V h
  refine ⟨o', e.trans ?_⟩
  rw [hq, integral_ball ρ hR]
  congr 1
  apply intervalIntegral.integral_congr
  intro r _
  exact NumberDensity_dens hc r

/-- **C66**, constant density: the number density times the volume of the ball. -/
theorem C66_constant (env : DistEnv ℝ G) (hten : env.ten = 10) (V : String → ℝ) (o : Obj ℝ)
    (h : ValuesOf constantSpherical o V) (hR : 0 ≤ V "r_max")
    (hq : ExactFor (env.quad (V "r_max"))
      (constantSpherical.dens (constantSpherical.reads.map V)) (V "r_max")) :
    ∃ o', expectedCount env constantSpherical.code false o =
      .ok (V "Lambda" * (4 / 3 * Real.pi * V "r_max" ^ 3)) o' := by
  obtain ⟨o', e⟩ := C66_ball env hten (NumberDensity.constant (V := V)) o h hR hq
  refine ⟨o', e.trans ?_⟩
  congr 1
  rw [integral_ball (fun _ => V "Lambda") hR]
  simp only [mul_assoc, intervalIntegral.integral_const_mul, intervalIntegral.integral_mul_const,
    integral_pow]
  push_cast
  ring

/-- **C66**, flat land: one dimension, so the density times the length. -/
theorem C66_flatland (env : DistEnv ℝ G) (hten : env.ten = 10) (V : String → ℝ) (o : Obj ℝ)
    (h : ValuesOf flatland o V)
    (hq : ExactFor (env.quad (V "r_max")) (flatland.dens (flatland.reads.map V)) (V "r_max")) :
    ∃ o', expectedCount env flatland.code false o = .ok (V "Lambda" * V "r_max") o' := by
  obtain ⟨o', e⟩ := C66_count env flatland rfl hten o V h
  refine ⟨o', e.trans ?_⟩
  rw [hq]
  congr 1
  simp only [flatland, List.map_cons, List.map_nil, intervalIntegral.integral_const]
  simp
  ring

/-- **C66**, cosmological distributions: the documented comoving density times the volume element
`dv`, for transient events divided by `1 + z`, integrated up to `r_max`. -/
theorem C66_cosmological (env : DistEnv ℝ G) (hten : env.ten = 10) {c : SpClass ℝ}
    {dv : ℝ → ℝ} {isRate : Bool} {V : String → ℝ} {ρ : ℝ → ℝ}
    (hc : ComovingDensity dv isRate V c ρ) (o : Obj ℝ) (h : ValuesOf c o V)
    (hq : ExactFor (env.quad (V "r_max")) (c.dens (c.reads.map V)) (V "r_max")) :
    ∃ o', expectedCount env c.code false o =
      .ok (∫ z in (0 : ℝ)..V "r_max", ρ z * dv z / (if isRate then 1 + z else 1)) o' := by
  obtain ⟨o', e⟩ := C66_count env c (ComovingDensity_rMax hc) hten o V h
  refine ⟨o', e.trans ?_⟩
  rw [hq]
  congr 1
  apply intervalIntegral.integral_congr
  intro z _
  exact ComovingDensity_dens hc z

/-- **C66**: the volume element of the package is the comoving volume per redshift and steradian
`(c / H₀) d² / E(z)`, in Gpc³, with `d` the transverse comoving distance in Mpc. -/
theorem C66_volume {c : Cosmo} (h : FlatCosmology c) :
    ∃ d v : ℝ → ℝ, ∀ z ≥ 0, c.comovingTransverseDistance z = some (3.086e24 * d z) ∧
      c.differentialComovingVolume z = some (v z) ∧
      v z = (299792.458 / c.h0) * d z ^ 2 /
        √((1 + z) ^ 3 * c.Om + (1 - c.Om - c.radiation)) * 1e-9 := by
  obtain ⟨t, ht, -⟩ := C53_comoving_distance h
  obtain ⟨v, hv, -⟩ := C53_volume h
  refine ⟨fun z => t z / 3.086e24, v, fun z hz => ⟨?_, hv z hz, ?_⟩⟩
  · rw [(ht z hz).1]; congr 1; ring
  · have hpos : 0 < (1 + z) ^ 3 * c.Om + (1 - c.Om - c.radiation) := by
      have h1 := h.matter
      have h2 := h.darkEnergy
      have : 0 < (1 + z) ^ 3 := pow_pos (by linarith) 3
      positivity
    have e := hv z hz
    unfold Cosmo.differentialComovingVolume Cosmo.dh Cosmo.a Cosmo.ode at e
    simp only [(ht z hz).1, npDiv_ne h.hubble.ne', npSqrt_nonneg hpos.le, Option.bind_eq_bind,
      Option.bind_some, npDiv_ne (Real.sqrt_pos.2 hpos).ne', Option.pure_def,
      Option.some.injEq] at e
    rw [← e]
    unfold speedOfLight
    norm_num
    ring

/-- **C66 is violated** for cosmological distributions: the density is documented per Gpc³ and
positions are drawn on the whole sky, but the volume element is the one of one steradian and
nothing multiplies it by the solid angle of the sky: the expected number is the one of the
documented density divided by `4 π`. -/
theorem C66_violated_sky (env : DistEnv ℝ G) (hten : env.ten = 10) {cl : SpClass ℝ} {c : Cosmo}
    (hc : FlatCosmology c) {dv : ℝ → ℝ} (hdv : ∀ z ≥ 0, c.differentialComovingVolume z = some (dv z))
    {isRate : Bool} {V : String → ℝ} {ρ : ℝ → ℝ}
    (hcl : ComovingDensity dv isRate V cl ρ) (o : Obj ℝ) (h : ValuesOf cl o V)
    (hR : 0 ≤ V "r_max")
    (hq : ExactFor (env.quad (V "r_max")) (cl.dens (cl.reads.map V)) (V "r_max")) :
    ∃ (d : ℝ → ℝ) (N : ℝ) (o' : Obj ℝ),
      (∀ z ≥ 0, c.comovingTransverseDistance z = some (3.086e24 * d z)) ∧
      expectedCount env cl.code false o = .ok N o' ∧
      (4 * Real.pi) * N = ∫ z in (0 : ℝ)..V "r_max",
        ρ z * ((4 * Real.pi * d z ^ 2) * (299792.458 / c.h0) /
          √((1 + z) ^ 3 * c.Om + (1 - c.Om - c.radiation)) * 1e-9) /
          (if isRate then 1 + z else 1) := by
  obtain ⟨d, v, hv⟩ := C66_volume hc
  obtain ⟨o', e⟩ := C66_cosmological env hten hcl o h hq
  refine ⟨d, _, o', fun z hz => (hv z hz).1, e, ?_⟩
  rw [← intervalIntegral.integral_const_mul]
  apply intervalIntegral.integral_congr
  intro z hz
  rw [uIcc_of_le hR] at hz
  obtain ⟨-, h2, h3⟩ := hv z hz.1
  have : dv z = v z := by rw [hdv z hz.1] at h2; exact Option.some.inj h2
  simp only [this, h3]
  ring

/-- **C66**: of the same density, fewer transient events than steady-state objects are expected,
because their rate falls with redshift. -/
theorem C66_rate {ρ dv : ℝ → ℝ} {R : ℝ} (hR : 0 ≤ R) (hρ : ∀ z ∈ Icc 0 R, 0 ≤ ρ z * dv z)
    {V : String → ℝ} {cr cs : SpClass ℝ}
    (hr : ComovingDensity dv true V cr ρ) (hs : ComovingDensity dv false V cs ρ)
    (hi : IntervalIntegrable (fun z => ρ z * dv z) volume 0 R)
    (hi' : IntervalIntegrable (fun z => ρ z * dv z / (1 + z)) volume 0 R) :
    (∀ z ≥ 0, cr.dens (cr.reads.map V) z * (1 + z) = cs.dens (cs.reads.map V) z) ∧
    ∫ z in (0 : ℝ)..R, cr.dens (cr.reads.map V) z ≤ ∫ z in (0 : ℝ)..R, cs.dens (cs.reads.map V) z := by
  refine ⟨fun z hz => ?_, ?_⟩
  · rw [ComovingDensity_dens hr, ComovingDensity_dens hs]
    have : (1 + z) ≠ 0 := by linarith
    simp only [if_true, Bool.false_eq_true, if_false]
    field_simp
  · simp only [ComovingDensity_dens hr, ComovingDensity_dens hs, if_true, Bool.false_eq_true,
      if_false, div_one]
    refine intervalIntegral.integral_mono_on hR hi' hi fun z hz => ?_
    have h1 : (1 : ℝ) ≤ 1 + z := by linarith [hz.1]
    exact div_le_self (hρ z hz) h1

/-- **C66 is violated** by the star-formation distribution: `r0` is documented as the local
density, which is `r0 · a`. -/
theorem C66_violated_local {dv : ℝ → ℝ} {b : Bool} {V : String → ℝ} {ρ : ℝ → ℝ}
    (h : ComovingDensity dv b V (sfr dv b) ρ) (hd : V "decay" ≠ 0) : ρ 0 = V "r0" * V "a" := by
  have e : ∀ z, ρ z * (fun _ => 1 : ℝ → ℝ) z = V "r0" * (V "a" + V "rise" * z) /
      (1 + (z / V "peak") ^ V "decay") := by
    generalize hc : sfr dv b = c at h
    cases h with
    | sfr => intro z; simp
    | zpower => have := congrArg (fun c => c.reads.length) hc; simp [sfr, zpowerCosmo] at this
    | uniform => have := congrArg (fun c => c.reads.length) hc; simp [sfr, uniformCosmo] at this
  have := e 0
  simp only [mul_one, mul_zero, add_zero, zero_div, Real.zero_rpow hd, div_one] at this
  exact this

/-- **C66 is violated** by the uniform distribution: `zmin` and `zmax` do not limit the
redshifts, objects are put at every redshift of positive volume, and the density depends on the
limits only through their difference. -/
theorem C66_violated_limits (dv : ℝ → ℝ) (b : Bool) (V : String → ℝ) (h0 : 0 < V "r0")
    (hz : V "zmin" < V "zmax") (z : ℝ) (h : 0 ≤ z) (hdv : 0 < dv z) :
    0 < (uniformCosmo dv b).dens ((uniformCosmo dv b).reads.map V) z := by
  rw [ComovingDensity_dens (ComovingDensity.uniform (V := V))]
  have : 0 < V "zmax" - V "zmin" := by linarith
  have h1 : (0 : ℝ) < if b = true then 1 + z else 1 := by split <;> linarith
  positivity

/-! ### Examples -/

namespace ExpectedCountExample

/-- Simpson's rule on one interval, exact for the constant density in a ball. -/
def env : DistEnv ℝ Unit :=
  { uniform := fun _ g => (.ok 0, g),
    quad := fun h => QuadStrat.weighted 0 [(0, h / 6), (h / 2, 4 * h / 6), (h, h / 6)],
    grid := fun _ => [], npMax := fun _ => 0, div := fun a b => a / b, lt := fun _ _ => true,
    thetaOf := id, twoPi := 6, ten := 10, budget := 0 }

/-- The parameters of an object with `Lambda = 5` and `r_max = 3`. -/
def values (n : String) : ℝ := if n = "r_max" then 3 else 5

theorem valuesOf : ValuesOf constantSpherical
    { storage := [("Lambda", some 5), ("r_max", some 3)], norm := some "Lambda" } values :=
  ⟨fun n hn => by
    rcases List.mem_singleton.1 (show n ∈ ["Lambda"] from hn) with rfl
    rfl, rfl⟩

theorem exactFor : ExactFor (env.quad (values "r_max"))
    (constantSpherical.dens (constantSpherical.reads.map values)) (values "r_max") := by
  have e : (constantSpherical.dens (constantSpherical.reads.map values)) =
      fun r => 20 * Real.pi * r ^ 2 := by
    funext r
    simp only [constantSpherical, List.map_cons, List.map_nil, sphereVolume, values]
    simp
    ring
  unfold ExactFor
  rw [e, intervalIntegral.integral_const_mul, integral_pow]
  simp only [env, QuadStrat.weighted, QuadStrat.eval, values, if_true]
  norm_num
  ring

/-- Five objects per unit volume up to distance three: `180 π` objects are expected. -/
example : ∃ o', expectedCount env constantSpherical.code false
    { storage := [("Lambda", some 5), ("r_max", some 3)], norm := some "Lambda" } =
      .ok (180 * Real.pi) o' := by
  obtain ⟨o', e⟩ := C66_constant env rfl values _ valuesOf (by norm_num [values]) exactFor
  refine ⟨o', e.trans ?_⟩
  have h1 : values "Lambda" = 5 := by simp [values]
  have h2 : values "r_max" = 3 := by simp [values]
  rw [h1, h2]
  congr 1
  ring

/-- In flat space a spiral galaxy has the density `rho` at the distance `R0`. -/
example (V : String → ℝ) (ρ : ℝ → ℝ) (h : V "R0" + V "R1" ≠ 0)
    (hρ : ρ = fun r => V "rho" * ((r + V "R1") / (V "R0" + V "R1")) ^ V "a" *
        Real.exp (-(V "b" * (r - V "R0") / (V "R0" + V "R1")))) :
    NumberDensity V spiralGalaxy ρ ∧ ρ (V "R0") = V "rho" := by
  subst hρ
  refine ⟨.spiral, ?_⟩
  simp [div_self h]

/-- The hypotheses of the theorem on the sky hold for the default cosmology. -/
example : ∃ dv : ℝ → ℝ, ∀ z ≥ 0,
    (Cosmo.mk 0.307 67.7 0.0001).differentialComovingVolume z = some (dv z) := by
  obtain ⟨v, hv, -⟩ := C53_volume (c := ⟨0.307, 67.7, 0.0001⟩) (by constructor <;> norm_num)
  exact ⟨v, hv⟩

/-- Limits of the uniform distribution between one and two: objects at redshift five as well. -/
example : 0 < (uniformCosmo (fun z => z ^ 2) true).dens [1, 2, 1] 5 := by
  have := C66_violated_limits (fun z => z ^ 2) true
    (fun n => if n = "zmax" then 2 else 1) (by simp) (by simp) 5 (by norm_num) (by norm_num)
  simpa [uniformCosmo] using this

end ExpectedCountExample

end

end Popsynth
