import Verif.Props.LawAux
import Verif.Props.LawLumExample
import Mathlib.Probability.Kernel.Representation

/-!
# Auxiliary samplers with concrete parameters (C79)

The generator of `Verif.Props.LawSurveyExample`; truncated normal and Pareto numbers are functions
of its uniform numbers.
-/

set_option autoImplicit false
set_option linter.unusedSectionVars false

open MeasureTheory ProbabilityTheory

namespace Popsynth

/-- Every law on the real numbers is the law of a function of a uniform number. -/
theorem exists_transform (μ : Measure ℝ) [IsProbabilityMeasure μ] :
    ∃ f : ℝ → ℝ, MeasurePreserving f (Spec.uniformLaw 1) μ := by
  obtain ⟨f, hf, e⟩ := Measure.exists_measurable_map_eq μ
  have hp : MeasurePreserving (Set.projIcc (0 : ℝ) 1 zero_le_one) (Spec.uniformLaw 1) volume := by
    refine ⟨continuous_projIcc.measurable, ?_⟩
    have h := measurePreserving_subtype_coe (μa := (volume : Measure ℝ)) (measurableSet_Icc (a := (0 : ℝ)) (b := 1))
    have hu : Spec.uniformLaw 1 = volume.restrict (Set.Icc (0 : ℝ) 1) := by
      unfold Spec.uniformLaw; simp
    rw [hu, ← h.map_eq, Measure.map_map continuous_projIcc.measurable h.measurable]
    have : (Set.projIcc (0 : ℝ) 1 zero_le_one ∘ fun a : Set.Icc (0 : ℝ) 1 => (a : ℝ)) = id := by
      funext a; simp
    exact (congrArg (fun k => Measure.map k _) this).trans Measure.map_id
  exact ⟨fun u => f (Set.projIcc 0 1 zero_le_one u), (MeasurePreserving.mk hf e).comp hp⟩

/-- Every law on an interval is the law of a function into the interval of a uniform number. -/
theorem exists_transform_Icc (μ : Measure ℝ) [IsProbabilityMeasure μ] {a b : ℝ} (hab : a ≤ b)
    (h : ∀ᵐ x ∂μ, x ∈ Set.Icc a b) :
    ∃ f : ℝ → ℝ, (∀ u, f u ∈ Set.Icc a b) ∧ MeasurePreserving f (Spec.uniformLaw 1) μ := by
  obtain ⟨f, hf⟩ := exists_transform μ
  have hc : MeasurePreserving (fun x => (Set.projIcc a b hab x : ℝ)) μ μ := by
    refine ⟨measurable_subtype_coe.comp continuous_projIcc.measurable, ?_⟩
    have : (fun x => (Set.projIcc a b hab x : ℝ)) =ᵐ[μ] id := by
      filter_upwards [h] with x hx
      rw [Set.projIcc_of_mem hab hx]; rfl
    rw [Measure.map_congr this, Measure.map_id]
  exact ⟨fun u => Set.projIcc a b hab (f u), fun u => Subtype.coe_prop _, hc.comp hf⟩

/-- Truncated standard normal numbers from uniform numbers. -/
theorem exists_truncated {a b : ℝ} (hab : a < b) : ∃ f : ℝ → ℝ, (∀ u, f u ∈ Set.Icc a b) ∧
    MeasurePreserving f (Spec.uniformLaw 1) ((gaussianReal 0 1)[|Set.Icc a b]) := by
  have hne : (gaussianReal 0 1) (Set.Icc a b) ≠ 0 := by
    have := normalLaw_Icc (mu := 0) (tau := 1) one_pos hab
    rwa [← normalLaw_std, show (fun z : ℝ => z * 1 + 0) = id by funext z; simp, Measure.map_id] at this
  have := cond_isProbabilityMeasure hne
  exact exists_transform_Icc _ hab.le (ae_cond_mem measurableSet_Icc)

namespace LawExample

/-- The law of Pareto numbers with minimum one. -/
noncomputable abbrev pareto1 (a : ℝ) : Measure ℝ := Spec.lumLaw (Spec.paretoDensity 1 a) (Set.Ici 1)

open Classical in
/-- Random numbers and arithmetic of the auxiliary samplers. -/
noncomputable def auxEnv : AuxEnv ℝ (ℕ → Triple) where
  num n := n
  normal := lumEnv.normal
  uniform := lumEnv.uniform
  numbaUniform := lumEnv.uniform
  truncStd a b g := (if h : a < b then (exists_truncated h).choose (Stream.next g).1.1 else a,
    (Stream.next g).2)
  pareto a g := (Real.exp (-Real.log (1 - (Stream.next g).1.1) / a) * 1 - 1, (Stream.next g).2)
  bernoulli := lumEnv.bern
  add := (· + ·)
  sub := (· - ·)
  mul := (· * ·)
  div := (· / ·)
  pyDiv a b := if b = 0 then .error .value else .ok (a / b)
  eq a b := decide (a = b)
  lt a b := decide (a < b)
  exp := Real.exp
  exp10 x := 10 ^ x
  log := Real.log
  log10 := Real.logb 10
  arccos := Real.arccos
  sin := Real.sin
  cosDeg x := Real.cos (x * (Real.pi / 180))
  pi := Real.pi
  ppfLow m t := m - 4 * t
  plaw lo hi a u := (plawSample lo hi a u).getD 0
  bplWeight x0 x1 x2 a1 a2 := match integratePl x0 x1 x2 a1 a2 with
    | some (w1, _) => .ok w1
    | none => .error .value
  bplPiece lo hi a u := (pieceSample lo hi a u).getD 0

theorem exactAux : Spec.ExactAux auxEnv where
  num _ := rfl
  add _ _ := rfl
  sub _ _ := rfl
  mul _ _ := rfl
  div _ _ := rfl
  pyDiv x y h := if_neg h
  eq x y := by simp [auxEnv]
  lt x y := by simp [auxEnv]
  exp _ := rfl
  exp10 _ := rfl
  log _ := rfl
  log10 _ := rfl
  arccos _ := rfl
  cosDeg _ := rfl
  pi := rfl
  plaw lo hi a u x h := by simp [auxEnv, h]
  weight x0 x1 x2 a1 a2 w1 w2 c h := by simp [auxEnv, h]
  piece lo hi a u x h := by simp [auxEnv, h]

theorem fairAux : Spec.FairAux seeds auxEnv pareto1 where
  normal := fairNumbers.normal
  uniform := fairNumbers.uniform
  numba := fairNumbers.uniform
  bern := fairNumbers.bern
  trunc a b h := by
    have hs := (exists_truncated h).choose_spec.2
    have : IsProbabilityMeasure ((gaussianReal 0 1)[|Set.Icc a b]) := by
      rw [← hs.map_eq]; exact Measure.isProbabilityMeasure_map hs.measurable.aemeasurable
    refine ⟨_, draws (hs.comp draws_uniform), Filter.Eventually.of_forall fun g =>
      Filter.Eventually.of_forall fun k => ?_⟩
    simp only [auxEnv, dif_pos h]; rfl
  truncInside a b h g := by
    simp only [auxEnv, dif_pos h]
    exact (exists_truncated h).choose_spec.1 _
  pareto a h := by
    obtain ⟨S, -, -, s1, s2⟩ := pareto_transform (lmin := 1) one_pos h
    have i1 : IsProbabilityMeasure (pareto1 a) := by
      unfold pareto1; rw [← s2.map_eq]; exact Measure.isProbabilityMeasure_map s2.measurable.aemeasurable
    have hm : MeasurePreserving (fun x => x - 1) (pareto1 a) ((pareto1 a).map fun x => x - 1) :=
      ⟨by fun_prop, rfl⟩
    have i2 : IsProbabilityMeasure ((pareto1 a).map fun x => x - 1) :=
      Measure.isProbabilityMeasure_map (by fun_prop)
    refine ⟨_, draws (hm.comp (s2.comp draws_uniform)), Filter.Eventually.of_forall fun g =>
      Filter.Eventually.of_forall fun k => ?_⟩
    simp only [s1, auxEnv, Function.comp]

/-- Values of parameters. -/
noncomputable def values (n : String) : ℝ :=
  if n = "mu" then 1 else if n = "tau" then 2 else if n = "lower" then 3 / 2 else
  if n = "upper" then 100 else if n = "xmin" then 1 else if n = "xbreak" then 3 else
  if n = "xmax" then 9 else if n = "alpha" then 1 / 2 else if n = "beta" then -2 else
  if n = "max_angle" then 90 else if n = "sigma" then 1 / 10 else 7

/-- Samplers with these values. -/
example :
    Spec.AuxDraws seeds auxEnv .normal values (Spec.normalLaw 1 2) ∧
    Spec.AuxDraws seeds auxEnv .logNormal values ((Spec.normalLaw 1 2).map Real.exp) ∧
    Spec.AuxDraws seeds auxEnv .delta values (Measure.dirac 7) ∧
    Spec.AuxDraws seeds auxEnv .truncNormal values ((Spec.normalLaw 1 2)[|Set.Icc (3 / 2) 100]) ∧
    Spec.AuxDraws seeds auxEnv .truncLogNormal values
      (((Spec.normalLaw 1 2).map Real.exp)[|Set.Icc (3 / 2) 100]) ∧
    Spec.AuxDraws seeds auxEnv .pareto values
      (Spec.lumLaw (Spec.paretoDensity 1 (1 / 2)) (Set.Ici 1)) ∧
    Spec.AuxDraws seeds auxEnv .powerLaw values
      (Spec.lumLaw (Spec.powerDensity 1 9 (1 / 2)) (Set.Icc 1 9)) ∧
    Spec.AuxErrors seeds auxEnv .normal values (Spec.normalLaw 0 (1 / 10)) := by
  have a := C79_normal (V := values) exactAux fairAux (by simp [values])
  have b := C79_logNormal (V := values) exactAux fairAux (by simp [values])
  have c := C79_delta (P := seeds) (env := auxEnv) (V := values)
  have d := C79_truncNormal (V := values) exactAux fairAux (by simp [values]) (by simp [values]; norm_num)
  have e := C79_truncLogNormal_partial (V := values) exactAux fairAux (by simp [values])
    (by simp [values]) (by simp [values]; norm_num)
  have f := C79_pareto (V := values) exactAux fairAux (by simp [values]) (by simp [values])
  have g := C79_powerLaw (V := values) exactAux fairAux (by simp [values]) (by simp [values])
  have h := C79_errors (V := values) (k := .normal) (by simp [Spec.Observable]) exactAux fairAux
    (by simp [values])
  simp only [values, String.reduceEq, if_true, if_false] at a b c d e f g h
  exact ⟨a, b, c, d, e, f, g, h⟩

/-- The rest of the classes, and the two that miss part of their range. -/
example :
    (∃ p, Spec.IsBrokenPowerLaw p 1 3 9 (1 / 2) (-2) ∧
      Spec.AuxDraws seeds auxEnv .brokenPowerLaw values (Spec.lumLaw p Set.univ)) ∧
    Spec.AuxDraws seeds auxEnv .ra values (Spec.uniformLaw (2 * Real.pi)) ∧
    Spec.AuxDraws seeds auxEnv .dec values (Spec.densityLaw Real.sin Real.pi) ∧
    Spec.AuxDraws seeds auxEnv .viewingAngle values
      (Spec.lumLaw (fun t => Real.sin t / (1 - Real.cos (90 * (Real.pi / 180))))
        (Set.Icc 0 (90 * (Real.pi / 180)))) := by
  obtain ⟨p, -, a, -, b⟩ := C79_bpl (V := values) exactAux fairAux
    (by simp only [values, String.reduceEq, if_true, if_false]; constructor <;> norm_num)
  have c := C79_viewingAngle (V := values) exactAux fairAux
    (by simp only [values, String.reduceEq, if_true, if_false]; constructor <;> norm_num)
  simp only [values, String.reduceEq, if_true, if_false] at a c
  exact ⟨⟨p, a, b⟩, C79_ra exactAux fairAux, C79_dec exactAux fairAux, c⟩

/-- The truncated base-ten sampler with lower limit 3/2 never draws numbers slightly above 3/2. -/
example : ∃ μ, Spec.AuxDraws seeds auxEnv .truncLog10Normal values μ ∧
    μ (Set.Ico (3 / 2) ((3 / 2) ^ Real.log 10)) = 0 ∧
    (((Spec.normalLaw 1 2).map fun x => (10 : ℝ) ^ x)[|Set.Icc (3 / 2) 100])
      (Set.Ico (3 / 2) ((3 / 2) ^ Real.log 10)) ≠ 0 := by
  have := C79_violated_truncLog10 (V := values) exactAux fairAux (by simp [values])
    (by simp only [values, String.reduceEq, if_true, if_false]; norm_num)
    (by
      simp only [values, String.reduceEq, if_true, if_false]
      have h1 : Real.log 10 ≤ 9 := by
        have := Real.log_le_sub_one_of_pos (x := 10) (by norm_num)
        linarith
      calc ((3 / 2 : ℝ)) ^ Real.log 10 ≤ (3 / 2) ^ (9 : ℝ) :=
            Real.rpow_le_rpow_of_exponent_le (by norm_num) h1
        _ = (3 / 2) ^ (9 : ℕ) := by norm_cast
        _ < 100 := by norm_num)
  simp only [values, String.reduceEq, if_true, if_false] at this
  exact this

end LawExample
end Popsynth
