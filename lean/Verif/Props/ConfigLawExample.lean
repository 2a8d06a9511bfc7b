import Verif.Props.ConfigLaw
import Verif.Props.LawAuxExample

/-!
# A survey drawn from a configuration (C87)

The generator of `Verif.Props.LawSurveyExample`, and a configuration with a sphere of constant
density, log-uniform luminosities and a hard flux limit.
-/

set_option autoImplicit false
set_option linter.unusedSectionVars false

open MeasureTheory
open scoped NNReal ENNReal

namespace Popsynth
namespace LawExample

/-- NumPy and SciPy, and the cosmology of cosmology.py:13-17. -/
noncomputable def machine : Machine (ℕ → Triple) where
  dist := env
  lum := lumEnv
  aux := auxEnv
  cosmo := { Om := 0.307, h0 := 67.7, radiation := 0 }
  showProgress := false
  galB a _ := a
  spiralSky _ := pure ()
  form := id

theorem fairMachine : Spec.FairMachine seeds machine survey where
  uniform := fair
  lt a b := by simp [machine, env, Stream.env]
  thetaOf _ := rfl
  twoPi := rfl
  ten := rfl
  numbers := fairNumbers
  gamma := gammaincinv_exists.choose_spec
  trial := fairBern
  valid q h0 h1 := by simp [survey, selEnv, h0, h1]
  logistic k b := ⟨soft_measurable k b, fun x => by
    have := soft_valid k b x
    simp only [selEnv, decide_eq_true_eq] at this
    exact this⟩

/-- Numbers in configurations. -/
noncomputable def convReal : Conv ℝ where
  ofInt i := i
  ofStr _ := none
  toInt x := ⌊x⌋
  intOfStr _ := none

/-- The configuration; `r_max` has its default, 10. -/
noncomputable def config : Dict (PVal ℝ) :=
  [("seed", .int 1234),
   ("spatial distribution", .dict [("ConstantSphericalDistribution", .dict [("Lambda", .int 5)]),
     ("is_rate", .bool false)]),
   ("luminosity distribution", .dict [("LogUniLuminiosityDistribution",
     .dict [("Lmin", .int 1), ("Lmax", .int 10)])]),
   ("flux selection", .dict [("HardFluxSelection", .dict [("boundary", .num (1 / 100))])])]

theorem exc_bind {ε α β : Type} {x : Except ε α} {f : α → Except ε β} {a : α}
    (h : x = .ok a) : (x >>= f) = f a := by rw [h]; rfl

theorem set_ok {dc : ParamDecl ℝ} {o : Obj ℝ} {k : String} {v : PVal ℝ} {x : ℝ}
    (hv : convReal.float v = .ok x) (hf : dc.free = true) (hmin : dc.vmin = some 0 ∧ 0 ≤ x ∨ dc.vmin = none)
    (hmax : dc.vmax = none) : ∃ o', setParam convReal dc o k v = .ok o' := by
  have h1 : checkMin dc.vmin (some x) = .ok () := by
    rcases hmin with ⟨h, hx⟩ | h <;> rw [h]
    · exact if_pos hx
    · rfl
  have h2 : checkMax dc.vmax (some x) = .ok () := by rw [hmax]; rfl
  refine ⟨{ (touchNorm dc k o) with storage := (touchNorm dc k o).storage.set k (some x) }, ?_⟩
  refine (exc_bind hv).trans ?_
  unfold paramSet
  rw [hf, h1, h2]
  rfl

theorem sets {R : Dict (ParamDecl ℝ)} : ∀ (ps : Dict (PVal ℝ)) (o : Obj ℝ),
    (∀ p ∈ ps, ∃ dc x, Dict.get? R p.1 = some dc ∧ convReal.float p.2 = .ok x ∧ dc.free = true ∧
      (dc.vmin = some 0 ∧ 0 ≤ x ∨ dc.vmin = none) ∧ dc.vmax = none) →
    ∃ o', setParams convReal (Dict.get? R) o ps = .ok o'
  | [], o, _ => ⟨o, rfl⟩
  | (k, v) :: ps, o, h => by
    obtain ⟨dc, x, h1, h2, h3, h4, h5⟩ := h (k, v) (List.mem_cons_self ..)
    obtain ⟨o1, h6⟩ := set_ok (o := o) (k := k) h2 h3 h4 h5
    obtain ⟨o2, h7⟩ := sets ps o1 fun p hp => h p (List.mem_cons_of_mem _ hp)
    refine ⟨o2, ?_⟩
    unfold setParams
    simp only [show Dict.get? R k = some dc from h1]
    exact (exc_bind h6).trans h7

theorem read_head {d : Dict (PVal ℝ)} {y : CSynth ℝ} {half : ℝ}
    (h : loadHead (builtins half) convReal d = .ok y) (ha : Dict.get? d "auxiliary samplers" = none) :
    fromDict (builtins half) convReal d = .ok y d := by
  unfold fromDict
  show (liftE (loadHead (builtins half) convReal d) >>= _ : Py _ _) d = _
  rw [h]
  simp only [ha]
  rfl

theorem config_read : ∃ y e, fromDict (builtins (1 / 2)) convReal config = .ok y e := by
  have h1 : lookup (builtins (1 / 2 : ℝ)).dists "ConstantSphericalDistribution" =
      .ok (asDist [bConstantSpherical, bSpherical, bSpatial, bDistribution]) := by
    rw [builtins_dists]; rfl
  have h2 : lookup (builtins (1 / 2 : ℝ)).dists "LogUniLuminiosityDistribution" =
      .ok (asDist [bLogUni, bLuminosity, bDistribution]) := by
    rw [builtins_dists]; rfl
  have h3 : lookup (builtins (1 / 2 : ℝ)).sels "HardFluxSelection" =
      .ok (asSel [bHardFlux, bLower, bSelection]) := by
    rw [builtins_sels]; rfl
  obtain ⟨o1, s1⟩ := sets (R := (asDist [bConstantSpherical, bSpherical, bSpatial, bDistribution]).params)
    [("Lambda", .int 5)] {} (by
      intro p hp
      obtain rfl := List.mem_singleton.1 hp
      exact ⟨_, _, rfl, rfl, rfl, .inl ⟨rfl, by norm_num [convReal]⟩, rfl⟩)
  obtain ⟨o2, s2⟩ := sets (R := (asDist [bLogUni, bLuminosity, bDistribution]).params)
    [("Lmin", .int 1), ("Lmax", .int 10)] {} (by
      intro p hp
      rcases List.mem_cons.1 hp with rfl | hp
      · exact ⟨_, _, rfl, rfl, rfl, .inl ⟨rfl, by norm_num [convReal]⟩, rfl⟩
      · obtain rfl := List.mem_singleton.1 hp
        exact ⟨_, _, rfl, rfl, rfl, .inl ⟨rfl, by norm_num [convReal]⟩, rfl⟩)
  have e1 : loadDist (builtins (1 / 2)) convReal (.dict [("ConstantSphericalDistribution",
      .dict [("Lambda", .int 5)]), ("is_rate", .bool false)]) = .ok _ :=
    (exc_bind rfl).trans ((exc_bind rfl).trans ((exc_bind h1).trans ((exc_bind rfl).trans
      ((exc_bind rfl).trans ((exc_bind s1).trans rfl)))))
  have e2 : loadLum (builtins (1 / 2)) convReal config = .ok _ :=
    (exc_bind ((exc_bind rfl).trans ((exc_bind rfl).trans ((exc_bind h2).trans ((exc_bind rfl).trans
      ((exc_bind rfl).trans ((exc_bind s2).trans rfl))))))).trans rfl
  have e3 : loadOptSel (builtins (1 / 2)) convReal (fun f => { f with flux := true }) config
      "flux selection" = .ok _ :=
    (exc_bind rfl).trans ((exc_bind rfl).trans ((exc_bind h3).trans rfl))
  have e4 : loadDists (builtins (1 / 2)) convReal config = .ok _ :=
    (exc_bind e2).trans ((exc_bind rfl).trans ((exc_bind e1).trans ((exc_bind rfl).trans
      ((exc_bind rfl).trans ((exc_bind rfl).trans ((exc_bind rfl).trans ((exc_bind rfl).trans rfl)))))))
  have e5 : loadHead (builtins (1 / 2)) convReal config = .ok _ :=
    (exc_bind e4).trans ((exc_bind e3).trans ((exc_bind rfl).trans ((exc_bind rfl).trans rfl)))
  exact ⟨_, config, read_head e5 rfl⟩

theorem config_proper : Spec.Proper (.dict config) := by
  have leaf : ∀ v : PVal ℝ, (∀ d, v ≠ .dict d) → Spec.Proper v := .other
  refine .dict _ (by decide) fun k v hp => ?_
  simp only [config, List.mem_cons, List.not_mem_nil, or_false, Prod.mk.injEq] at hp
  rcases hp with ⟨-, rfl⟩ | ⟨-, rfl⟩ | ⟨-, rfl⟩ | ⟨-, rfl⟩
  · exact leaf _ (by simp)
  · refine .dict _ (by decide) fun k v hp => ?_
    simp only [List.mem_cons, List.not_mem_nil, or_false, Prod.mk.injEq] at hp
    rcases hp with ⟨-, rfl⟩ | ⟨-, rfl⟩
    · exact .one (leaf _ (by simp))
    · exact leaf _ (by simp)
  · refine .one (.dict _ (by decide) fun k v hp => ?_)
    simp only [List.mem_cons, List.not_mem_nil, or_false, Prod.mk.injEq] at hp
    rcases hp with ⟨-, rfl⟩ | ⟨-, rfl⟩ <;> exact leaf _ (by simp)
  · exact .one (.one (leaf _ (by simp)))

theorem nothing_else : Spec.NothingElse config := ⟨.inl rfl, .inl rfl, .inl rfl⟩

theorem whole_one : Spec.IsNumber convReal (.int 1) 1 := by
  have := Spec.IsNumber.int (C := convReal) 1
  simpa [convReal] using this

theorem whole (n : ℕ) [n.AtLeastTwo] : Spec.IsNumber convReal (.int (OfNat.ofNat n)) (OfNat.ofNat n) := by
  have := Spec.IsNumber.int (C := convReal) (OfNat.ofNat n : ℤ)
  simpa [convReal] using this

/-- The number of detections in a survey drawn from this configuration. -/
example : ∃ y e, fromDict (builtins (1 / 2)) convReal config = .ok y e ∧
    (∃ at' sel code s, Spec.InMemory machine.classes y at' sel code s) ∧
    ∀ at' sel code s fuel, Spec.InMemory machine.classes y at' sel code s →
      Spec.Samples seeds (ProbabilityTheory.poissonMeasure
          (Spec.ballCounts 5 (fun L => √(L / (4 * Real.pi * (1 / 100))) - 1) lums).toNNReal)
        fun k g n g' => ∃ Q s', drawSurvey (Spec.drawnEnv machine (1 / 2) fuel survey code y k g)
            (machine.classes.synth at' sel y) {} s = .ok Q s' ∧ s'.heap.rng = g' ∧
          Q.nDetections = n := by
  have hp := Real.pi_gt_three
  obtain ⟨y, e, hy⟩ := config_read
  refine ⟨y, e, hy, ?_, fun at' sel code s fuel hm => ?_⟩
  · exact memory_exists _ (fun _ => (0, 0, 0)) (C63_reads _ _ _ _ _ config_proper hy) nothing_else
  refine C87_sphere (Λ := mean) (rm := 10) (ps := [("Lambda", .int 5)])
    (qs := [("boundary", .num (1 / 100))]) fairMachine config_proper hy ⟨_, rfl⟩
    (.inl ⟨_, rfl, whole 5⟩) (.inr ⟨rfl, rfl⟩)
    (.logUniform [("Lmin", .int 1), ("Lmax", .int 10)] 1 10 ⟨_, rfl⟩ (.inl ⟨_, rfl, whole_one⟩)
      (.inl ⟨_, rfl, whole 10⟩) (by norm_num) (by norm_num))
    ⟨_, rfl⟩ (.inl ⟨_, rfl, .num _⟩) nothing_else hm (by norm_num)
    (by norm_num) (by norm_num) ?_ gridMax ?_ ?_ counted.poisson
  · have h1 : ∀ᵐ L ∂lums, L ∈ Set.Icc (1 : ℝ) 10 :=
      (withDensity_absolutelyContinuous _ _).ae_le (ae_restrict_mem measurableSet_Icc)
    filter_upwards [h1] with L hL
    have : √(L / (4 * Real.pi * (1 / 100))) ≤ 11 := by
      rw [Real.sqrt_le_left (by norm_num), div_le_iff₀ (by positivity)]
      nlinarith [hL.2]
    linarith
  · have h := counted.mean
    simp only [constantSpherical_dens, sphereVolume] at h
    rw [show (fun r : ℝ => 5 * (4 * Real.pi * r * r) / 1) = fun r => 5 * (4 * Real.pi * r ^ 2) by
      funext r; ring] at h
    refine h.symm.trans ?_
    rw [show (fun r : ℝ => 5 * (4 * Real.pi * r ^ 2)) = fun r => 20 * Real.pi * r ^ 2 by
      funext r; ring, intervalIntegral.integral_const_mul, integral_pow]
    show (20000 * Real.pi / 3 : ℝ) = _
    norm_num
    ring
  · show (20000 * Real.pi / 3 : ℝ) = _
    ring

end LawExample
end Popsynth
