import Verif.Lemmas.Stream
import Verif.Lemmas.DistanceReturns
import Verif.Props.DistanceReal

/-!
# The law of the distances (C73)
-/

set_option autoImplicit false
set_option linter.unusedSectionVars false

open MeasureTheory Filter

namespace Popsynth
variable {G : Type} [MeasurableSpace G] {P : Measure G} [IsProbabilityMeasure P]

/-- C73: if numpy's uniform numbers are fair, `rejection_sample(n, ymax, xmax, func)`
almost surely returns, its `n` values are independent with a density proportional to
`min(func, ymax)` on `[0, xmax]`, and it leaves the generator as random as before,
independently of what it returned. -/
theorem C73_rejection_sample (env : DistEnv ℝ G) (hfair : Spec.FairUniform P env.uniform)
    (hlt : ∀ a b, env.lt a b = true ↔ a < b) (n : ℕ) {ymax xmax : ℝ} (hy : 0 < ymax)
    (hx : 0 < xmax) {func : ℝ → ℝ} (hf : Measurable func)
    (h0 : ∫⁻ r in Set.Icc 0 xmax, ENNReal.ofReal (min (func r) ymax) ≠ 0) (sp : Spat ℝ) :
    Spec.Samples P (Spec.iid n (Spec.densityLaw (fun r => min (func r) ymax) xmax))
      fun k g v g' => rejectionSample { env with budget := k } n ymax xmax func
        { sp := sp, rng := g } = .ok (List.ofFn v) { sp := sp, rng := g' } := by
  obtain ⟨Sy, py, ey⟩ := hfair ymax hy
  obtain ⟨Sx, px, ex⟩ := hfair xmax hx
  have h1 := rejectOne_samples hy hx py px ey ex hlt (Inv := fun o => o = sp.params)
    (xmax := pure xmax) (code := fun r => pure (func r)) (f := func)
    (fun o ho => ⟨o, rfl, ho⟩) (fun o r ho => ⟨o, rfl, ho⟩) hf h0
  have := densityLaw_prob h0 (cut_mass_finite func ymax xmax)
  refine Samples.mono (Samples.repeat h1 n) fun k g v g' h => ?_
  obtain ⟨o', rfl, e⟩ := rejectMany_repeats k (List.ofFn v) g g' sp h rfl
  rw [List.length_ofFn] at e
  exact e

/-- Cutting off at a bound of the density changes nothing. -/
theorem densityLaw_bounded {f : ℝ → ℝ} {m x : ℝ} (hb : ∀ r, 0 ≤ r → r ≤ x → f r ≤ m) :
    Spec.densityLaw (fun r => min (f r) m) x = Spec.densityLaw f x := by
  have e : ∀ r ∈ Set.Icc (0 : ℝ) x, min (f r) m = f r := fun r hr =>
    min_eq_left (hb r hr.1 hr.2)
  ext X hX
  rw [densityLaw_apply _ _ hX, densityLaw_apply _ _ hX]
  have hI := measurableSet_Icc (a := (0 : ℝ)) (b := x)
  rw [setLIntegral_congr_fun hI fun r hr => by rw [e r hr],
    setLIntegral_congr_fun (hX.inter hI) fun r hr => by rw [e r hr.2]]

/-- What `draw_distance` does to the object: `rs` are the new distances, nothing else that
can be read changes. -/
def Spec.DrewDistances (decl : String → ParamDecl ℝ) (rs : List ℝ) (sp sp' : Spat ℝ) : Prop :=
  sp'.distances = some rs ∧ sp'.theta = sp.theta ∧ sp'.phi = sp.phi ∧
    ∀ n, outcome (paramGet (decl n) n sp'.params) = outcome (paramGet (decl n) n sp.params)

/-- The function whose values are compared with heights, and the values on the grid. -/
def normalizedDens (env : DistEnv ℝ G) (c : SpClass ℝ) (i : Option ℝ) (vs : List ℝ) (r : ℝ) : ℝ :=
  i.elim (c.dens vs r) fun x => env.div (c.dens vs r) x

/-- `draw_distance` when the normalization (if any) worked. -/
theorem drawDistance_samples (env : DistEnv ℝ G) (hfair : Spec.FairUniform P env.uniform)
    (hlt : ∀ a b, env.lt a b = true ↔ a < b) (c : SpClass ℝ)
    (hrm : c.decl "r_max" = declRMax env)
    (huniq : ∀ a b, (c.decl a).isNorm = true → (c.decl b).isNorm = true → a = b)
    (showProgress normalize : Bool) (n : ℕ) (sp : Spat ℝ)
    (hok : ∀ n, sp.params.norm = some n → (c.decl n).isNorm = true)
    {o1 : Obj ℝ} {i : Option ℝ} {old : Option (Option ℝ)} {rm m : ℝ} {vs : List ℝ}
    (hblock : normBlock env c.code normalize sp.params = .ok (i, old) o1)
    (hst : NormStored o1) (hr : rd c.decl "r_max" o1 = some rm)
    (hvs : rdAll c.decl c.reads o1 = .ok vs)
    (hm : m = env.npMax ((env.grid rm).map (normalizedDens env c i vs)))
    (hm0 : 0 < m) (hrm0 : 0 < rm) {f : ℝ → ℝ} (hf : Measurable f)
    (hfe : f = if showProgress then normalizedDens env c i vs else c.dens vs)
    (h0 : ∫⁻ r in Set.Icc 0 rm, ENNReal.ofReal (min (f r) m) ≠ 0) :
    Spec.Samples P (Spec.iid n (Spec.densityLaw (fun r => min (f r) m) rm))
      fun k g v g' => ∃ sp', drawDistance { env with budget := k } c.code showProgress n normalize
        { sp := sp, rng := g } = .ok () { sp := sp', rng := g' } ∧
        Spec.DrewDistances c.decl (List.ofFn v) sp sp' := by
  obtain ⟨Sy, py, ey⟩ := hfair m hm0
  obtain ⟨Sx, px, ex⟩ := hfair rm hrm0
  have := densityLaw_prob h0 (cut_mass_finite f m rm)
  -- the loop of the variant used
  have hx1 : ∀ o, Ready c o1 o → ∃ o', readRMax env o = .ok rm o' ∧ Ready c o1 o' := by
    intro o ho
    obtain ⟨o', e, k, l⟩ := readRMax_ok env hrm (o := o) (rm := rm) (by rw [ho.rel.same]; exact hr)
    exact ⟨o', e, ho.step k l⟩
  have hat : ∀ (j : Option ℝ) o r, Ready c o1 o → ∃ o', normAt env c.code j r o =
      .ok (normalizedDens env c j vs r) o' ∧ Ready c o1 o' := by
    intro j o r ho
    obtain ⟨o', e, k, l⟩ := normAt_returns env c j r (o := o) (vs := vs)
      (by rw [rdAll_congr _ _ ho.rel.same]; exact hvs)
    exact ⟨o', e, ho.step k l⟩
  have hloop : Spec.Samples P (Spec.iid n (Spec.densityLaw (fun r => min (f r) m) rm))
      fun k g v g' => ∀ sp', Ready c o1 sp'.params → ∃ o', Ready c o1 o' ∧
        drawRadii (env.withBudget k) c.code showProgress i m n { sp := sp', rng := g } =
          .ok (List.ofFn v) { sp := { sp' with params := o' }, rng := g' } := by
    cases showProgress with
    | true =>
      have h1 := rejectOne_samples hm0 hrm0 py px ey ex hlt (Inv := Ready c o1)
        (xmax := readRMax env) (code := normAt env c.code i) (f := f) hx1
        (by rw [hfe]; exact hat i) hf h0
      refine Samples.mono (Samples.repeat h1 n) fun k g v g' h sp' hR => ?_
      obtain ⟨o', r', e⟩ := rejectMany_repeats k (List.ofFn v) g g' sp' h hR
      rw [List.length_ofFn] at e
      exact ⟨o', r', e⟩
    | false =>
      have h1 := rejectOne_samples hm0 hrm0 py px ey ex hlt (Inv := Ready c o1)
        (xmax := pure rm) (code := c.code.at') (f := f)
        (fun o ho => ⟨o, rfl, ho⟩)
        (by
          rw [hfe]
          intro o r ho
          obtain ⟨o', e, k, l⟩ := c.at_ready (o := o) (vs := vs)
            (by rw [rdAll_congr _ _ ho.rel.same]; exact hvs) r
          exact ⟨o', e, ho.step k l⟩) hf h0
      refine Samples.mono (Samples.repeat h1 n) fun k g v g' h sp' hR => ?_
      obtain ⟨o2, e2, r2⟩ := hx1 sp'.params hR
      obtain ⟨o', r', e⟩ := rejectMany_repeats k (List.ofFn v) g g' { sp' with params := o2 } h r2
      rw [List.length_ofFn] at e
      refine ⟨o', r', ?_⟩
      unfold drawRadii
      rw [if_neg (by simp)]
      rw [bind_of_ok (show onParams (readRMax (env.withBudget k)) ({ sp := sp', rng := g } : SpSt ℝ G) =
        .ok rm { sp := { sp' with params := o2 }, rng := g } by
          simp only [onParams]
          rw [show readRMax (env.withBudget k) sp'.params = _ from e2])]
      exact e
  refine Samples.mono hloop fun k g v g' h => ?_
  obtain ⟨sp', e, d1, d2, d3⟩ := drawDistance_returns (env.withBudget k) c hrm showProgress normalize n
    sp g g' (o1 := o1) (i := i) (old := old) (rm := rm) (vs := vs) (rs := List.ofFn v) hblock hst hr hvs
    (by rw [hm] at h; exact h)
  exact ⟨sp', e, d1, d2, d3, fun n' =>
    C27_parameters_kept_partial (env.withBudget k) c hrm huniq showProgress normalize n _ _ hok e n'⟩

/-- C73 for `draw_distance` of every class of the modelled form (not normalized, with or
without progress bar): the distances are independent with a density proportional to
`min(dens, ymax)` on `[0, r_max]`, where `ymax` is the largest density on the grid. -/
theorem C73_draw_distance (env : DistEnv ℝ G) (hfair : Spec.FairUniform P env.uniform)
    (hlt : ∀ a b, env.lt a b = true ↔ a < b) (c : SpClass ℝ)
    (hrm : c.decl "r_max" = declRMax env)
    (huniq : ∀ a b, (c.decl a).isNorm = true → (c.decl b).isNorm = true → a = b)
    (showProgress : Bool) (n : ℕ) (sp : Spat ℝ)
    (hok : ∀ n, sp.params.norm = some n →
      (c.decl n).isNorm = true ∧ (sp.params.storage.get? n).isSome)
    {rm m : ℝ} {vs : List ℝ}
    (hr : outcome (paramGet (c.decl "r_max") "r_max" sp.params) = .ok rm)
    (hvs : outcome (readAll c.decl c.reads sp.params) = .ok vs)
    (hm : m = env.npMax ((env.grid rm).map (c.dens vs)))
    (hm0 : 0 < m) (hrm0 : 0 < rm) (hf : Measurable (c.dens vs))
    (h0 : ∫⁻ r in Set.Icc 0 rm, ENNReal.ofReal (min (c.dens vs r) m) ≠ 0) :
    Spec.Samples P (Spec.iid n (Spec.densityLaw (fun r => min (c.dens vs r) m) rm))
      fun k g v g' => ∃ sp', drawDistance { env with budget := k } c.code showProgress n false
        { sp := sp, rng := g } = .ok () { sp := sp', rng := g' } ∧
        Spec.DrewDistances c.decl (List.ofFn v) sp sp' := by
  refine drawDistance_samples env hfair hlt c hrm huniq showProgress false n sp
    (fun n h => (hok n h).1) (i := none) (old := none) (o1 := sp.params) rfl
    (fun n h => (hok n h).2) ?_ ?_ hm hm0 hrm0 hf ?_ h0
  · rw [outcome_paramGet_rd] at hr
    cases h : rd c.decl "r_max" sp.params with
    | none => rw [h] at hr; cases hr
    | some x => rw [h] at hr; cases hr; rfl
  · rw [← readAll_outcome]; exact hvs
  · cases showProgress <;> rfl

/-- C73: where the largest density on the grid bounds the density, the distances follow
exactly the density of the class. -/
theorem C73_draw_distance_exact (env : DistEnv ℝ G) (hfair : Spec.FairUniform P env.uniform)
    (hlt : ∀ a b, env.lt a b = true ↔ a < b) (c : SpClass ℝ)
    (hrm : c.decl "r_max" = declRMax env)
    (huniq : ∀ a b, (c.decl a).isNorm = true → (c.decl b).isNorm = true → a = b)
    (showProgress : Bool) (n : ℕ) (sp : Spat ℝ)
    (hok : ∀ n, sp.params.norm = some n →
      (c.decl n).isNorm = true ∧ (sp.params.storage.get? n).isSome)
    {rm m : ℝ} {vs : List ℝ}
    (hr : outcome (paramGet (c.decl "r_max") "r_max" sp.params) = .ok rm)
    (hvs : outcome (readAll c.decl c.reads sp.params) = .ok vs)
    (hm : m = env.npMax ((env.grid rm).map (c.dens vs)))
    (hrm0 : 0 < rm) (hf : Measurable (c.dens vs))
    (hb : ∀ r, 0 ≤ r → r ≤ rm → c.dens vs r ≤ m)
    (h0 : ∫⁻ r in Set.Icc 0 rm, ENNReal.ofReal (c.dens vs r) ≠ 0) :
    Spec.Samples P (Spec.iid n (Spec.densityLaw (c.dens vs) rm))
      fun k g v g' => ∃ sp', drawDistance { env with budget := k } c.code showProgress n false
        { sp := sp, rng := g } = .ok () { sp := sp', rng := g' } ∧
        Spec.DrewDistances c.decl (List.ofFn v) sp sp' := by
  have e : ∀ r ∈ Set.Icc (0 : ℝ) rm, ENNReal.ofReal (min (c.dens vs r) m) =
      ENNReal.ofReal (c.dens vs r) := fun r hr => by rw [min_eq_left (hb r hr.1 hr.2)]
  have hm0 : 0 < m := by
    by_contra hn
    refine h0 ?_
    rw [setLIntegral_congr_fun measurableSet_Icc
      (g := fun _ => 0) fun r hr => ENNReal.ofReal_of_nonpos ((hb r hr.1 hr.2).trans (not_lt.1 hn))]
    simp
  rw [← densityLaw_bounded hb]
  refine C73_draw_distance env hfair hlt c hrm huniq showProgress n sp hok hr hvs hm hm0 hrm0 hf ?_
  rw [setLIntegral_congr_fun measurableSet_Icc e]
  exact h0

end Popsynth
