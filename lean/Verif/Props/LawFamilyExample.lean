import Verif.Props.LawFamilyDemo
import Verif.Props.LawAttachedExample

/-!
# A survey with derived luminosities and secondary samplers (C84)

The survey of `Verif.Props.LawSurveyExample`, but with luminosities computed by `DemoSampler2`,
which depends on a `DemoSampler`, and with a normal sampler `size` that has a power law sampler
`mass` as secondary.
-/

set_option autoImplicit false
set_option linter.unusedSectionVars false

open MeasureTheory Filter
open scoped NNReal ENNReal

namespace Popsynth
namespace FamilyExample
open LawExample

/-- The survey with the code of the samplers. -/
noncomputable def survey : SurveyEnv ℝ (ℕ → Triple) :=
  { LawExample.survey with world := { LawExample.survey.world with
      code := fun i => if i = 3 then demo2Code auxEnv else if i = 5 then demoCode auxEnv
        else auxCode auxEnv (if i = 7 then .normal else .powerLaw) } }

/-- The synth. -/
def synth : Synth ℝ := { LawExample.synth with lumName := none, derived := some 3, aux := [("size", 7)] }

/-- The samplers. -/
noncomputable def samplerAt (i : ℕ) : Sampler ℝ :=
  if i = 3 then { demo2New 4 with secondaries := [("demo", 5)], hasSecondary := true }
  else if i = 5 then { demoNew 6 with isSecondary := true, parents := ["demo2"] }
  else if i = 7 then { AttachedExample.size with secondaries := [("mass", 9)], hasSecondary := true }
  else { AttachedExample.mass with isSecondary := true, parents := ["size"] }

/-- The state: `size` selects observed values of at least 1, `mass` values of at most 5. -/
noncomputable def state : SurvSt ℝ (ℕ → Triple) where
  heap := { samplers := samplerAt
            selectors := fun i => if i = 1 then limit else if i = 8 then
                { kind := .lower, data := { useObs := true }, params := { storage := [("boundary", some 1)] } }
              else if i = 10 then { kind := .upper, data := { useObs := true }, params := { storage := [("boundary", some 5)] } }
              else { kind := .unity }
            rng := fun _ => (0, 0, 0) }
  sp := LawExample.sp
  lum := {}
  graph := {}

theorem grounded : Spec.Grounded survey.frames synth state.heap := by
  refine ⟨fun i => if i = 3 ∨ i = 7 then 1 else 0, ?_, ?_, ?_, ?_⟩
  · intro k i h
    have : k = "size" ∧ i = 7 := by simpa [synth] using h
    rw [this.2]; rfl
  · intro k j _ n c h
    have h : (n, c) ∈ (samplerAt j).secondaries := h
    unfold samplerAt at h
    split_ifs at h with h1 h2 h3
    · have : n = "demo" ∧ c = 5 := by simpa using h
      simp [this.2, h1]
    · simp [demoNew, newSampler] at h
    · have : n = "mass" ∧ c = 9 := by simpa using h
      simp [this.2, h3]
    · simp [AttachedExample.mass, auxNew, newSampler] at h
  · intro k j _
    show (if j = 3 ∨ j = 7 then 1 else 0) < 100
    split_ifs <;> norm_num
  · intro _ _ _ _ _ _ k j _
    show (samplerAt j).usesDistance = false
    unfold samplerAt
    split_ifs <;> rfl

theorem staged : Spec.Staged seeds survey env constantSpherical
    (fun ls ds => .ok (List.zipWith (fun l d => l / (4 * Real.pi * d ^ 2)) ls ds)) synth args state
    (fun l d => l / (4 * Real.pi * d ^ 2)) 10 (constantSpherical.dens [5] 10) [5]
    (fun x => ENNReal.ofReal (selEnv.softLog 2 (1 / 1000) x)) where
  equipped := ⟨.inl (by simp [synth]), rfl, by simp [synth, LawExample.synth], ⟨rfl, rfl⟩, rfl,
    by simp [synth, LawExample.synth], fun t => ⟨_, rfl⟩, grounded⟩
  uniform := LawExample.lawful.uniform
  lt := LawExample.lawful.lt
  thetaOf := LawExample.lawful.thetaOf
  twoPi := LawExample.lawful.twoPi
  plainCount := LawExample.lawful.plainCount
  declared := LawExample.lawful.declared
  unique := LawExample.lawful.unique
  norm := LawExample.lawful.norm
  radius := LawExample.lawful.radius
  values := LawExample.lawful.values
  highest := LawExample.lawful.highest
  density := LawExample.lawful.density
  somewhere := LawExample.lawful.somewhere
  fluxes := LawExample.lawful.fluxes
  transforms := LawExample.lawful.transforms
  noise := LawExample.lawful.noise
  observed := LawExample.lawful.observed
  detects := LawExample.lawful.detects

theorem counted : Spec.Counted seeds survey env constantSpherical args 10 [5] mean :=
  ⟨LawExample.counted.drawn, LawExample.counted.poisson, LawExample.counted.mean⟩

/-- The parameters of the two samplers of the test suite are the defaults. -/
def defaults (name : String) : ℝ := if name = "mu" then 2 else 1

theorem demo_values : Spec.InForceAll (demoDecl auxEnv) defaults (samplerAt 5).params := by
  intro name d hd
  simp only [demoDecl, Dict.get?, List.find?, List.map] at hd
  by_cases h1 : name = "mu"
  · subst h1; cases hd; simp [Spec.inForce, samplerAt, demoNew, newSampler, Dict.get?, defaults, auxEnv]
  by_cases h2 : name = "tau"
  · subst h2; cases hd; simp [Spec.inForce, samplerAt, demoNew, newSampler, Dict.get?, defaults, auxEnv]
  simp [Ne.symm h1, Ne.symm h2] at hd

theorem demo2_values : Spec.InForceAll (demo2Decl auxEnv) defaults (samplerAt 3).params := by
  intro name d hd
  simp only [demo2Decl, Dict.get?, List.find?, List.map] at hd
  by_cases h1 : name = "mu"
  · subst h1; cases hd; simp [Spec.inForce, samplerAt, demo2New, newSampler, Dict.get?, defaults, auxEnv]
  by_cases h2 : name = "tau"
  · subst h2; cases hd; simp [Spec.inForce, samplerAt, demo2New, newSampler, Dict.get?, defaults, auxEnv]
  by_cases h3 : name = "sigma"
  · subst h3; cases hd; simp [Spec.inForce, samplerAt, demo2New, newSampler, Dict.get?, defaults, auxEnv]
  simp [Ne.symm h1, Ne.symm h2, Ne.symm h3] at hd

/-! ### The luminosities -/

/-- No secondaries. -/
noncomputable def nobody : Fin 0 → Spec.Act := Fin.elim0

/-- `DemoSampler`. -/
noncomputable def demoLead : Spec.Lead 0 :=
  Spec.Lead.latentNormal "demo" 5 6 (Measure.dirac 0) Set.univ fun _ _ z => defaults "mu" + defaults "tau" * z

/-- `DemoSampler2`. -/
noncomputable def demo2Lead : Spec.Lead 1 :=
  Spec.Lead.latentNormal "demo2" 3 4 (Measure.dirac 0) Set.univ (Spec.demo2Latent defaults)

/-- The secondary of `DemoSampler2`. -/
noncomputable def demoKid : Fin 1 → Spec.Act := fun _ => Spec.Act.family nobody demoLead

theorem demo_sings : Spec.Sings seeds survey.world 99 state.heap false (Spec.Act.family nobody demoLead) := by
  refine C84_family (k := 98) (ok := Spec.InForceAll (demoDecl auxEnv) defaults)
    (C84_demo (V := defaults) exactAux fairAux rfl rfl demo_values (by simp [defaults]) (by convert C84_picks_all survey.world (sel := state.heap.selectors 6) rfl; infer_instance))
    (fun j => j.elim0) ⟨rfl, .inr rfl, fun j => j.elim0, ?_, ?_, ?_, ?_⟩
  all_goals simp [Spec.Act.family, demoLead, Spec.Lead.latentNormal]

theorem lights : Spec.Lights seeds survey synth state (Spec.Act.lamp demoKid demo2Lead Spec.demo2Shine) := by
  refine C84_derived (k := 99) (ok := Spec.InForceAll (demo2Decl auxEnv) defaults) rfl rfl
    (C84_demo2 (V := defaults) exactAux fairAux rfl rfl rfl demo2_values (by simp [defaults]) (by convert C84_picks_all survey.world (sel := state.heap.selectors 4) rfl; infer_instance))
    (fun _ => demo_sings) ⟨rfl, .inl rfl, fun _ => rfl, ?_, ?_, ?_, ?_⟩
    (C84_demo2_luminosity exactAux rfl rfl) ?_
  · simp [Spec.Act.family, demoKid, demo2Lead, demoLead, Spec.Lead.latentNormal, nobody]
  · simp [Spec.Act.family, demoKid, demo2Lead, demoLead, Spec.Lead.latentNormal, nobody]
  · simp [Spec.Act.family, demoKid, demo2Lead, demoLead, Spec.Lead.latentNormal, nobody]
  · simp [Spec.Act.family, demoKid, demo2Lead, demoLead, Spec.Lead.latentNormal, nobody]
  · have : Measurable fun x : ℝ => (10 : ℝ) ^ x := measurable_pow10
    unfold Spec.demo2Shine
    exact (this.comp (by fun_prop)).div (by fun_prop)

/-! ### The attached sampler -/

/-- `mass`: a power law between 1 and 9, not observed, selected up to 5. -/
noncomputable def massLead : Spec.Lead 0 :=
  Spec.Lead.builtin 0 "mass" 9 10 false (Spec.lumLaw (Spec.powerDensity 1 9 (1 / 2)) (Set.Icc 1 9))
    (Measure.dirac 0) (Measure.dirac 0) ({x : ℝ × ℝ × ℝ | x.2.2 ≤ 5} ×ˢ Set.univ)

/-- `size`: normal with errors, selected from 1. -/
noncomputable def sizeLead : Spec.Lead 1 :=
  Spec.Lead.builtin 1 "size" 7 8 true (Spec.normalLaw 1 2) (Spec.normalLaw 0 (1 / 10)) (Measure.dirac 0)
    ({x : ℝ × ℝ × ℝ | 1 ≤ x.2.2} ×ˢ Set.univ)

/-- The secondary of `size`. -/
noncomputable def massKid : Fin 1 → Spec.Act := fun _ => Spec.Act.family nobody massLead

theorem mass_sings : Spec.Sings seeds survey.world 99 state.heap false (Spec.Act.family nobody massLead) := by
  have a := C79_powerLaw (V := values) exactAux fairAux (by simp [values]) (by simp [values])
  simp only [values, String.reduceEq, if_true, if_false] at a
  refine C84_family (k := 98) (ok := Spec.HasValues auxEnv .powerLaw values)
    (C84_builtin survey.world (h₀ := state.heap) (env := auxEnv) (kind := .powerLaw) (V := values) (i := 9) rfl rfl rfl rfl rfl
      AttachedExample.mass_values a rfl (by convert C84_picks_upper survey.world (sel := state.heap.selectors 10) (c := 5) rfl (.obsValue rfl rfl rfl) (.inr rfl) rfl; infer_instance))
    (fun j => j.elim0) ⟨rfl, .inr rfl, fun j => j.elim0, ?_, ?_, ?_, ?_⟩
  all_goals simp [Spec.Act.family, massLead, Spec.Lead.builtin]

theorem performs : Spec.Performs seeds survey state.heap (Spec.Act.family massKid sizeLead).troupe := by
  have a := C79_normal (V := values) exactAux fairAux (by simp [values])
  simp only [values, String.reduceEq, if_true, if_false] at a
  have b := C79_errors (V := values) (k := .normal) (by simp [Spec.Observable]) exactAux fairAux (by simp [values])
  simp only [values, String.reduceEq, if_true, if_false] at b
  refine C84_attached (k := 99) (ok := Spec.HasValues auxEnv .normal values) rfl
    (C84_builtin survey.world (h₀ := state.heap) (env := auxEnv) (kind := .normal) (V := values) (i := 7) rfl rfl rfl rfl rfl
      AttachedExample.size_values a b (by convert C84_picks_lower survey.world (sel := state.heap.selectors 8) (c := 1) rfl (.obsValue rfl rfl rfl) (.inl rfl) rfl; infer_instance))
    (fun _ => mass_sings) ⟨rfl, .inl rfl, fun _ => rfl, ?_, ?_, ?_, ?_⟩
  all_goals simp [Spec.Act.family, massKid, sizeLead, massLead, Spec.Lead.builtin, nobody]

/-! ### The survey -/

/-- Everything that gives luminosities. -/
noncomputable def lamp : Spec.Lamp := Spec.Act.lamp demoKid demo2Lead Spec.demo2Shine

/-- Everything that is attached. -/
noncomputable def troupe : Fin 1 → Spec.Troupe := fun _ => (Spec.Act.family massKid sizeLead).troupe

theorem everyone_is : Spec.everyone lamp troupe =
    [("demo2", 3, 4), ("demo", 5, 6), ("mass", 9, 10), ("size", 7, 8)] := by
  simp [Spec.everyone, lamp, troupe, Spec.Act.lamp, Spec.Act.troupe, Spec.Act.family, demoKid, massKid, demoLead,
    demo2Lead, massLead, sizeLead, Spec.Lead.latentNormal, Spec.Lead.builtin, nobody]

theorem company : Spec.Company seeds survey synth state lamp troupe := by
  refine ⟨lights, fun _ => performs, rfl, ?_, ?_, ?_, ?_, ?_, ?_⟩ <;> rw [everyone_is] <;>
    simp [synth, LawExample.synth, readOnlyNames]

/-- The luminosity of an object: with chances `z'` of `DemoSampler`, `z` of `DemoSampler2`. -/
example (r θ φ z' z : ℝ) (c : lamp.κ) (h1 : (c.1 0).2.1 = z') (h2 : c.2.1 = z) :
    lamp.shine (r, (θ, φ)) c = 10 ^ ((2 + z) + (2 + z') - Real.logb 10 (1 + r) + 54) / (2 + z') := by
  subst h1 h2
  simp [lamp, Spec.Act.lamp, Spec.Act.family, Spec.demo2Shine, Spec.demo2Latent, demo2Lead, demoKid, demoLead, Spec.Lead.outcome,
    Spec.Lead.latentNormal, defaults]

/-- The population is a Poisson number of independent objects. -/
example (showProgress : Bool) :
    Spec.Samples seeds (Spec.poissonSample mean (Spec.surveyLaw survey constantSpherical synth args state
        (fun l d => l / (4 * Real.pi * d ^ 2)) 10 (constantSpherical.dens [5] 10) [5]
        (fun x => ENNReal.ofReal (selEnv.softLog 2 (1 / 1000) x)) lamp troupe))
      fun k g v g' => ∃ Q s', drawSurvey (Spec.surveyEnv survey env constantSpherical.code showProgress
          (fun ls ds => .ok (List.zipWith (fun l d => l / (4 * Real.pi * d ^ 2)) ls ds)) (fun a _ => a) k g)
            synth args state = .ok Q s' ∧
        s'.heap.rng = g' ∧ Spec.HoldsAll Q (fun l d => l / (4 * Real.pi * d ^ 2))
          (Spec.observed survey (some (1 / 2)) true) lamp troupe v :=
  C84_catalogue staged company (Eventually.of_forall fun _ _ => rfl) counted showProgress _

end FamilyExample
end Popsynth
