import Verif.Props.LawFamilyParts
import Verif.Model.DemoSampler

/-!
# The samplers of the test suite (C84)
-/

set_option autoImplicit false
set_option linter.unusedSectionVars false

open MeasureTheory Filter
open scoped NNReal ENNReal

namespace Popsynth
variable {G : Type} [MeasurableSpace G] {P : Measure G} [IsProbabilityMeasure P]

/-- The declared parameters have the values `V`. -/
def Spec.InForceAll {F : Type} (decl : Dict (ParamDecl F)) (V : String → F) (o : Obj F) : Prop :=
  ∀ name d, decl.get? name = some d → Spec.inForce d name o = some (V name)

/-- Reading a parameter. -/
theorem declAttr_of {F H : Type} {decl : Dict (ParamDecl F)} {V : String → F} {name : String} {s : CodeSt F H}
    (h : Spec.InForceAll decl V s.params) (hn : (decl.get? name).isSome = true) :
    ∃ o, declAttr decl name s = .ok (V name) { s with params := o } ∧ Spec.InForceAll decl V o := by
  obtain ⟨d, hd⟩ := Option.isSome_iff_exists.1 hn
  refine ⟨endState (paramGet d name s.params), ?_, fun name' d' hd' => ?_⟩
  · unfold declAttr
    rw [hd]
    simp only
    rw [outcome_get, h name d hd]
    rfl
  · rw [← h name' d' hd', inForce_eq, storage_after_get]
    by_cases hm : name = name'
    · subst hm
      rw [hd] at hd'; cases hd'
      rw [inForce_eq]
      rcases Dict.get? s.params.storage name with _ | _ | x <;> cases d.default <;> simp
    · simp [hm, inForce_eq]

theorem asCode_of {m : SView ℝ → ℕ → Py (CodeSt ℝ G) Unit} {v : SView ℝ} {n : ℕ} {g : G} {s : CodeSt ℝ G}
    (h : m v n { params := v.params, trueVals := v.trueVals, obsVals := v.obsVals, rng := g } = .ok () s) :
    asCode m v n g = { trueVals := s.trueVals, obsVals := s.obsVals, params := s.params, rng := s.rng } := by
  unfold asCode
  rw [h]

theorem npNormal_of {env : AuxEnv ℝ G} (hx : Spec.ExactAux env) {mu tau : ℝ} (ht : 0 ≤ tau) {n : ℕ}
    {s : CodeSt ℝ G} {z : Fin n → ℝ} {g' : G} (hd : drawMany env.normal n s.rng = (List.ofFn z, g')) :
    npNormal env mu tau n s = .ok (List.ofFn fun i => mu + tau * z i) { s with rng := g' } := by
  unfold npNormal
  have hl : ¬ env.lt tau (env.num 0) = true := by
    rw [hx.lt, hx.num]; simpa using ht
  rw [if_neg hl]
  have k : sampleRng (drawMany env.normal n) s = .ok (List.ofFn z) { s with rng := g' } := by
    unfold sampleRng; rw [hd]
  rw [bind_of_ok k]
  simp only [List.map_ofFn, pure_apply, Function.comp_def, hx.add, hx.mul]

theorem elementwise_ofFn {n : ℕ} (f : ℝ → ℝ → ℝ) (a b : Fin n → ℝ) :
    elementwise f (List.ofFn a) (List.ofFn b) = .ok (List.ofFn fun i => f (a i) (b i)) := by
  unfold elementwise
  rw [if_pos (by simp), ofFn_zipWith]

variable {env : AuxEnv ℝ G} {pl : ℝ → Measure ℝ} {V : String → ℝ} {w : World ℝ G} {h₀ : Heap ℝ G} {lit : Bool}

/-- A sampler that is not observed, with a normal number for its true value. -/
noncomputable def Spec.Lead.latentNormal {m : ℕ} (key : String) (id sel : ℕ) (ν' : Measure ℝ)
    (D : Set ((ℝ × ℝ × ℝ) × ℝ)) (latent : Spec.Seen → (Fin m → ℝ × ℝ) → ℝ → ℝ) : Spec.Lead m where
  key := key
  id := id
  sel := sel
  μ := ProbabilityTheory.gaussianReal 0 1
  ν := Measure.dirac 0
  ν' := ν'
  latent := latent
  noisy _ _ t _ := t
  D := D

theorem latentNormal_leads {m i q : ℕ} {key : String} {names : Fin m → String} {ok : Obj ℝ → Prop}
    {ν' : Measure ℝ} {D : Set ((ℝ × ℝ × ℝ) × ℝ)} {latent : Spec.Seen → (Fin m → ℝ × ℝ) → ℝ → ℝ}
    (hf : Spec.FairAux P env pl)
    (hnew : (h₀.samplers i).isSampled = false)
    (hdark : (h₀.samplers i).luminosity = none) (hname : (h₀.samplers i).name = key)
    (hsel : (h₀.samplers i).selector = q) (hobs : (h₀.samplers i).isObserved = false)
    (hm : Measurable fun z : Spec.Seen × (Fin m → ℝ × ℝ) × ℝ => latent z.1 z.2.1 z.2.2)
    (hprob : (w.code i).prob = fun _ => .ok none)
    (hrun : ∀ (n : ℕ) (g g' : G) (t : Fin n → ℝ), drawMany env.normal n g = (List.ofFn t, g') →
      ∀ x vals, ∃ p1, ok p1 ∧ (w.code i).trueSampler (Spec.viewOf lit (h₀.samplers i) names x vals) n g =
        { trueVals := some (List.ofFn fun i => latent (x i) (vals i) (t i))
          obsVals := (h₀.samplers i).obsVals, params := p1, rng := g' })
    (hD : open Classical in Spec.Picks P w (h₀.selectors q) (h₀.samplers i).usesDistance lit ν' D) :
    Spec.Leads P w h₀ lit names ok (Spec.Lead.latentNormal key i q ν' D latent) := by
  refine ⟨hnew, hdark, hname, hsel, ⟨by unfold Spec.Lead.latentNormal; infer_instance, by unfold Spec.Lead.latentNormal; infer_instance⟩,
    hm, by unfold Spec.Lead.latentNormal; fun_prop, fun n => ?_, fun n => ?_, ?_, hD⟩
  · exact Samples.mono (drawMany_samples hf.normal n) fun _ g t g' hd x vals => hrun n g g' t hd x vals
  · show Spec.Samples P (Spec.iid n (Measure.dirac 0)) _
    rw [iid_dirac]
    refine ⟨fun g => (fun _ => 0, g), ⟨by fun_prop, by rw [Measure.dirac_prod]⟩, ?_⟩
    refine Eventually.of_forall fun g => Eventually.of_forall fun k x vals t p1 hp => ⟨p1, hp, ?_⟩
    have : (h₀.samplers (Spec.Lead.latentNormal key i q ν' D latent).id).isObserved = false := hobs
    rw [this, if_neg (by simp)]
    exact ⟨fun _ => rfl, rfl, rfl⟩
  · intro n x vals t o p2 hp
    refine ⟨none, ?_, fun l hl => by cases hl⟩
    show (w.code i).prob _ = _
    rw [hprob]

open Classical in
/-- **C84** (`DemoSampler`): the true values are normal with the mean and the width in force. -/
theorem C84_demo {i q : ℕ} {names : Fin 0 → String} {ν' : Measure ℝ} {D : Set ((ℝ × ℝ × ℝ) × ℝ)}
    (hx : Spec.ExactAux env) (hf : Spec.FairAux P env pl) (hcode : w.code i = demoCode env)
    (hs : h₀.samplers i = { demoNew q with params := (h₀.samplers i).params, isSecondary := (h₀.samplers i).isSecondary, parents := (h₀.samplers i).parents })
    (hV : Spec.InForceAll (demoDecl env) V (h₀.samplers i).params) (ht : 0 ≤ V "tau")
    (hD : Spec.Picks P w (h₀.selectors q) false lit ν' D) :
    Spec.Leads P w h₀ lit names (Spec.InForceAll (demoDecl env) V)
      (Spec.Lead.latentNormal "demo" i q ν' D fun _ _ z => V "mu" + V "tau" * z) := by
  have hs' := hs
  refine latentNormal_leads hf (by rw [hs]; rfl) (by rw [hs]; rfl) (by rw [hs]; rfl) (by rw [hs]; rfl) (by rw [hs]; rfl)
    (by fun_prop) (by rw [hcode]; rfl) (fun n g g' t hd x vals => ?_) (by rw [hs]; exact hD)
  obtain ⟨o1, a1, b1⟩ := declAttr_of (name := "mu") (s := ({ params := (h₀.samplers i).params, trueVals := (h₀.samplers i).trueVals, obsVals := (h₀.samplers i).obsVals, rng := g } : CodeSt ℝ G)) hV rfl
  obtain ⟨o2, a2, b2⟩ := declAttr_of (name := "tau") (s := ({ params := o1, trueVals := (h₀.samplers i).trueVals, obsVals := (h₀.samplers i).obsVals, rng := g } : CodeSt ℝ G)) b1 rfl
  have a3 := npNormal_of (mu := V "mu") (s := ({ params := o2, trueVals := (h₀.samplers i).trueVals, obsVals := (h₀.samplers i).obsVals, rng := g } : CodeSt ℝ G)) hx ht hd
  refine ⟨o2, b2, ?_⟩
  rw [hcode]
  have k : demoTrue env n { params := (h₀.samplers i).params, trueVals := (h₀.samplers i).trueVals, obsVals := (h₀.samplers i).obsVals, rng := g } =
      .ok () { params := o2, trueVals := some (List.ofFn fun i => V "mu" + V "tau" * t i), obsVals := (h₀.samplers i).obsVals, rng := g' } := by
    unfold demoTrue
    rw [bind_of_ok a1, bind_of_ok a2, bind_of_ok a3]
    rfl
  exact asCode_of (v := Spec.viewOf lit (h₀.samplers i) names x vals) (m := fun _ n => demoTrue env n) k

/-- The true value of `DemoSampler2`. -/
noncomputable def Spec.demo2Latent (V : String → ℝ) (x : Spec.Seen) (vals : Fin 1 → ℝ × ℝ) (z : ℝ) : ℝ :=
  V "mu" + V "tau" * z + (vals 0).1 - Real.logb 10 (1 + x.1)

/-- The luminosity that `DemoSampler2` computes. -/
noncomputable def Spec.demo2Shine (_ : Spec.Seen) (vals : Fin 1 → ℝ × ℝ) (own : ℝ × ℝ) : ℝ :=
  (10 : ℝ) ^ (own.1 + 54) / (vals 0).1

open Classical in
/-- **C84** (`DemoSampler2`): the true value is a normal number plus the true value of the
secondary, less the decimal logarithm of one plus the distance.  It is never observed. -/
theorem C84_demo2 {i q : ℕ} {names : Fin 1 → String} {ν' : Measure ℝ} {D : Set ((ℝ × ℝ × ℝ) × ℝ)}
    (hx : Spec.ExactAux env) (hf : Spec.FairAux P env pl) (hcode : w.code i = demo2Code env)
    (hnames : names 0 = "demo")
    (hs : h₀.samplers i = { demo2New q with params := (h₀.samplers i).params, secondaries := (h₀.samplers i).secondaries, hasSecondary := (h₀.samplers i).hasSecondary })
    (hV : Spec.InForceAll (demo2Decl env) V (h₀.samplers i).params) (ht : 0 ≤ V "tau")
    (hD : Spec.Picks P w (h₀.selectors q) false lit ν' D) :
    Spec.Leads P w h₀ lit names (Spec.InForceAll (demo2Decl env) V)
      (Spec.Lead.latentNormal "demo2" i q ν' D (Spec.demo2Latent V)) := by
  refine latentNormal_leads hf (by rw [hs]; rfl) (by rw [hs]; rfl) (by rw [hs]; rfl) (by rw [hs]; rfl) (by rw [hs]; rfl)
    ?_ (by rw [hcode]; rfl) (fun n g g' t hd x vals => ?_) (by rw [hs]; exact hD)
  · have : Measurable (Real.logb 10) := by unfold Real.logb; fun_prop
    unfold Spec.demo2Latent
    fun_prop
  obtain ⟨o1, a1, b1⟩ := declAttr_of (name := "mu") (s := ({ params := (h₀.samplers i).params, trueVals := (h₀.samplers i).trueVals, obsVals := (h₀.samplers i).obsVals, rng := g } : CodeSt ℝ G)) hV rfl
  obtain ⟨o2, a2, b2⟩ := declAttr_of (name := "tau") (s := ({ params := o1, trueVals := (h₀.samplers i).trueVals, obsVals := (h₀.samplers i).obsVals, rng := g } : CodeSt ℝ G)) b1 rfl
  have a3 := npNormal_of (mu := V "mu") (s := ({ params := o2, trueVals := (h₀.samplers i).trueVals, obsVals := (h₀.samplers i).obsVals, rng := g } : CodeSt ℝ G)) hx ht hd
  refine ⟨o2, b2, ?_⟩
  rw [hcode]
  have k0 : demoSecondary (Spec.viewOf lit (h₀.samplers i) names x vals) =
      .ok (some (List.ofFn fun i => (vals i 0).1), some (List.ofFn fun i => (vals i 0).2)) := by
    simp [demoSecondary, Spec.viewOf, Dict.get?, List.ofFn_succ, hnames]
  have k : demo2True env (Spec.viewOf lit (h₀.samplers i) names x vals) n { params := (h₀.samplers i).params, trueVals := (h₀.samplers i).trueVals, obsVals := (h₀.samplers i).obsVals, rng := g } =
      .ok () { params := o2, trueVals := some (List.ofFn fun i => Spec.demo2Latent V (x i) (vals i) (t i)), obsVals := (h₀.samplers i).obsVals, rng := g' } := by
    unfold demo2True
    rw [bind_of_ok (liftE_of_ok _ k0), bind_of_ok a1, bind_of_ok a2, bind_of_ok a3]
    have e1 : operand (some (List.ofFn fun i => (vals i 0).1)) = .ok (List.ofFn fun i => (vals i 0).1) := rfl
    have e2 := elementwise_ofFn env.add (fun i => V "mu" + V "tau" * t i) (fun i => (vals i 0).1)
    have e3 : demoDistance (Spec.viewOf lit (h₀.samplers i) names x vals) = .ok (List.ofFn fun i => (x i).1) := rfl
    have e4 : (List.ofFn fun i => (x i).1).map (fun d => env.log10 (env.add (env.num 1) d)) =
        List.ofFn fun i => Real.logb 10 (1 + (x i).1) := by
      rw [List.map_ofFn]
      congr 1; funext i; simp [hx.log10, hx.add, hx.num]
    have e5 := elementwise_ofFn env.sub (fun i => env.add (V "mu" + V "tau" * t i) (vals i 0).1)
      (fun i => Real.logb 10 (1 + (x i).1))
    rw [bind_of_ok (liftE_of_ok _ e1), bind_of_ok (liftE_of_ok _ e2), bind_of_ok (liftE_of_ok _ e3), e4,
      bind_of_ok (liftE_of_ok _ e5)]
    simp only [hx.add, hx.sub]
    rfl
  exact asCode_of (v := Spec.viewOf lit (h₀.samplers i) names x vals) (m := demo2True env) k

/-- **C84** (observing `DemoSampler2`): had it been observed, its values would have been the true
ones plus normal numbers with the width in force; the true values stay. -/
theorem C84_demo2_observation (hx : Spec.ExactAux env) (hf : Spec.FairAux P env pl) {v : SView ℝ} {n : ℕ}
    {t : Fin n → ℝ} (hV : Spec.InForceAll (demo2Decl env) V v.params) (hs : 0 ≤ V "sigma")
    (ht : v.trueVals = some (List.ofFn t)) :
    Spec.Samples P (Spec.iid n (ProbabilityTheory.gaussianReal 0 1)) fun _ g z g' =>
      ∃ o, Spec.InForceAll (demo2Decl env) V o ∧ (demo2Code env).obsSampler v n g =
        { trueVals := some (List.ofFn t), obsVals := some (List.ofFn fun i => t i + V "sigma" * z i)
          params := o, rng := g' } := by
  refine Samples.mono (drawMany_samples hf.normal n) fun _ g z g' hd => ?_
  obtain ⟨o, a1, b1⟩ := declAttr_of (name := "sigma") (s := ({ params := v.params, trueVals := v.trueVals, obsVals := v.obsVals, rng := g } : CodeSt ℝ G)) hV rfl
  have a2 := npNormal_of (mu := env.num 0) (s := ({ params := o, trueVals := v.trueVals, obsVals := v.obsVals, rng := g } : CodeSt ℝ G)) hx hs hd
  have e1 : operand v.trueVals = .ok (List.ofFn t) := by rw [ht]; rfl
  have e2 := elementwise_ofFn env.add t (fun i => env.num 0 + V "sigma" * z i)
  refine ⟨o, b1, asCode_of (v := v) (m := fun _ n => demo2Obs env n)
    (s := { params := o, trueVals := some (List.ofFn t), obsVals := some (List.ofFn fun i => t i + V "sigma" * z i), rng := g' }) ?_⟩
  unfold demo2Obs
  rw [bind_apply, get_apply]
  simp only
  rw [bind_of_ok (liftE_of_ok _ e1), bind_of_ok a1, bind_of_ok a2, bind_of_ok (liftE_of_ok _ e2)]
  simp only [hx.add, hx.num, ht, modify_apply]
  simp

/-- **C84** (the luminosities of `DemoSampler2`). -/
theorem C84_demo2_luminosity {i q : ℕ} {names : Fin 1 → String} {ν' : Measure ℝ} {D : Set ((ℝ × ℝ × ℝ) × ℝ)}
    {ok : Obj ℝ → Prop} {latent : Spec.Seen → (Fin 1 → ℝ × ℝ) → ℝ → ℝ}
    (hx : Spec.ExactAux env) (hcode : w.code i = demo2Code env) (hnames : names 0 = "demo") :
    Spec.Glows w h₀ names ok (Spec.Lead.latentNormal "demo2" i q ν' D latent) Spec.demo2Shine := by
  intro n x vals t o p2 _
  show (w.code i).luminosity _ = _
  rw [hcode]
  have key : ∀ v : SView ℝ, v.secs = (Spec.viewOf false (h₀.samplers i) names x vals).secs →
      v.trueVals = some (List.ofFn t) →
      demo2Luminosity env v = .ok (List.ofFn fun i => Spec.demo2Shine (x i) (vals i) (t i, o i)) := by
    intro v hv ht
    have k0 : demoSecondary v =
        .ok (some (List.ofFn fun i => (vals i 0).1), some (List.ofFn fun i => (vals i 0).2)) := by
      simp [demoSecondary, hv, Spec.viewOf, Dict.get?, List.ofFn_succ, hnames]
    unfold demo2Luminosity
    rw [k0, ht]
    show elementwise env.div ((List.ofFn t).map _) (List.ofFn fun i => (vals i 0).1) = _
    rw [List.map_ofFn, elementwise_ofFn]
    simp [Spec.demo2Shine, hx.div, hx.exp10, hx.add, hx.num]
  exact key _ rfl rfl

end Popsynth
