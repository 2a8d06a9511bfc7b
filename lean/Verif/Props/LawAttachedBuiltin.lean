import Verif.Props.LawAttachedCounts
import Verif.Props.LawAux
import Verif.Props.LawDetect
import Verif.Props.AuxSamplers
import Verif.Lemmas.LoneDraw

/-!
# Built-in samplers attached to a survey (C80)
-/

set_option autoImplicit false
set_option linter.unusedSectionVars false

open MeasureTheory Filter
open scoped NNReal ENNReal

namespace Popsynth
variable {G : Type} [MeasurableSpace G] {P : Measure G} [IsProbabilityMeasure P]

theorem iid_zip3 (n : ℕ) (μ ν ν' : Measure ℝ) [IsProbabilityMeasure μ] [IsProbabilityMeasure ν]
    [IsProbabilityMeasure ν'] :
    MeasurePreserving (fun (q : (Fin n → ℝ) × (Fin n → ℝ) × (Fin n → ℝ)) i => (q.1 i, q.2.1 i, q.2.2 i))
      ((Spec.iid n μ).prod ((Spec.iid n ν).prod (Spec.iid n ν'))) (Spec.iid n (μ.prod (ν.prod ν'))) :=
  (iid_zip n μ (ν.prod ν')).comp ((MeasurePreserving.id (Spec.iid n μ)).prod (iid_zip n ν ν'))

/-- The errors of a sampler; there are none if it is not observed. -/
def Spec.ErrorsOf (P : Measure G) (env : AuxEnv ℝ G) (k : AuxKind) (V : String → ℝ) (observed : Bool)
    (ν : Measure ℝ) : Prop :=
  if observed = true then Spec.AuxErrors P env k V ν else ν = Measure.dirac 0

theorem errors_prob {env : AuxEnv ℝ G} {k : AuxKind} {V : String → ℝ} {b : Bool} {ν : Measure ℝ}
    (h : Spec.ErrorsOf P env k V b ν) : IsProbabilityMeasure ν := by
  cases b
  · have h : ν = Measure.dirac 0 := h
    rw [h]; infer_instance
  · exact (show Spec.AuxErrors P env k V ν from h).1

/-- The errors are drawn after the true values. -/
theorem errors_samples {env : AuxEnv ℝ G} {k : AuxKind} {V : String → ℝ} {b : Bool} {ν : Measure ℝ}
    (h : Spec.ErrorsOf P env k V b ν) (n : ℕ) :
    Spec.Samples P (Spec.iid n ν) fun _ g e g' => ∀ (view : SView ℝ) (t : Fin n → ℝ),
      Spec.HasValues env k V view.params → view.isObserved = b → view.trueVals = some (List.ofFn t) →
      ∃ o, (if b = true then (auxCode env k).obsSampler view n g =
          { trueVals := some (List.ofFn t)
            obsVals := some (List.ofFn fun i => if b = true then t i + e i else t i)
            params := o, rng := g' }
        else (List.ofFn fun i => if b = true then t i + e i else t i) = List.ofFn t ∧
          o = view.params ∧ g' = g) ∧ Spec.HasValues env k V o := by
  cases b
  · have h : ν = Measure.dirac 0 := h
    rw [h, iid_dirac]
    refine ⟨fun g => (fun _ => 0, g), ⟨by fun_prop, by rw [Measure.dirac_prod]⟩, ?_⟩
    exact Eventually.of_forall fun g => Eventually.of_forall fun k view t hV _ _ =>
      ⟨view.params, by simp, hV⟩
  · have h : Spec.AuxErrors P env k V ν := h
    refine Samples.mono (h.2 n) fun _ g e g' hd view t hV ho ht => ?_
    obtain ⟨o, h1, h2⟩ := hd view t hV ho ht
    exact ⟨o, by simpa using h1, h2⟩

/-- **C80** (built-in samplers): a sampler of a built-in class that draws true values of law `μ`
(C79), has errors of law `ν` if it is observed, and a selector with the rule `D`, responds to an
object with its true value, the sum of true value and error, and what the selector says of
distance, luminosity and observed value. -/
theorem C80_builtin_plays {w : World ℝ G} {h₀ : Heap ℝ G} {env : AuxEnv ℝ G} {k : AuxKind}
    {V : String → ℝ} {μ ν ν' : Measure ℝ} {D : Set ((ℝ × ℝ × ℝ) × ℝ)} [DecidablePred (· ∈ D)]
    {frames i q : ℕ} {key : String} (hfr : 0 < frames) (hcode : w.code i = auxCode env k)
    (hnew : (h₀.samplers i).isSampled = false) (hal : Spec.Alone h₀ (key, i, q))
    (hV : Spec.HasValues env k V (h₀.samplers i).params)
    (hμ : Spec.AuxDraws P env k V μ) (hν : Spec.ErrorsOf P env k V (h₀.samplers i).isObserved ν)
    (hD : Spec.Chooses P w (h₀.selectors q) (h₀.samplers i).usesDistance ν' D) :
    Spec.Plays P w frames h₀ (Spec.additive key i q (h₀.samplers i).isObserved μ ν ν' D) := by
  have i1 := hμ.1
  have i2 := errors_prob hν
  have i3 := hD.law
  refine ⟨by unfold Spec.additive; infer_instance, ?_, fun n => ?_⟩
  · have m1 : Measurable fun z : Spec.Seen × Spec.Chance =>
        if (h₀.samplers i).isObserved = true then z.2.1 + z.2.2.1 else z.2.1 := by
      cases (h₀.samplers i).isObserved <;> simp only [Bool.false_eq_true, if_false, if_true] <;> fun_prop
    have m2 : Measurable fun z : Spec.Seen × Spec.Chance =>
        (((z.1.1, z.1.2.2, if (h₀.samplers i).isObserved = true then z.2.1 + z.2.2.1 else z.2.1), z.2.2.2) :
          (ℝ × ℝ × ℝ) × ℝ) :=
      ((measurable_fst.comp measurable_fst).prodMk
        ((measurable_snd.comp (measurable_snd.comp measurable_fst)).prodMk m1)).prodMk
        (measurable_snd.comp (measurable_snd.comp measurable_snd))
    have m3 : Measurable fun z : Spec.Seen × Spec.Chance =>
        decide ((((z.1.1, z.1.2.2, if (h₀.samplers i).isObserved = true then z.2.1 + z.2.2.1 else z.2.1), z.2.2.2) :
          (ℝ × ℝ × ℝ) × ℝ) ∈ D) := by
      refine measurable_to_bool ?_
      convert m2 hD.rule using 1
      ext z; simp
    exact (measurable_fst.comp measurable_snd).prodMk (m1.prodMk m3)
  · refine Samples.mapTo (Samples.after (hμ.2 n) (Samples.after (errors_samples hν n) (hD.draws n)))
      (iid_zip3 n μ ν ν') ?_
    rintro _ g ⟨t, er, u⟩ g3 ⟨g1, r1, g2, r2, r3⟩ h x hx hsel hg
    dsimp only [Spec.additive] at hx hsel
    dsimp only at r1 r2 r3
    have hV' : Spec.HasValues env k V (h.view i).params := by simpa [Heap.view, hx] using hV
    obtain ⟨p1, a1, a2⟩ := r1 (h.view i) hV'
    obtain ⟨p2, b1, b2⟩ := r2 { h.view i with trueVals := some (List.ofFn t), params := p1 } t a2
      (by simp [Heap.view, hx]) rfl
    obtain ⟨sel', c1, c2, c3⟩ := r3 (fun i => (x i).1) (fun i => (x i).2.2)
      (fun j => if (h₀.samplers i).isObserved = true then t j + er j else t j)
    have hp := C62_probability (v := { h.view i with trueVals := some (List.ofFn t)
                                                     obsVals := some (List.ofFn fun j =>
                                                        if (h₀.samplers i).isObserved = true then t j + er j else t j)
                                                     params := p2 }) b2 (t := List.ofFn t) rfl
    have a1' : (w.code i).trueSampler (h.view i) n h.rng = { trueVals := some (List.ofFn t), obsVals := (h₀.samplers i).obsVals, params := p1, rng := g1 } := by
      rw [hcode, hg, a1]; simp [Heap.view, hx]
    obtain ⟨f, rfl⟩ := Nat.exists_eq_succ_of_ne_zero hfr.ne'
    obtain ⟨h', d1, d2, d3, d4, d5, d6⟩ := lone_draw (w := w) (k := f) (n := n) hx hnew hal.secondaries rfl rfl
      a1' (by rw [hcode]; exact b1)
      (by
        have e1 : (h₀.samplers i).selector = q := hal.selector
        dsimp only
        rw [e1, hsel]
        exact c1) (by rw [hcode]; exact hp) (by simp) (by simp)
    have e1 : (h₀.samplers i).selector = q := hal.selector
    dsimp only at d4 d5
    rw [e1] at d4 d5
    refine ⟨h', (h'.samplers i).probability, ?_, d2⟩
    constructor
    · exact d1
    · exact d3
    · exact d4
    · show (h'.samplers i).name = (h.samplers i).name
      rw [d6, hx]
    · show (h'.samplers i).selector = (h.samplers i).selector
      rw [d6, hx]
    · show (h'.samplers i).isSecondary = (h.samplers i).isSecondary
      rw [d6, hx]
    · show (h'.samplers i).secondaries = (h.samplers i).secondaries
      rw [d6, hx]
    · show (h'.samplers i).hasSecondary = (h.samplers i).hasSecondary
      rw [d6, hx]
    · show (h'.samplers i).trueVals = _
      rw [d6]; rfl
    · show (h'.samplers i).obsVals = _
      rw [d6]; rfl
    · rfl
    · show (h'.selectors q).kind = (h.selectors q).kind
      rw [d5, c2, hsel]
    · show (h'.selectors q).selection = _
      rw [d5, c3]; rfl
    · intro hu
      have hu : (h.selectors q).kind.isUnity = true := hu
      rw [hsel] at hu
      have := hD.unity hu
      subst this
      simp [Spec.Player.gain, Spec.additive]
    · refine ⟨by simp [Spec.Player.gain], by simp [Spec.Player.gain], by simp [Spec.Player.gain], ?_⟩
      show (h'.samplers i).probability.length = n
      rw [d6]
      unfold Sampler.probability
      split_ifs <;> simp

end Popsynth
