import Verif.Spec.SurveyLaw
import Verif.Lemmas.SurveyPlain
import Verif.Lemmas.Thinning
import Verif.Props.LawSky

/-!
# The stages of a survey as random draws
-/

set_option autoImplicit false
set_option linter.unusedSectionVars false

open MeasureTheory Filter
open scoped NNReal ENNReal

namespace Popsynth

/-! ### Sources and flags -/

theorem SkySource.measurable_ofTuple : Measurable Spec.SkySource.ofTuple := fun _ h => h

theorem SkySource.measurable_of {β : Type} [MeasurableSpace β] {f : Spec.SkySource → β}
    (h : Measurable (f ∘ Spec.SkySource.ofTuple)) : Measurable f := fun _ hs => h hs

theorem SkySource.measurable_distance : Measurable Spec.SkySource.distance :=
  SkySource.measurable_of (show Measurable fun p : ℝ × (ℝ × ℝ) × ℝ × ℝ => p.1 from measurable_fst)

theorem SkySource.measurable_luminosity : Measurable Spec.SkySource.luminosity :=
  SkySource.measurable_of (show Measurable fun p : ℝ × (ℝ × ℝ) × ℝ × ℝ => p.2.2.1 by fun_prop)

theorem SkySource.measurable_noise : Measurable Spec.SkySource.noise :=
  SkySource.measurable_of (show Measurable fun p : ℝ × (ℝ × ℝ) × ℝ × ℝ => p.2.2.2 by fun_prop)

instance noiseLaw_prob (sigma : Option ℝ) : IsProbabilityMeasure (Spec.noiseLaw sigma) := by
  cases sigma with
  | none => unfold Spec.noiseLaw; infer_instance
  | some x =>
    show IsProbabilityMeasure (ProbabilityTheory.gaussianReal 0 ⟨x ^ 2, sq_nonneg x⟩)
    exact ProbabilityTheory.instIsProbabilityMeasureGaussianReal 0 ⟨x ^ 2, sq_nonneg x⟩

instance sourceLaw_prob (μd μL : Measure ℝ) [IsProbabilityMeasure μd] [IsProbabilityMeasure μL]
    (sigma : Option ℝ) : IsProbabilityMeasure (Spec.sourceLaw μd μL sigma) := by
  have i1 := sin_law_prob
  have i2 := uniformLaw_prob (h := 2 * Real.pi) (by have := Real.pi_pos; positivity)
  unfold Spec.sourceLaw
  exact Measure.isProbabilityMeasure_map SkySource.measurable_ofTuple.aemeasurable

section
variable {α β γ : Type} [MeasurableSpace α] [MeasurableSpace β] [MeasurableSpace γ]

/-- Setting a flag with an independent variable. -/
theorem flagged_eq (μ : Measure α) [IsProbabilityMeasure μ] (ν : Measure γ) [IsProbabilityMeasure ν]
    {D : Set (β × γ)} [DecidablePred (· ∈ D)] (hD : MeasurableSet D) {f : α → β} (hf : Measurable f)
    {p : β → ℝ≥0∞} (hp : ∀ x, ν {u | (x, u) ∈ D} = p x) :
    (μ.prod ν).map (fun q => (q.1, decide ((f q.1, q.2) ∈ D))) =
      Spec.flagged μ fun x => p (f x) := by
  have hE : MeasurableSet {q : α × γ | (f q.1, q.2) ∈ D} :=
    ((hf.comp measurable_fst).prodMk measurable_snd) hD
  have hb : Measurable fun q : α × γ => decide ((f q.1, q.2) ∈ D) := by
    refine measurable_to_bool ?_
    convert hE using 1
    ext q; simp
  have hm : Measurable fun q : α × γ => (q.1, decide ((f q.1, q.2) ∈ D)) := measurable_fst.prodMk hb
  have hsec : ∀ x, ν {u | (f x, u) ∉ D} = 1 - p (f x) := by
    intro x
    have hx : MeasurableSet {u | (f x, u) ∈ D} := measurable_prodMk_left hD
    rw [← hp, ← prob_compl_eq_one_sub hx]
    rfl
  ext X hX
  have hX1 : MeasurableSet ((fun x : α => (x, true)) ⁻¹' X) := measurable_prodMk_right hX
  have hX2 : MeasurableSet ((fun x : α => (x, false)) ⁻¹' X) := measurable_prodMk_right hX
  rw [Measure.map_apply hm hX, Measure.prod_apply (hm hX), Spec.flagged, Measure.add_apply,
    Measure.map_apply measurable_prodMk_right hX, Measure.map_apply measurable_prodMk_right hX,
    withDensity_apply _ hX1, withDensity_apply _ hX2, ← lintegral_indicator hX1,
    ← lintegral_indicator hX2, ← lintegral_add_left]
  · refine lintegral_congr fun x => ?_
    have e : Prod.mk x ⁻¹' ((fun q : α × γ => (q.1, decide ((f q.1, q.2) ∈ D))) ⁻¹' X) =
        {u | (f x, u) ∈ D ∧ (x, true) ∈ X} ∪ {u | (f x, u) ∉ D ∧ (x, false) ∈ X} := by
      ext u
      simp only [Set.mem_preimage, Set.mem_union, Set.mem_ofPred_eq]
      by_cases h : (f x, u) ∈ D <;> simp [h]
    have hx : MeasurableSet {u | (f x, u) ∈ D} := measurable_prodMk_left hD
    rw [e]
    by_cases h1 : (x, true) ∈ X <;> by_cases h2 : (x, false) ∈ X <;>
      simp only [h1, h2, and_true, and_false, Set.indicator, Set.mem_preimage, if_true, if_false]
    · have : {u | (f x, u) ∈ D} ∪ {u | (f x, u) ∉ D} = Set.univ := by ext u; simp [em]
      rw [this, measure_univ, ← hp]
      exact (add_tsub_cancel_of_le prob_le_one).symm
    · simp [hp]
    · simp [hsec]
    · simp
  · have h1 : Measurable fun x => p (f x) := by
      have := measurable_measure_prodMk_left (ν := ν) hE
      have e : (fun x => p (f x)) = fun x => ν (Prod.mk x ⁻¹' {q : α × γ | (f q.1, q.2) ∈ D}) := by
        funext x
        exact (hp (f x)).symm
      rw [e]; exact this
    exact h1.indicator hX1

theorem flagged_prob (μ : Measure α) [IsProbabilityMeasure μ] (ν : Measure γ) [IsProbabilityMeasure ν]
    {D : Set (β × γ)} [DecidablePred (· ∈ D)] (hD : MeasurableSet D) {f : α → β} (hf : Measurable f)
    {p : β → ℝ≥0∞} (hp : ∀ x, ν {u | (x, u) ∈ D} = p x) :
    IsProbabilityMeasure (Spec.flagged μ fun x => p (f x)) := by
  rw [← flagged_eq μ ν hD hf hp]
  have hE : MeasurableSet {q : α × γ | (f q.1, q.2) ∈ D} :=
    ((hf.comp measurable_fst).prodMk measurable_snd) hD
  have hb : Measurable fun q : α × γ => decide ((f q.1, q.2) ∈ D) := by
    refine measurable_to_bool ?_
    convert hE using 1
    ext q; simp
  exact Measure.isProbabilityMeasure_map (measurable_fst.prodMk hb).aemeasurable

end

/-! ### Composition -/

section
variable {G α β : Type} [MeasurableSpace G] [MeasurableSpace α] [MeasurableSpace β]
  {P : Measure G} [IsProbabilityMeasure P]

/-- First this, then that. -/
def After {G α β : Type} (R : ℕ → G → α → G → Prop) (R' : ℕ → G → β → G → Prop) :
    ℕ → G → α × β → G → Prop :=
  fun k g p g2 => ∃ g1, R k g p.1 g1 ∧ R' k g1 p.2 g2

theorem Samples.after {μ : Measure α} {ν : Measure β} [IsProbabilityMeasure μ]
    [IsProbabilityMeasure ν] {R : ℕ → G → α → G → Prop} {R' : ℕ → G → β → G → Prop}
    (h : Spec.Samples P μ R) (h' : Spec.Samples P ν R') : Spec.Samples P (μ.prod ν) (After R R') :=
  Samples.seq h h' fun _ _ _ g1 _ _ a b => ⟨g1, a, b⟩

/-! ### The stages -/

/-- `draw_distance` sets one probability per distance. -/
theorem drawDistance_probability {F G : Type} [OfNat F 0] [OfNat F 1] (env : DistEnv F G)
    (c : SpClass F) (showProgress normalize : Bool) (n : Nat) {s s' : SpSt F G}
    (h : drawDistance env c.code showProgress n normalize s = .ok () s') :
    ∃ rs p, s'.sp.distances = some rs ∧ s'.sp.probability = some p ∧ p.length = rs.length := by
  unfold drawDistance at h
  simp only [bind_ok_iff] at h
  obtain ⟨⟨i, old⟩, s1, h1, h⟩ := h
  obtain ⟨rm', s2, h2, ys, s3, h3, rs, s4, h4, _, s5, h5, old', s6, h6, pr, s7, h7, _, s8, h8, h9⟩ := h
  obtain ⟨o6, e6, rfl⟩ := onParams_ok h6
  obtain ⟨o7, e7, rfl⟩ := onParams_ok h7
  obtain ⟨o9, e9, rfl⟩ := onParams_ok h9
  rw [modify_apply] at h5 h8
  cases h5; cases h8
  refine ⟨rs, pr, rfl, rfl, ?_⟩
  unfold normArr at e7
  rw [bind_ok_iff] at e7
  obtain ⟨ws, o8, e8, e7⟩ := e7
  have hl : ws.length = rs.length := by
    simp only [SpClass.code, bind_ok_iff, pure_apply, EStateM.Result.ok.injEq] at e8
    obtain ⟨vs, _, _, rfl, _⟩ := e8
    simp
  cases i with
  | none => cases e7; exact hl
  | some x => cases e7; simp [hl]

/-- Counting objects without normalization. -/
theorem expectedCount_returns {G : Type} (env : DistEnv ℝ G) (c : SpClass ℝ)
    (hrm : c.decl "r_max" = declRMax env) {o : Obj ℝ} {rm : ℝ} {vs : List ℝ}
    (hr : rd c.decl "r_max" o = some rm) (hvs : rdAll c.decl c.reads o = .ok vs) :
    ∃ o', expectedCount env c.code false o = .ok ((env.quad rm).eval (c.dens vs)) o' ∧
      RdRel c.decl o o' ∧ NormRel c.reads c.decl o o' := by
  unfold expectedCount
  rw [if_neg (by simp)]
  obtain ⟨o1, g1, k1, l1⟩ := readRMax_ok env hrm hr
  rw [bind_of_ok g1]
  obtain ⟨o2, g2, k2, l2⟩ := QuadStrat.run_returns (f := c.code.at') (g := c.dens vs)
    (P := fun o' => RdRel c.decl o o' ∧ NormRel c.reads c.decl o o') (fun o1 r hP => by
      obtain ⟨o2, h3, h4, h5⟩ := c.at_ready (o := o1) (vs := vs)
        (by rw [rdAll_congr _ _ hP.1.same]; exact hvs) r
      exact ⟨o2, h3, hP.1.trans h4, hP.2.trans h5⟩) (env.quad rm) o1 ⟨k1, l1⟩
  exact ⟨o2, g2, k2, l2⟩

/-- Sky positions, for any object. -/
theorem sky_samples (env : DistEnv ℝ G) (hfair : Spec.FairUniform P env.uniform)
    (hth : ∀ u, env.thetaOf u = Real.arccos (1 - 2 * u)) (h2 : env.twoPi = 2 * Real.pi) (n : ℕ) :
    Spec.Samples P ((Spec.iid n (Spec.densityLaw Real.sin Real.pi)).prod
        (Spec.iid n (Spec.uniformLaw (2 * Real.pi))))
      fun k g v g' => ∀ sp, drawSky { env with budget := k } n { sp := sp, rng := g } =
        .ok () { sp := { sp with theta := some (List.ofFn v.1), phi := some (List.ofFn v.2) },
                 rng := g' } := by
  refine Samples.mono (C73_sky env hfair hth h2 n {}) fun k g v g' h sp => ?_
  obtain ⟨us, ps, g1, a1, a2, a3, a4, a5⟩ := (C52_drawn env n _ _).1 h
  have key : ∀ {hi : ℝ} {g g' : G} {l : List ℝ}, Spec.Uniforms env hi g l g' →
      Spec.Uniforms { env with budget := k } hi g l g' := by
    intro hi g g' l hu
    induction hu with
    | nil g => exact .nil g
    | cons h t ih => exact .cons h ih
  simp only [Spat.mk.injEq, true_and, and_true, Option.some.injEq] at a5
  refine (C52_drawn { env with budget := k } n _ _).2 ⟨us, ps, g1, a1, a2, key a3, key a4, ?_⟩
  show _ = { sp with theta := some (us.map env.thetaOf), phi := some ps }
  rw [a5.1, a5.2]

theorem normalMany_repeats (e : SurveyEnv ℝ G) (sigma : ℝ) (k : ℕ) :
    ∀ (l : List ℝ) (g g' : G), Repeats (fun _ g x g' => e.normal sigma g = (x, g')) k l g g' →
      normalMany e sigma l.length g = (l, g')
  | [], g, g', h => by cases h; rfl
  | x :: l, g, g', ⟨g1, h1, h2⟩ => by
    simp only [List.length_cons, normalMany, h1, normalMany_repeats e sigma k l g1 g' h2]

theorem ofFn_zipWith {α β γ : Type} (f : α → β → γ) {n : ℕ} (v : Fin n → α) (w : Fin n → β) :
    List.zipWith f (List.ofFn v) (List.ofFn w) = List.ofFn fun i => f (v i) (w i) := by
  apply List.ext_getElem
  · simp
  · intro i h1 h2
    simp

theorem noisyFlux_stage (e : SurveyEnv ℝ G) {n : ℕ} {sigma : ℝ} (hv : e.validScale sigma = true)
    (fwd bwd : ℝ → ℝ) (fx x : Fin n → ℝ) (t : SurvSt ℝ G) {g' : G}
    (hn : normalMany e sigma n t.heap.rng = (List.ofFn x, g'))
    (hf : ∀ i, e.isFinite (e.add (fwd (fx i)) (x i)) = true) :
    noisyFlux e n sigma fwd bwd (List.ofFn fx) t =
      .ok (List.ofFn fun i => bwd (e.add (fwd (fx i)) (x i))) { t with heap := { t.heap with rng := g' } } := by
  have k1 : onRng (F := ℝ) (fun g => ((.ok (normalMany e sigma n g).1 : Except Err (List ℝ)), (normalMany e sigma n g).2)) t =
      .ok (List.ofFn x) { t with heap := { t.heap with rng := g' } } :=
    onRng_of_ok (by rw [hn])
  have k2 : bcast e.add ((List.ofFn fx).map fwd) (List.ofFn x) =
      .ok (List.ofFn fun i => e.add (fwd (fx i)) (x i)) := by
    unfold bcast; rw [if_pos (by simp), List.map_ofFn, ofFn_zipWith]; rfl
  have k3 : (List.ofFn fun i => e.add (fwd (fx i)) (x i)).all e.isFinite = true := by
    rw [List.all_eq_true]
    intro z hz
    obtain ⟨i, rfl⟩ := List.mem_ofFn.1 hz
    exact hf i
  unfold noisyFlux
  simp only [hv]
  refine (bind_of_ok k1).trans ?_
  refine (bind_of_ok (liftE_of_ok _ k2)).trans ?_
  simp only [k3, pyAssert]
  rw [List.map_ofFn]
  rfl

/-- The observed fluxes. -/
theorem noise_samples (e : SurveyEnv ℝ G) (y : Synth ℝ) (a : SurveyArgs ℝ) (h : Heap ℝ G)
    (hnoise : ∀ sigma, Spec.sigmaUsed (h.selectors y.fluxSel).kind a = some sigma →
      e.validScale sigma = true ∧
      Spec.Samples P (Spec.noiseLaw (some sigma)) fun _ g x g' => e.normal sigma g = (x, g')) (n : ℕ) :
    Spec.Samples P (Spec.iid n (Spec.noiseLaw (Spec.sigmaUsed (h.selectors y.fluxSel).kind a)))
      fun _ g x g' => ∀ (fx : Fin n → ℝ) (t : SurvSt ℝ G), t.heap.rng = g →
        t.heap.selectors y.fluxSel = h.selectors y.fluxSel →
        (∀ i, Spec.observable e (Spec.sigmaUsed (h.selectors y.fluxSel).kind a) a.log10Draw (fx i) (x i)) →
        observeFlux e y n a.fluxSigma a.log10Draw (List.ofFn fx) t =
          .ok (List.ofFn fun i => Spec.observed e (Spec.sigmaUsed (h.selectors y.fluxSel).kind a)
            a.log10Draw (fx i) (x i), (Spec.sigmaUsed (h.selectors y.fluxSel).kind a).getD e.minusOne)
            { t with heap := { t.heap with rng := g' } } := by
  cases hs : Spec.sigmaUsed (h.selectors y.fluxSel).kind a with
  | none =>
    have s1 : Spec.Samples P (Spec.noiseLaw none) fun _ g (x : ℝ) g' => g' = g := by
      refine ⟨fun g => (0, g), ?_, Eventually.of_forall fun g => Eventually.of_forall fun _ => rfl⟩
      refine ⟨by fun_prop, ?_⟩
      unfold Spec.noiseLaw
      rw [Measure.dirac_prod]
    refine Samples.mono (Samples.repeat s1 n) fun k g x g' hR fx t hrng ht _ => ?_
    have key : ∀ (l : List ℝ) (g g' : G), Repeats (fun _ g (x : ℝ) g' => g' = g) k l g g' → g' = g := by
      intro l
      induction l with
      | nil => intro g g' h; exact h
      | cons x l ih => rintro g g' ⟨g1, rfl, h⟩; exact ih _ _ h
    have hg := key _ _ _ hR
    subst hg
    have e1 : { t with heap := { t.heap with rng := g' } } = t := by rw [← hrng]
    unfold observeFlux
    rw [bind_of_ok (get_apply _), e1, ht]
    unfold Spec.sigmaUsed at hs
    cases hu : (h.selectors y.fluxSel).kind.isUnity with
    | true => rfl
    | false =>
      rw [hu] at hs
      simp only [Bool.false_eq_true, if_false] at hs
      rw [hs]
      rfl
  | some sigma =>
    obtain ⟨hv, s1⟩ := hnoise sigma hs
    refine Samples.mono (Samples.repeat s1 n) fun k g x g' hR fx t hrng ht hf => ?_
    have hn := normalMany_repeats e sigma k _ _ _ hR
    rw [List.length_ofFn] at hn
    rw [← hrng] at hn
    unfold Spec.sigmaUsed at hs
    unfold observeFlux
    rw [bind_of_ok (get_apply _), ht]
    cases hu : (h.selectors y.fluxSel).kind.isUnity with
    | true => rw [hu] at hs; cases hs
    | false =>
      rw [hu] at hs
      simp only [Bool.false_eq_true, if_false] at hs
      rw [hs]
      cases hl : a.log10Draw with
      | true =>
        have := noisyFlux_stage e hv e.log10 e.pow10 fx x t hn
          (fun i => by have := hf i rfl; rw [hl] at this; exact this)
        exact (bind_of_ok this).trans rfl
      | false =>
        have := noisyFlux_stage e hv e.ln e.exp fx x t hn
          (fun i => by have := hf i rfl; rw [hl] at this; exact this)
        exact (bind_of_ok this).trans rfl

end
end Popsynth
