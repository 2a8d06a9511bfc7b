import Verif.Lemmas.SurveyLaw
import Verif.Lemmas.PoissonProcess
import Verif.Props.ExpectedCount
import Mathlib.Data.Bool.Count

/-!
# The law of a survey (C74)
-/

set_option autoImplicit false
set_option linter.unusedSectionVars false

open MeasureTheory Filter
open scoped NNReal ENNReal

namespace Popsynth
variable {G : Type} [MeasurableSpace G] {P : Measure G} [IsProbabilityMeasure P]

/-- What is assumed of a survey: numpy's random numbers have the laws they should have, the
spatial distribution is of the modelled form with readable parameters, fluxes are computed
object by object, luminosities are independent with law `μL`, and the flux selection detects
an object with probability `p` of its observed flux. -/
structure Spec.Lawful (P : Measure G) (e : SurveyEnv ℝ G) (env : DistEnv ℝ G) (c : SpClass ℝ)
    (transform : List ℝ → List ℝ → Except Err (List ℝ)) (y : Synth ℝ) (a : SurveyArgs ℝ)
    (s : SurvSt ℝ G) (flux : ℝ → ℝ → ℝ) (rm m : ℝ) (vs : List ℝ) (μL : Measure ℝ)
    (p : ℝ → ℝ≥0∞) : Prop where
  plain : Spec.Plain e y s
  uniform : Spec.FairUniform P env.uniform
  lt : ∀ a b, env.lt a b = true ↔ a < b
  thetaOf : ∀ u, env.thetaOf u = Real.arccos (1 - 2 * u)
  twoPi : env.twoPi = 2 * Real.pi
  plainCount : a.normalize = false
  declared : c.decl "r_max" = declRMax env
  unique : ∀ a b, (c.decl a).isNorm = true → (c.decl b).isNorm = true → a = b
  norm : ∀ n, s.sp.params.norm = some n →
    (c.decl n).isNorm = true ∧ (s.sp.params.storage.get? n).isSome
  radius : outcome (paramGet (c.decl "r_max") "r_max" s.sp.params) = .ok rm ∧ 0 < rm
  values : outcome (readAll c.decl c.reads s.sp.params) = .ok vs
  highest : m = env.npMax ((env.grid rm).map (c.dens vs)) ∧ 0 < m
  density : Measurable (c.dens vs)
  somewhere : ∫⁻ r in Set.Icc 0 rm, ENNReal.ofReal (min (c.dens vs r) m) ≠ 0
  fluxes : Measurable (fun q : ℝ × ℝ => flux q.1 q.2)
  transforms : ∀ ls ds, ls.length = ds.length → transform ls ds = .ok (List.zipWith flux ls ds)
  lumProb : IsProbabilityMeasure μL
  luminosity : ∀ n, Spec.Samples P (Spec.iid n μL) fun _ g v g' => ∃ lum', e.lum.draw n
    { lum := s.lum, rng := g } = .ok (List.ofFn v) { lum := lum', rng := g' } ∧
    ∃ q o, e.lum.phi (List.ofFn v) lum'.params = .ok q o ∧ q.length = n
  noise : ∀ sigma, Spec.sigmaUsed (s.heap.selectors y.fluxSel).kind a = some sigma →
    e.validScale sigma = true ∧
    Spec.Samples P (Spec.noiseLaw (some sigma)) fun _ g x g' => e.normal sigma g = (x, g')
  observed : Measurable fun q : ℝ × ℝ =>
    Spec.observed e (Spec.sigmaUsed (s.heap.selectors y.fluxSel).kind a) a.log10Draw q.1 q.2
  finite : ∀ᵐ x ∂(Spec.sourceLaw (Spec.densityLaw (fun r => min (c.dens vs r) m) rm) μL
      (Spec.sigmaUsed (s.heap.selectors y.fluxSel).kind a)),
    Spec.observable e (Spec.sigmaUsed (s.heap.selectors y.fluxSel).kind a) a.log10Draw
      (flux x.luminosity x.distance) x.noise
  detects : Spec.Detects P e.world (s.heap.selectors y.fluxSel) p

/-- The number of objects is drawn: numpy's Poisson numbers have their law, and the mean is the
integral of the density. -/
structure Spec.Counted (P : Measure G) (e : SurveyEnv ℝ G) (env : DistEnv ℝ G) (c : SpClass ℝ)
    (a : SurveyArgs ℝ) (rm : ℝ) (vs : List ℝ) (Λ : ℝ≥0) : Prop where
  drawn : a.nSamples = none
  poisson : Spec.Samples P (ProbabilityTheory.poissonMeasure Λ)
    fun _ g n g' => e.poisson (Λ : ℝ) g = (.ok n, g')
  mean : (Λ : ℝ) = (env.quad rm).eval (c.dens vs)

variable {e : SurveyEnv ℝ G} {env : DistEnv ℝ G} {c : SpClass ℝ}
  {tr : List ℝ → List ℝ → Except Err (List ℝ)} {y : Synth ℝ} {a : SurveyArgs ℝ} {s : SurvSt ℝ G}
  {flux : ℝ → ℝ → ℝ} {rm m : ℝ} {vs : List ℝ} {Λ : ℝ≥0} {μL : Measure ℝ} {p : ℝ → ℝ≥0∞}

/-- Draws for every object of five kinds of numbers and a flag. -/
theorem iid_zip5 (n : ℕ) (μ1 μ2 μ3 μ4 μ5 μ6 : Measure ℝ) [IsProbabilityMeasure μ1]
    [IsProbabilityMeasure μ2] [IsProbabilityMeasure μ3] [IsProbabilityMeasure μ4]
    [IsProbabilityMeasure μ5] [IsProbabilityMeasure μ6] :
    MeasurePreserving (fun (q : (Fin n → ℝ) × ((Fin n → ℝ) × (Fin n → ℝ)) × (Fin n → ℝ) ×
        (Fin n → ℝ) × (Fin n → ℝ)) i =>
        (q.1 i, (q.2.1.1 i, q.2.1.2 i), q.2.2.1 i, q.2.2.2.1 i, q.2.2.2.2 i))
      ((Spec.iid n μ1).prod (((Spec.iid n μ2).prod (Spec.iid n μ3)).prod
        ((Spec.iid n μ4).prod ((Spec.iid n μ5).prod (Spec.iid n μ6)))))
      (Spec.iid n (μ1.prod ((μ2.prod μ3).prod (μ4.prod (μ5.prod μ6))))) := by
  have h1 := iid_zip n μ5 μ6
  have h2 := (iid_zip n μ4 (μ5.prod μ6)).comp ((MeasurePreserving.id (Spec.iid n μ4)).prod h1)
  have h3 := (iid_zip n (μ2.prod μ3) _).comp ((iid_zip n μ2 μ3).prod h2)
  exact (iid_zip n μ1 _).comp ((MeasurePreserving.id (Spec.iid n μ1)).prod h3)

/-- The law of a source and its flag from the numbers drawn. -/
theorem source_flag (μd μL ν : Measure ℝ) [IsProbabilityMeasure μd] [IsProbabilityMeasure μL]
    [IsProbabilityMeasure ν] (sigma : Option ℝ) {D : Set (ℝ × ℝ)} [DecidablePred (· ∈ D)]
    (hD : MeasurableSet D) {f : Spec.SkySource → ℝ} (hf : Measurable f)
    (hp : ∀ x, ν {u | (x, u) ∈ D} = p x) :
    MeasurePreserving (fun q : ℝ × (ℝ × ℝ) × ℝ × ℝ × ℝ =>
        ((⟨q.1, q.2.1.1, q.2.1.2, q.2.2.1, q.2.2.2.1⟩ : Spec.SkySource),
          decide ((f ⟨q.1, q.2.1.1, q.2.1.2, q.2.2.1, q.2.2.2.1⟩, q.2.2.2.2) ∈ D)))
      (μd.prod (((Spec.densityLaw Real.sin Real.pi).prod (Spec.uniformLaw (2 * Real.pi))).prod
        (μL.prod ((Spec.noiseLaw sigma).prod ν))))
      (Spec.flagged (Spec.sourceLaw μd μL sigma) fun x => p (f x)) := by
  have i1 := sin_law_prob
  have i2 := uniformLaw_prob (h := 2 * Real.pi) (by have := Real.pi_pos; positivity)
  -- move the last number to the outside
  have a1 := (measurePreserving_prodAssoc μL (Spec.noiseLaw sigma) ν).symm (e := MeasurableEquiv.prodAssoc)
  have a2 := (measurePreserving_prodAssoc ((Spec.densityLaw Real.sin Real.pi).prod
    (Spec.uniformLaw (2 * Real.pi))) (μL.prod (Spec.noiseLaw sigma)) ν).symm (e := MeasurableEquiv.prodAssoc)
  have a3 := (measurePreserving_prodAssoc μd (((Spec.densityLaw Real.sin Real.pi).prod
    (Spec.uniformLaw (2 * Real.pi))).prod (μL.prod (Spec.noiseLaw sigma))) ν).symm (e := MeasurableEquiv.prodAssoc)
  have b1 := (MeasurePreserving.id ((Spec.densityLaw Real.sin Real.pi).prod
    (Spec.uniformLaw (2 * Real.pi)))).prod a1
  have b2 := (MeasurePreserving.id μd).prod (a2.comp b1)
  have b3 := a3.comp b2
  have b4 := (SkySource.measurable_ofTuple.measurePreserving (μd.prod (((Spec.densityLaw Real.sin Real.pi).prod
    (Spec.uniformLaw (2 * Real.pi))).prod (μL.prod (Spec.noiseLaw sigma))))).prod (MeasurePreserving.id ν)
  have b5 := b4.comp b3
  have hE : MeasurableSet {q : Spec.SkySource × ℝ | (f q.1, q.2) ∈ D} :=
    ((hf.comp measurable_fst).prodMk measurable_snd) hD
  have hb : Measurable fun q : Spec.SkySource × ℝ => decide ((f q.1, q.2) ∈ D) := by
    refine measurable_to_bool ?_
    convert hE using 1
    ext q; simp
  have b6 : MeasurePreserving (fun q : Spec.SkySource × ℝ => (q.1, decide ((f q.1, q.2) ∈ D)))
      ((Spec.sourceLaw μd μL sigma).prod ν) (Spec.flagged (Spec.sourceLaw μd μL sigma) fun x => p (f x)) :=
    ⟨measurable_fst.prodMk hb, flagged_eq _ ν hD hf hp⟩
  exact b6.comp b5

theorem Spec.Lawful.observed_measurable
    (h : Spec.Lawful P e env c tr y a s flux rm m vs μL p) :
    Measurable fun x : Spec.SkySource => Spec.observed e
      (Spec.sigmaUsed (s.heap.selectors y.fluxSel).kind a) a.log10Draw
      (flux x.luminosity x.distance) x.noise := by
  have h1 : Measurable fun x : Spec.SkySource => flux x.luminosity x.distance :=
    h.fluxes.comp (SkySource.measurable_luminosity.prodMk SkySource.measurable_distance)
  exact h.observed.comp (h1.prodMk SkySource.measurable_noise)

theorem Spec.Lawful.distance_prob
    (h : Spec.Lawful P e env c tr y a s flux rm m vs μL p) :
    IsProbabilityMeasure (Spec.densityLaw (fun r => min (c.dens vs r) m) rm) :=
  densityLaw_prob h.somewhere (cut_mass_finite _ _ _)

/-- The law of a flagged source of the survey. -/
noncomputable def Spec.catalogueLaw (e : SurveyEnv ℝ G) (c : SpClass ℝ) (y : Synth ℝ)
    (a : SurveyArgs ℝ) (s : SurvSt ℝ G) (flux : ℝ → ℝ → ℝ) (rm m : ℝ) (vs : List ℝ)
    (μL : Measure ℝ) (p : ℝ → ℝ≥0∞) : Measure (Spec.SkySource × Bool) :=
  Spec.flagged (Spec.sourceLaw (Spec.densityLaw (fun r => min (c.dens vs r) m) rm) μL
      (Spec.sigmaUsed (s.heap.selectors y.fluxSel).kind a))
    fun x => p (Spec.observed e (Spec.sigmaUsed (s.heap.selectors y.fluxSel).kind a) a.log10Draw
      (flux x.luminosity x.distance) x.noise)

theorem Spec.Lawful.catalogue_prob
    (h : Spec.Lawful P e env c tr y a s flux rm m vs μL p) :
    IsProbabilityMeasure (Spec.catalogueLaw e c y a s flux rm m vs μL p) := by
  obtain ⟨ν, D, _, hν, hD, hp, -⟩ := h.detects
  have := h.distance_prob
  have := h.lumProb
  exact flagged_prob _ ν hD h.observed_measurable hp

theorem observeFlux_env (code : DensityCode ℝ) (showProgress : Bool)
    (galB : List ℝ → List ℝ → List ℝ) (k : ℕ) (g0 : G) (n : ℕ) (sg : Option ℝ) (lg : Bool)
    (l : List ℝ) (t : SurvSt ℝ G) :
    observeFlux (Spec.surveyEnv e env code showProgress tr galB k g0) y n sg lg l t =
      observeFlux e y n sg lg l t := by
  have key : ∀ x n g, normalMany (Spec.surveyEnv e env code showProgress tr galB k g0) x n g =
      normalMany e x n g := by
    intro x n
    induction n with
    | zero => intro g; rfl
    | succ n ih =>
      intro g
      simp only [normalMany, ih]
      rfl
  unfold observeFlux noisyFlux
  simp only [key]
  rfl

/-- What the stages of a survey with a given number of objects do.  The state `t` may differ
from `s` in what these stages do not use. -/
theorem survey_stages (h : Spec.Lawful P e env c tr y a s flux rm m vs μL p)
    (showProgress : Bool) (galB : List ℝ → List ℝ → List ℝ) {o1 : Obj ℝ}
    (ho : RdRel c.decl s.sp.params o1 ∧ NormRel c.reads c.decl s.sp.params o1)
    {t : SurvSt ℝ G} (hsp : t.sp = s.sp) (hlum : t.lum = s.lum)
    (hfl : t.heap.selectors y.fluxSel = s.heap.selectors y.fluxSel) (n : ℕ) :
    Spec.Samples P (Spec.iid n (Spec.catalogueLaw e c y a s flux rm m vs μL p)) fun k g1 v g6 =>
      ∀ g0, countObjects (Spec.surveyEnv e env c.code showProgress tr galB k g0) a.nSamples a.normalize
        { t with heap := { t.heap with rng := g0 } } =
          .ok n { t with sp := { t.sp with params := o1 }, heap := { t.heap with rng := g1 } } →
      Nonempty (Stages (Spec.surveyEnv e env c.code showProgress tr galB k g0) y a t n g6
        (List.ofFn fun i => (v i).1.distance) (List.ofFn fun i => (v i).1.theta)
        (List.ofFn fun i => (v i).1.phi) (List.ofFn fun i => (v i).1.luminosity)
        (List.ofFn fun i => flux (v i).1.luminosity (v i).1.distance)
        (List.ofFn fun i => Spec.observed e
          (Spec.sigmaUsed (s.heap.selectors y.fluxSel).kind a) a.log10Draw
          (flux (v i).1.luminosity (v i).1.distance) (v i).1.noise)
        (List.ofFn fun i => (v i).2)) := by
  obtain ⟨ν, D, _, hν, hD, hp, hsel⟩ := h.detects
  have j1 := h.distance_prob
  have j2 := h.lumProb
  have j3 := sin_law_prob
  have j4 := uniformLaw_prob (h := 2 * Real.pi) (by have := Real.pi_pos; positivity)
  -- distances
  have hr1 : outcome (paramGet (c.decl "r_max") "r_max" o1) = .ok rm := by
    rw [outcome_paramGet_rd, ho.1.same, ← outcome_paramGet_rd]; exact h.radius.1
  have hvs1 : outcome (readAll c.decl c.reads o1) = .ok vs := by
    rw [readAll_outcome, rdAll_congr _ _ ho.1.same, ← readAll_outcome]; exact h.values
  have hok1 : ∀ n, o1.norm = some n → (c.decl n).isNorm = true ∧ (o1.storage.get? n).isSome :=
    fun n hn => ⟨ho.1.normOk (fun n hn => (h.norm n hn).1) n hn,
      ho.2.stored (fun n hn => (h.norm n hn).2) n hn⟩
  have S1 := C73_draw_distance env h.uniform h.lt c h.declared h.unique showProgress n
    { s.sp with params := o1 } hok1 hr1 hvs1 h.highest.1 h.highest.2 h.radius.2 h.density h.somewhere
  have S2 := sky_samples env h.uniform h.thetaOf h.twoPi n
  have S3 := h.luminosity n
  have S4 := noise_samples e y a s.heap h.noise n
  have S5 := hsel n
  have S := Samples.mapTo (Q := fun k g (w : Fin n → ℝ × (ℝ × ℝ) × ℝ × ℝ × ℝ) g' =>
      After _ (After _ (After _ (After _ _))) k g
        (((fun i => (w i).1), ((fun i => (w i).2.1.1), fun i => (w i).2.1.2), (fun i => (w i).2.2.1),
          (fun i => (w i).2.2.2.1), fun i => (w i).2.2.2.2)) g')
    (Samples.after S1 (Samples.after S2 (Samples.after S3 (Samples.after S4 S5))))
    (iid_zip5 n _ _ _ _ _ _) (fun k g q g' hq => hq)
  -- fluxes are finite
  have hsf := source_flag (p := p) (Spec.densityLaw (fun r => min (c.dens vs r) m) rm) μL ν
    (Spec.sigmaUsed (s.heap.selectors y.fluxSel).kind a) hD h.observed_measurable hp
  have hfin : ∀ᵐ w ∂(Spec.iid n ((Spec.densityLaw (fun r => min (c.dens vs r) m) rm).prod
      (((Spec.densityLaw Real.sin Real.pi).prod (Spec.uniformLaw (2 * Real.pi))).prod
        (μL.prod ((Spec.noiseLaw (Spec.sigmaUsed (s.heap.selectors y.fluxSel).kind a)).prod ν))))),
      ∀ i, Spec.observable e (Spec.sigmaUsed (s.heap.selectors y.fluxSel).kind a) a.log10Draw
        (flux (w i).2.2.1 (w i).1) (w i).2.2.2.1 := by
    refine iid_ae (p := fun w : ℝ × (ℝ × ℝ) × ℝ × ℝ × ℝ => Spec.observable e
      (Spec.sigmaUsed (s.heap.selectors y.fluxSel).kind a) a.log10Draw
        (flux w.2.2.1 w.1) w.2.2.2.1) ?_ n
    have hfst : MeasurePreserving Prod.fst (Spec.flagged (Spec.sourceLaw
        (Spec.densityLaw (fun r => min (c.dens vs r) m) rm) μL
        (Spec.sigmaUsed (s.heap.selectors y.fluxSel).kind a)) fun x => p (Spec.observed e
          (Spec.sigmaUsed (s.heap.selectors y.fluxSel).kind a) a.log10Draw
          (flux x.luminosity x.distance) x.noise))
        (Spec.sourceLaw (Spec.densityLaw (fun r => min (c.dens vs r) m) rm) μL
          (Spec.sigmaUsed (s.heap.selectors y.fluxSel).kind a)) := by
      refine ⟨measurable_fst, ?_⟩
      rw [← flagged_eq _ ν hD h.observed_measurable hp]
      have hE : MeasurableSet {q : Spec.SkySource × ℝ | (Spec.observed e
          (Spec.sigmaUsed (s.heap.selectors y.fluxSel).kind a) a.log10Draw
          (flux q.1.luminosity q.1.distance) q.1.noise, q.2) ∈ D} :=
        ((h.observed_measurable.comp measurable_fst).prodMk measurable_snd) hD
      have hb : Measurable fun q : Spec.SkySource × ℝ => decide ((Spec.observed e
          (Spec.sigmaUsed (s.heap.selectors y.fluxSel).kind a) a.log10Draw
          (flux q.1.luminosity q.1.distance) q.1.noise, q.2) ∈ D) := by
        refine measurable_to_bool ?_
        convert hE using 1
        ext q; simp
      rw [Measure.map_map measurable_fst (measurable_fst.prodMk hb)]
      exact (measurePreserving_fst (μ := Spec.sourceLaw _ _ _) (ν := ν)).map_eq
    exact (hfst.comp hsf).quasiMeasurePreserving.ae h.finite
  have hiid : MeasurePreserving (fun (w : Fin n → ℝ × (ℝ × ℝ) × ℝ × ℝ × ℝ) i =>
        ((⟨(w i).1, (w i).2.1.1, (w i).2.1.2, (w i).2.2.1, (w i).2.2.2.1⟩ : Spec.SkySource),
          decide ((Spec.observed e (Spec.sigmaUsed (s.heap.selectors y.fluxSel).kind a) a.log10Draw
            (flux (w i).2.2.1 (w i).1) (w i).2.2.2.1, (w i).2.2.2.2) ∈ D)))
      (Spec.iid n ((Spec.densityLaw (fun r => min (c.dens vs r) m) rm).prod
        (((Spec.densityLaw Real.sin Real.pi).prod (Spec.uniformLaw (2 * Real.pi))).prod
          (μL.prod ((Spec.noiseLaw (Spec.sigmaUsed (s.heap.selectors y.fluxSel).kind a)).prod ν)))))
      (Spec.iid n (Spec.catalogueLaw e c y a s flux rm m vs μL p)) := by
    have := h.catalogue_prob
    exact measurePreserving_pi _ (fun _ => Spec.catalogueLaw e c y a s flux rm m vs μL p) fun _ => hsf
  refine Samples.mapTo (Samples.and_ae S hfin) hiid ?_
  rintro k g1 w g6 ⟨⟨g2, ⟨sp2, d1, d2⟩, g3, q2, g4, ⟨lum1, q3, q4⟩, g5, q5, q6⟩, hf⟩ g0 hcount
  obtain ⟨sel', t1, t2⟩ := q6 fun i => Spec.observed e
    (Spec.sigmaUsed (s.heap.selectors y.fluxSel).kind a) a.log10Draw
      (flux (w i).2.2.1 (w i).1) (w i).2.2.2.1
  obtain ⟨rs', p1, u1, u2, u3⟩ := drawDistance_probability _ c _ _ _ d1
  obtain ⟨d3, -, -, d4⟩ := d2
  have u4 : p1.length = n := by
    rw [u3]
    have := u1.symm.trans d3
    cases this
    simp
  have hrr : ∃ r o, readRMax env sp2.params = .ok r o := by
    have h1 := d4 "r_max"
    rw [hr1, outcome_paramGet_rd] at h1
    cases h2 : rd c.decl "r_max" sp2.params with
    | none => rw [h2] at h1; cases h1
    | some x =>
      obtain ⟨o, h3, -⟩ := readRMax_ok env h.declared h2
      exact ⟨x, o, h3⟩
  refine ⟨?_⟩
  exact
    { g0 := g0, g1 := g1, g2 := g2, g3 := g3, g4 := g4, g5 := g5, o1 := o1, sp2 := sp2
      sp3 := { sp2 with theta := some (List.ofFn fun i => (w i).2.1.1), phi := some (List.ofFn fun i => (w i).2.1.2) }
      lum1 := lum1, sg := _, sel' := sel'
      seed := rfl
      count := hcount
      dist := by rw [h.plainCount, hsp]; exact d1
      prob := ⟨p1, u2, u4⟩
      sky := q2 sp2
      pos := ⟨d3, rfl, rfl⟩
      lens := by simp
      lum := by rw [hlum]; exact q3
      phi := q4
      flux := by
        show tr _ _ = _
        rw [h.transforms _ _ (by simp), ofFn_zipWith]
      obs := by
        intro t' hr ht
        rw [observeFlux_env, ← q5 (fun i => flux (w i).2.2.1 (w i).1) t' hr (ht.trans hfl) hf]
      sel := by rw [hfl]; exact t1
      mask := t2
      rmax := hrr }
/-- A survey with a given number of objects. -/
theorem survey_samples (h : Spec.Lawful P e env c tr y a s flux rm m vs μL p)
    (showProgress : Bool) (galB : List ℝ → List ℝ → List ℝ) {o1 : Obj ℝ}
    (ho : RdRel c.decl s.sp.params o1 ∧ NormRel c.reads c.decl s.sp.params o1) (n : ℕ) :
    Spec.Samples P (Spec.iid n (Spec.catalogueLaw e c y a s flux rm m vs μL p)) fun k g1 v g6 =>
      ∀ g0, countObjects (Spec.surveyEnv e env c.code showProgress tr galB k g0) a.nSamples a.normalize
        { s with heap := { s.heap with rng := g0 } } =
          .ok n { s with sp := { s.sp with params := o1 }, heap := { s.heap with rng := g1 } } →
      ∃ Q s', drawSurvey (Spec.surveyEnv e env c.code showProgress tr galB k g0) y a s = .ok Q s' ∧
        s'.heap.rng = g6 ∧ Spec.Holds Q flux (Spec.observed e
          (Spec.sigmaUsed (s.heap.selectors y.fluxSel).kind a) a.log10Draw) (List.ofFn v) := by
  refine Samples.mono (survey_stages h showProgress galB ho rfl rfl rfl n) fun k g1 v g6 hv g0 hcount => ?_
  obtain ⟨stages⟩ := hv g0 hcount
  have pl : Spec.Plain (Spec.surveyEnv e env c.code showProgress tr galB k g0) y s :=
    ⟨h.plain.derived, h.plain.lum, h.plain.aux, h.plain.spat, h.plain.apart, h.plain.fresh,
      h.plain.known, h.plain.spaces, h.plain.dict⟩
  obtain ⟨Q, s', r1, r2, r3, r4, r5, r6, r7, r8, r9, r10⟩ := stages.returns pl
  refine ⟨Q, s', r1, r2, ?_⟩
  refine ⟨by rw [r8, List.map_ofFn]; rfl, by rw [r3, r8, List.map_ofFn]; rfl,
    by rw [r4, r8, List.map_ofFn]; rfl, by rw [r5, r8, List.map_ofFn]; rfl,
    by rw [r6, r8, List.map_ofFn]; rfl, by rw [r7, r8, List.map_ofFn, List.map_ofFn]; rfl, ?_, ?_⟩
  · rw [r9, countTrue_eq, List.map_ofFn]; rfl
  · rw [r10, countTrue_eq, List.map_ofFn]
    have := List.count_true_add_count_false (List.ofFn fun i => (v i).2)
    rw [List.length_ofFn] at this
    exact (Nat.eq_sub_of_add_eq' this).symm

/-- **C74** (catalogue): a survey returns almost surely; its population is a Poisson number
(mean the integral of the density) of independent sources with the law `sourceLaw`, each
detected with the probability `p` of its observed flux, and the generator is left as random
as before, independently of the population. -/
theorem C74_catalogue (h : Spec.Lawful P e env c tr y a s flux rm m vs μL p)
    (hc : Spec.Counted P e env c a rm vs Λ)
    (showProgress : Bool) (galB : List ℝ → List ℝ → List ℝ) :
    Spec.Samples P (Spec.poissonSample Λ (Spec.catalogueLaw e c y a s flux rm m vs μL p))
      fun k g v g' => ∃ Q s',
        drawSurvey (Spec.surveyEnv e env c.code showProgress tr galB k g) y a s = .ok Q s' ∧
        s'.heap.rng = g' ∧ Spec.Holds Q flux (Spec.observed e
          (Spec.sigmaUsed (s.heap.selectors y.fluxSel).kind a) a.log10Draw) v := by
  have := h.catalogue_prob
  have hr : rd c.decl "r_max" s.sp.params = some rm := rd_of_outcome h.radius.1
  have hvs : rdAll c.decl c.reads s.sp.params = .ok vs := by rw [← readAll_outcome]; exact h.values
  obtain ⟨o1, c1, c2, c3⟩ := expectedCount_returns env c h.declared hr hvs
  have hi : ∀ n, IsProbabilityMeasure ((Spec.iid n (Spec.catalogueLaw e c y a s flux rm m vs μL p)).map
      List.ofFn) := fun n =>
    Measure.isProbabilityMeasure_map (measurable_ofFn n).aemeasurable
  refine Samples.bindNat hc.poisson (fun n => Samples.map (survey_samples h showProgress galB ⟨c2, c3⟩ n)
    (measurable_ofFn n) (Q := fun k g1 v g6 => v.length = n ∧
      ∀ g0, countObjects (Spec.surveyEnv e env c.code showProgress tr galB k g0) a.nSamples a.normalize
        { s with heap := { s.heap with rng := g0 } } =
          .ok n { s with sp := { s.sp with params := o1 }, heap := { s.heap with rng := g1 } } →
      ∃ Q s', drawSurvey (Spec.surveyEnv e env c.code showProgress tr galB k g0) y a s = .ok Q s' ∧
        s'.heap.rng = g6 ∧ Spec.Holds Q flux (Spec.observed e
          (Spec.sigmaUsed (s.heap.selectors y.fluxSel).kind a) a.log10Draw) v)
    (fun k g1 v g6 hv => ⟨List.length_ofFn, hv⟩)) ?_
  rintro k g n g1 v g2 hp ⟨rfl, hv⟩
  refine hv g ?_
  rw [hc.drawn, h.plainCount]
  show (onSpatial (onParams ((Spec.surveyEnv e env c.code showProgress tr galB k g).spatial.count false)) >>=
    fun N => onRng ((Spec.surveyEnv e env c.code showProgress tr galB k g).poisson N)) _ = _
  have e1 : onSpatial (onParams ((Spec.surveyEnv e env c.code showProgress tr galB k g).spatial.count false))
      { s with heap := { s.heap with rng := g } } = .ok (Λ : ℝ)
        { s with sp := { s.sp with params := o1 }, heap := { s.heap with rng := g } } := by
    refine onSpatial_of_ok (t := { sp := { s.sp with params := o1 }, rng := g }) ?_
    unfold onParams
    have : (Spec.surveyEnv e env c.code showProgress tr galB k g).spatial.count false s.sp.params =
      .ok (Λ : ℝ) o1 := by rw [hc.mean]; exact c1
    simp only [this]
  rw [bind_of_ok e1]
  exact onRng_of_ok hp

/-- **C74** (given number): with `n_samples = n` the catalogue consists of `n` independent
sources with the same law, and no Poisson number is drawn. -/
theorem C74_given_number (h : Spec.Lawful P e env c tr y a s flux rm m vs μL p) {n : ℕ}
    (hn : a.nSamples = some n) (showProgress : Bool) (galB : List ℝ → List ℝ → List ℝ) :
    Spec.Samples P (Spec.iid n (Spec.catalogueLaw e c y a s flux rm m vs μL p))
      fun k g v g' => ∃ Q s',
        drawSurvey (Spec.surveyEnv e env c.code showProgress tr galB k g) y a s = .ok Q s' ∧
        s'.heap.rng = g' ∧ Spec.Holds Q flux (Spec.observed e
          (Spec.sigmaUsed (s.heap.selectors y.fluxSel).kind a) a.log10Draw) (List.ofFn v) := by
  refine Samples.mono (survey_samples h showProgress galB (o1 := s.sp.params) ⟨RdRel.refl _, NormRel.refl _⟩ n)
    fun k g v g' hv => hv g ?_
  rw [hn]
  rfl

end Popsynth
