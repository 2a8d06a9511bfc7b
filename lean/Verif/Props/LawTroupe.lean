import Verif.Lemmas.TroupeAux
import Verif.Props.LawAttached

/-!
# The law of surveys with derived luminosities and secondary samplers (C84)
-/

set_option autoImplicit false
set_option linter.unusedSectionVars false

open MeasureTheory Filter
open scoped NNReal ENNReal

namespace Popsynth
variable {G : Type} [MeasurableSpace G] {P : Measure G} [IsProbabilityMeasure P]

/-! ### Independent chances -/

theorem pi_cons {N : ℕ} {α : Fin (N + 1) → Type} [∀ j, MeasurableSpace (α j)]
    (μ : ∀ j, Measure (α j)) [∀ j, IsProbabilityMeasure (μ j)] :
    MeasurePreserving (fun q : α 0 × (∀ j : Fin N, α j.succ) => (Fin.cons q.1 q.2 : ∀ j, α j))
      ((μ 0).prod (Measure.pi fun j : Fin N => μ j.succ)) (Measure.pi μ) := by
  have hm : Measurable fun q : α 0 × (∀ j : Fin N, α j.succ) => (Fin.cons q.1 q.2 : ∀ j, α j) := by
    refine measurable_pi_iff.2 fun j => ?_
    refine Fin.cases ?_ (fun j => ?_) j
    · exact measurable_fst
    · exact (measurable_pi_apply j).comp measurable_snd
  refine ⟨hm, ?_⟩
  symm
  refine Measure.pi_eq fun t ht => ?_
  rw [Measure.map_apply hm (MeasurableSet.univ_pi ht)]
  have e : (fun q : α 0 × (∀ j : Fin N, α j.succ) => (Fin.cons q.1 q.2 : ∀ j, α j)) ⁻¹' Set.univ.pi t =
      t 0 ×ˢ Set.univ.pi fun j : Fin N => t j.succ := by
    ext q
    simp only [Set.mem_preimage, Set.mem_pi, Set.mem_univ, true_implies, Set.mem_prod]
    constructor
    · exact fun h => ⟨h 0, fun j => h j.succ⟩
    · rintro ⟨h1, h2⟩ j
      exact Fin.cases h1 h2 j
  rw [e, Measure.prod_prod, Measure.pi_pi, Fin.prod_univ_succ]

theorem iid_pi_cons {N : ℕ} {α : Fin (N + 1) → Type} [∀ j, MeasurableSpace (α j)]
    (μ : ∀ j, Measure (α j)) [∀ j, IsProbabilityMeasure (μ j)] (n : ℕ) :
    MeasurePreserving (fun (q : (Fin n → α 0) × (Fin n → ∀ j : Fin N, α j.succ)) i =>
        (Fin.cons (q.1 i) (q.2 i) : ∀ j, α j))
      ((Spec.iid n (μ 0)).prod (Spec.iid n (Measure.pi fun j : Fin N => μ j.succ)))
      (Spec.iid n (Measure.pi μ)) := by
  have m := measurePreserving_pi (fun _ : Fin n => (μ 0).prod (Measure.pi fun j : Fin N => μ j.succ))
    (fun _ => Measure.pi μ) fun _ => pi_cons μ
  exact m.comp (iid_zip n (μ 0) _)

/-! ### The samplers one after the other -/

variable {e : SurveyEnv ℝ G}

/-- What all attached samplers give. -/
def troupeGains {N : ℕ} (A : Fin N → Spec.Troupe) {n : ℕ} (x : Fin n → Spec.Seen)
    (u : Fin n → ∀ j, (A j).κ) (prs : ∀ j, Fin (A j).members.length → List ℝ) :
    List ((String × ℕ) × List (Spec.Gain ℝ)) :=
  List.ofFn fun j => (((A j).key, (A j).id),
    Spec.gainsOf (A j).members (fun i => (A j).response (x i) (u i j)) (prs j))

theorem gainsOf_id (who : List (String × ℕ × ℕ)) {n : ℕ} (out : Fin n → Fin who.length → Spec.Outcome)
    (prs : Fin who.length → List ℝ) :
    (Spec.gainsOf who out prs).map Spec.Gain.who = who := by
  unfold Spec.gainsOf
  rw [List.map_ofFn]
  exact List.ext_get (by simp) (by simp [Spec.Gain.who])

theorem troupes_samples {h₀ : Heap ℝ G} (n : ℕ) : ∀ {N : ℕ} (A : Fin N → Spec.Troupe),
    (∀ j, Spec.Performs P e h₀ (A j)) →
    ((List.ofFn fun j => (A j).members).flatten.map fun p => p.2.1).Nodup →
    ((List.ofFn fun j => (A j).members).flatten.map fun p => p.2.2).Nodup →
    Spec.Samples P (Spec.iid n (Measure.pi fun j => (A j).law)) fun _ g u g' =>
      ∀ (h : Heap ℝ G) (x : Fin n → Spec.Seen),
        (∀ j, ∀ p ∈ (A j).members, h.samplers p.2.1 = h₀.samplers p.2.1 ∧
          h.selectors p.2.2 = h₀.selectors p.2.2) → h.rng = g →
        ∃ h' prs, Acts e n (List.ofFn fun i => (x i).2.2)
          (Spec.positions fun i => ((x i).1, (x i).2.1)) h (troupeGains A x u prs) h' ∧ h'.rng = g' := by
  intro N
  induction N with
  | zero =>
    intro A _ _ _
    have : Subsingleton (Fin n → ∀ j : Fin 0, (A j).κ) :=
      ⟨fun a b => funext fun i => funext fun j => j.elim0⟩
    have : ∀ j : Fin 0, IsProbabilityMeasure (A j).law := fun j => j.elim0
    rw [dirac_of_subsingleton (Spec.iid n (Measure.pi fun j => (A j).law)) (fun _ j => j.elim0)]
    refine ⟨fun g => ((fun _ j => j.elim0), g), ⟨by fun_prop, by rw [Measure.dirac_prod]⟩, ?_⟩
    exact Eventually.of_forall fun g => Eventually.of_forall fun k h x _ hg =>
      ⟨h, fun j => j.elim0, .nil h, hg⟩
  | succ N ih =>
    intro A hp hid hsel
    rw [List.ofFn_succ, List.flatten_cons, List.map_append, List.nodup_append] at hid hsel
    have hl : ∀ j, IsProbabilityMeasure (A j).law := fun j => (hp j).law
    have S1 := (hp 0).draws n
    have S2 := ih (fun j => A j.succ) (fun j => hp j.succ) hid.2.1 hsel.2.1
    refine Samples.mapTo (Samples.after S1 S2) (iid_pi_cons (fun j => (A j).law) n) ?_
    rintro b g ⟨u1, u2⟩ g' ⟨g1, r1, r2⟩ h x hh hg
    obtain ⟨h1, pr, a1, a2, a3, a4, a5, a6⟩ := r1 h x (hh 0) hg
    have hw := gainsOf_id (A 0).members (fun i => (A 0).response (x i) (u1 i)) pr
    obtain ⟨h2, prs, b1, b2⟩ := r2 h1 x (by
      intro j p hpm
      have hin : p ∈ (List.ofFn fun j : Fin N => (A j.succ).members).flatten :=
        List.mem_flatten.2 ⟨_, List.mem_ofFn.2 ⟨j, rfl⟩, hpm⟩
      rw [a6.others, a6.selectors]
      · exact hh j.succ p hpm
      · intro hm
        obtain ⟨d, hd, hd'⟩ := List.mem_map.1 hm
        have : d.who ∈ (A 0).members := by rw [← hw]; exact List.mem_map_of_mem hd
        exact hsel.2.2 d.sel (List.mem_map.2 ⟨d.who, this, rfl⟩) p.2.2 (List.mem_map.2 ⟨p, hin, rfl⟩) hd'
      · intro hm
        obtain ⟨d, hd, hd'⟩ := List.mem_map.1 hm
        have : d.who ∈ (A 0).members := by rw [← hw]; exact List.mem_map_of_mem hd
        exact hid.2.2 d.id (List.mem_map.2 ⟨d.who, this, rfl⟩) p.2.1 (List.mem_map.2 ⟨p, hin, rfl⟩) hd') a2
    refine ⟨h2, Fin.cons pr prs, ?_, b2⟩
    unfold troupeGains
    rw [List.ofFn_succ]
    exact .cons ⟨a1, a3, a4, a5, a6⟩ b1

/-! ### What all samplers select -/

theorem gainsOf_cons (p : String × ℕ × ℕ) (who : List (String × ℕ × ℕ)) {n : ℕ}
    (out : Fin n → Fin (who.length + 1) → Spec.Outcome) (prs : Fin (who.length + 1) → List ℝ) :
    Spec.gainsOf (p :: who) out prs =
      { key := p.1, id := p.2.1, sel := p.2.2
        ts := List.ofFn fun i => (out i 0).1
        os := List.ofFn fun i => (out i 0).2.1
        mask := List.ofFn fun i => (out i 0).2.2
        prob := prs 0 } ::
      Spec.gainsOf who (fun i j => out i j.succ) fun j => prs j.succ := by
  unfold Spec.gainsOf
  exact List.ofFn_succ

theorem gainsOf_mask {n : ℕ} : ∀ (who : List (String × ℕ × ℕ)) (b : Fin n → Bool)
    (out : Fin n → Fin who.length → Spec.Outcome) (prs : Fin who.length → List ℝ),
    (Spec.gainsOf who out prs).foldl (fun m d => List.zipWith (· && ·) m d.mask) (List.ofFn b) =
      List.ofFn fun i => b i && decide (∀ j, (out i j).2.2 = true)
  | [], b, out, prs => by
    simp only [Spec.gainsOf, List.length_nil, List.ofFn_zero, List.foldl_nil]
    congr 1
    funext i
    have : decide (∀ j : Fin 0, (out i j).2.2 = true) = true := by
      rw [decide_eq_true_eq]
      exact fun j => j.elim0
    exact (by rw [this, Bool.and_true])
  | p :: who, b, out, prs => by
    rw [gainsOf_cons, List.foldl_cons]
    have e1 : List.zipWith (· && ·) (List.ofFn b) (List.ofFn fun i => (out i 0).2.2) =
        List.ofFn fun i => b i && (out i 0).2.2 :=
      ofFn_zipWith (· && ·) b fun i => (out i 0).2.2
    dsimp only
    erw [e1]
    rw [gainsOf_mask who]
    congr 1
    funext i
    rw [Bool.and_assoc]
    congr 1
    rw [Bool.eq_iff_iff, Bool.and_eq_true, decide_eq_true_eq, decide_eq_true_eq]
    constructor
    · rintro ⟨h1, h2⟩ j
      exact Fin.cases h1 h2 j
    · exact fun h => ⟨h 0, fun j => h j.succ⟩

theorem troupeGains_mask {n : ℕ} (x : Fin n → Spec.Seen) : ∀ {N : ℕ} (A : Fin N → Spec.Troupe)
    (b : Fin n → Bool) (u : Fin n → ∀ j, (A j).κ) (prs : ∀ j, Fin (A j).members.length → List ℝ),
    (allGains (troupeGains A x u prs)).foldl (fun m d => List.zipWith (· && ·) m d.mask) (List.ofFn b) =
      List.ofFn fun i => b i && decide (∀ k j, ((A k).response (x i) (u i k) j).2.2 = true)
  | 0, A, b, u, prs => by
    simp only [troupeGains, allGains, List.ofFn_zero, List.map_nil, List.flatten_nil, List.foldl_nil]
    congr 1
    funext i
    have : decide (∀ (k : Fin 0) (j : Fin (A k).members.length), ((A k).response (x i) (u i k) j).2.2 = true) = true := by
      rw [decide_eq_true_eq]
      exact fun k => k.elim0
    rw [this, Bool.and_true]
  | N + 1, A, b, u, prs => by
    have e0 : allGains (troupeGains A x u prs) =
        Spec.gainsOf (A 0).members (fun i => (A 0).response (x i) (u i 0)) (prs 0) ++
        allGains (troupeGains (fun j : Fin N => A j.succ) x (fun i j => u i j.succ) fun j => prs j.succ) := by
      unfold troupeGains allGains
      rw [List.ofFn_succ, List.map_cons, List.flatten_cons]
    rw [e0, List.foldl_append, gainsOf_mask, troupeGains_mask x (fun j : Fin N => A j.succ)]
    congr 1
    funext i
    rw [Bool.and_assoc]
    congr 1
    rw [Bool.eq_iff_iff, Bool.and_eq_true, decide_eq_true_eq, decide_eq_true_eq, decide_eq_true_eq]
    constructor
    · rintro ⟨h1, h2⟩ k
      exact Fin.cases h1 h2 k
    · exact fun h => ⟨h 0, fun k => h k.succ⟩

/-! ### The law -/

variable {env : DistEnv ℝ G} {c : SpClass ℝ}
  {tr : List ℝ → List ℝ → Except Err (List ℝ)} {y : Synth ℝ} {a : SurveyArgs ℝ} {s : SurvSt ℝ G}
  {flux : ℝ → ℝ → ℝ} {rm m : ℝ} {vs : List ℝ} {Λ : ℝ≥0} {p : ℝ → ℝ≥0∞}
  {L : Spec.Lamp} {N : ℕ} {A : Fin N → Spec.Troupe}

/-- The assumptions on everything but the samplers: the primitives are those of numpy, the spatial
distribution is of the modelled form with readable parameters, fluxes are computed object by
object, and the flux selection detects an object with probability `p` of its observed flux. -/
structure Spec.Staged (P : Measure G) (e : SurveyEnv ℝ G) (env : DistEnv ℝ G) (c : SpClass ℝ)
    (transform : List ℝ → List ℝ → Except Err (List ℝ)) (y : Synth ℝ) (a : SurveyArgs ℝ)
    (s : SurvSt ℝ G) (flux : ℝ → ℝ → ℝ) (rm m : ℝ) (vs : List ℝ) (p : ℝ → ℝ≥0∞) : Prop where
  equipped : Spec.Equipped e y s
  uniform : Spec.FairUniform P env.uniform
  lt : ∀ a b, env.lt a b = true ↔ a < b
  thetaOf : ∀ u, env.thetaOf u = Real.arccos (1 - 2 * u)
  twoPi : env.twoPi = 2 * Real.pi
  plainCount : a.normalize = false
  declared : c.decl "r_max" = declRMax env
  unique : ∀ a b, (c.decl a).isNorm = true → (c.decl b).isNorm = true → a = b
  norm : ∀ n, s.sp.params.norm = some n →
    (c.decl n).isNorm = true ∧ (s.sp.params.storage.get? n).isSome
  radius : outcome (paramGet (c.decl "r_max") "r_max" s.sp.params) = .ok rm ∧ 0 < rm
  values : outcome (readAll c.decl c.reads s.sp.params) = .ok vs
  highest : m = env.npMax ((env.grid rm).map (c.dens vs)) ∧ 0 < m
  density : Measurable (c.dens vs)
  somewhere : ∫⁻ r in Set.Icc 0 rm, ENNReal.ofReal (min (c.dens vs r) m) ≠ 0
  fluxes : Measurable (fun q : ℝ × ℝ => flux q.1 q.2)
  transforms : ∀ ls ds, ls.length = ds.length → transform ls ds = .ok (List.zipWith flux ls ds)
  noise : ∀ sigma, Spec.sigmaUsed (s.heap.selectors y.fluxSel).kind a = some sigma →
    e.validScale sigma = true ∧
    Spec.Samples P (Spec.noiseLaw (some sigma)) fun _ g x g' => e.normal sigma g = (x, g')
  observed : Measurable fun q : ℝ × ℝ =>
    Spec.observed e (Spec.sigmaUsed (s.heap.selectors y.fluxSel).kind a) a.log10Draw q.1 q.2
  detects : Spec.Detects P e.world (s.heap.selectors y.fluxSel) p

/-- The law of an object of the survey. -/
noncomputable def Spec.surveyFate (y : Synth ℝ) (a : SurveyArgs ℝ) (s : SurvSt ℝ G) (c : SpClass ℝ)
    (rm m : ℝ) (vs : List ℝ) (L : Spec.Lamp) {N : ℕ} (A : Fin N → Spec.Troupe) :
    Measure (Spec.Fate L A) :=
  Spec.fateLaw (Spec.densityLaw (fun r => min (c.dens vs r) m) rm) L A
    (Spec.sigmaUsed (s.heap.selectors y.fluxSel).kind a)

/-- The observed flux of an object. -/
noncomputable def Spec.fluxOf (e : SurveyEnv ℝ G) (y : Synth ℝ) (a : SurveyArgs ℝ) (s : SurvSt ℝ G)
    (flux : ℝ → ℝ → ℝ) (x : Spec.SkySource) : ℝ :=
  Spec.observed e (Spec.sigmaUsed (s.heap.selectors y.fluxSel).kind a) a.log10Draw
    (flux x.luminosity x.distance) x.noise

/-- The law of a flagged object: it is detected with the probability of its observed flux if all
samplers select it, and not otherwise. -/
noncomputable def Spec.surveyLaw (e : SurveyEnv ℝ G) (c : SpClass ℝ) (y : Synth ℝ)
    (a : SurveyArgs ℝ) (s : SurvSt ℝ G) (flux : ℝ → ℝ → ℝ) (rm m : ℝ) (vs : List ℝ)
    (p : ℝ → ℝ≥0∞) (L : Spec.Lamp) {N : ℕ} (A : Fin N → Spec.Troupe) :
    Measure (Spec.Fate L A × Bool) :=
  Spec.flagged (Spec.surveyFate y a s c rm m vs L A) fun x =>
    if Spec.approved L A x = true then p (Spec.fluxOf e y a s flux (Spec.sourceOf L A x)) else 0

/-- The observed fluxes can be computed. -/
def Spec.FiniteFluxes (e : SurveyEnv ℝ G) (c : SpClass ℝ) (y : Synth ℝ)
    (a : SurveyArgs ℝ) (s : SurvSt ℝ G) (flux : ℝ → ℝ → ℝ) (rm m : ℝ) (vs : List ℝ)
    (L : Spec.Lamp) {N : ℕ} (A : Fin N → Spec.Troupe) : Prop :=
  ∀ᵐ x ∂(Spec.surveyFate y a s c rm m vs L A),
    Spec.observable e (Spec.sigmaUsed (s.heap.selectors y.fluxSel).kind a) a.log10Draw
      (flux (Spec.sourceOf L A x).luminosity x.1) (Spec.sourceOf L A x).noise

theorem sourceOf_measurable (hL : Measurable fun q : Spec.Place × L.κ => L.shine q.1 q.2) :
    Measurable (Spec.sourceOf L A) := by
  have h1 : Measurable fun x : Spec.Fate L A => ((x.1, x.2.1), x.2.2.1) := by fun_prop
  have h2 : Measurable fun x : Spec.Fate L A => L.shine (x.1, x.2.1) x.2.2.1 := hL.comp h1
  have h3 : Measurable fun x : Spec.Fate L A =>
      (x.1, (x.2.1.1, x.2.1.2), L.shine (x.1, x.2.1) x.2.2.1, x.2.2.2.2) := by fun_prop
  exact SkySource.measurable_ofTuple.comp h3

theorem approved_measurable (hL : Measurable fun q : Spec.Place × L.κ => L.shine q.1 q.2)
    (hr : ∀ j, Measurable fun q : Spec.Place × L.κ => L.response q.1 q.2 j)
    (hA : ∀ i j, Measurable fun q : Spec.Seen × (A i).κ => (A i).response q.1 q.2 j) :
    Measurable (Spec.approved L A) := by
  have hs : Measurable Spec.SkySource.seen :=
    SkySource.measurable_of (show Measurable fun p : ℝ × (ℝ × ℝ) × ℝ × ℝ => (p.1, (p.2.1.1, p.2.1.2), p.2.2.1) by fun_prop)
  refine measurable_to_bool ?_
  have e : Spec.approved L A ⁻¹' {true} =
      (⋂ j, {x | (Spec.lampOutcome L A x j).2.2 = true}) ∩
      ⋂ i, ⋂ j, {x | (Spec.troupeOutcome L A x i j).2.2 = true} := by
    ext x
    simp [Spec.approved]
  rw [e]
  refine MeasurableSet.inter (MeasurableSet.iInter fun j => ?_)
    (MeasurableSet.iInter fun i => MeasurableSet.iInter fun j => ?_)
  · have h1 : Measurable fun x : Spec.Fate L A => ((x.1, x.2.1), x.2.2.1) := by fun_prop
    have h2 := (hr j).comp h1
    exact (measurable_snd.comp (measurable_snd.comp h2)) (measurableSet_singleton true)
  · have h1 : Measurable fun x : Spec.Fate L A => ((Spec.sourceOf L A x).seen, x.2.2.2.1 i) :=
      (hs.comp (sourceOf_measurable hL)).prodMk (by fun_prop)
    have h2 := (hA i j).comp h1
    exact (measurable_snd.comp (measurable_snd.comp h2)) (measurableSet_singleton true)

theorem Spec.Staged.distance_prob (h : Spec.Staged P e env c tr y a s flux rm m vs p) :
    IsProbabilityMeasure (Spec.densityLaw (fun r => min (c.dens vs r) m) rm) :=
  densityLaw_prob h.somewhere (cut_mass_finite _ _ _)

theorem Spec.Staged.flux_measurable (h : Spec.Staged P e env c tr y a s flux rm m vs p) :
    Measurable (Spec.fluxOf e y a s flux) := by
  have h1 : Measurable fun x : Spec.SkySource => flux x.luminosity x.distance :=
    h.fluxes.comp (SkySource.measurable_luminosity.prodMk SkySource.measurable_distance)
  exact h.observed.comp (h1.prodMk SkySource.measurable_noise)

theorem surveyFate_prob (h : Spec.Staged P e env c tr y a s flux rm m vs p)
    (hA : Spec.Company P e y s L A) : IsProbabilityMeasure (Spec.surveyFate y a s c rm m vs L A) := by
  have j1 := h.distance_prob
  have j2 := hA.lights.law
  have j3 := sin_law_prob
  have j4 := uniformLaw_prob (h := 2 * Real.pi) (by have := Real.pi_pos; positivity)
  have j5 := fun j => (hA.performs j).law
  unfold Spec.surveyFate Spec.fateLaw
  infer_instance

/-- The flag of an object from the numbers drawn. -/
theorem fate_flag (μ : Measure (Spec.Fate L A)) [IsProbabilityMeasure μ]
    (ha : Measurable (Spec.approved L A)) (ν : Measure ℝ) [IsProbabilityMeasure ν] {D : Set (ℝ × ℝ)}
    [DecidablePred (· ∈ D)] (hD : MeasurableSet D) {f : Spec.Fate L A → ℝ} (hf : Measurable f)
    (hp : ∀ x, ν {u | (x, u) ∈ D} = p x) :
    MeasurePreserving (fun q : Spec.Fate L A × ℝ =>
        (q.1, Spec.approved L A q.1 && decide ((f q.1, q.2) ∈ D)))
      (μ.prod ν) (Spec.flagged μ fun x => if Spec.approved L A x = true then p (f x) else 0) := by
  let D' : Set ((ℝ × Bool) × ℝ) := {q | q.1.2 = true ∧ (q.1.1, q.2) ∈ D}
  haveI : DecidablePred (· ∈ D') := fun q => decidable_of_iff (q.1.2 = true ∧ (q.1.1, q.2) ∈ D) Iff.rfl
  have hD' : MeasurableSet D' := by
    have g1 : Measurable fun q : (ℝ × Bool) × ℝ => q.1.2 := by fun_prop
    have g2 : Measurable fun q : (ℝ × Bool) × ℝ => (q.1.1, q.2) := by fun_prop
    exact (g1 (measurableSet_singleton true)).inter (g2 hD)
  have hf' : Measurable fun x : Spec.Fate L A => (f x, Spec.approved L A x) := hf.prodMk ha
  have hp' : ∀ x : ℝ × Bool, ν {u | (x, u) ∈ D'} = if x.2 = true then p x.1 else 0 := by
    rintro ⟨x, b⟩
    cases b
    · simp [D']
    · simp [D', hp]
  have hb : Measurable fun q : Spec.Fate L A × ℝ =>
      decide ((((f q.1, Spec.approved L A q.1), q.2) : (ℝ × Bool) × ℝ) ∈ D') := by
    refine measurable_to_bool ?_
    convert ((hf'.comp measurable_fst).prodMk measurable_snd) hD' using 1
    ext q; simp
  have k := flagged_eq μ ν hD' hf' hp'
  have e1 : (fun q : Spec.Fate L A × ℝ =>
      (q.1, Spec.approved L A q.1 && decide ((f q.1, q.2) ∈ D))) = fun q =>
      (q.1, decide ((((f q.1, Spec.approved L A q.1), q.2) : (ℝ × Bool) × ℝ) ∈ D')) := by
    funext q
    congr 1
    rw [Bool.eq_iff_iff, Bool.and_eq_true, decide_eq_true_eq, decide_eq_true_eq]
    exact Iff.rfl
  rw [e1]
  exact ⟨measurable_fst.prodMk hb, k⟩

theorem surveyLaw_prob (h : Spec.Staged P e env c tr y a s flux rm m vs p)
    (hA : Spec.Company P e y s L A) :
    IsProbabilityMeasure (Spec.surveyLaw e c y a s flux rm m vs p L A) := by
  obtain ⟨ν, D, _, hν, hD, hp, -⟩ := h.detects
  have := surveyFate_prob h hA
  have r3 := fate_flag (p := p) (Spec.surveyFate y a s c rm m vs L A)
    (approved_measurable hA.lights.shine hA.lights.response fun i => (hA.performs i).response) ν hD
    (h.flux_measurable.comp (sourceOf_measurable hA.lights.shine)) hp
  have r4 : Spec.surveyLaw e c y a s flux rm m vs p L A = _ := r3.map_eq.symm
  rw [r4]
  exact Measure.isProbabilityMeasure_map r3.measurable.aemeasurable

section
variable {κ κ' : Type} [MeasurableSpace κ] [MeasurableSpace κ']

/-- Draws for every object of six kinds. -/
theorem iid_zip_all (n : ℕ) (μ1 μ2 μ3 : Measure ℝ) (μ4 : Measure κ) (μ5 : Measure κ')
    (μ6 μ7 : Measure ℝ) [IsProbabilityMeasure μ1] [IsProbabilityMeasure μ2] [IsProbabilityMeasure μ3]
    [IsProbabilityMeasure μ4] [IsProbabilityMeasure μ5] [IsProbabilityMeasure μ6] [IsProbabilityMeasure μ7] :
    MeasurePreserving (fun (q : (Fin n → ℝ) × ((Fin n → ℝ) × (Fin n → ℝ)) × (Fin n → κ) ×
        (Fin n → κ') × (Fin n → ℝ) × (Fin n → ℝ)) i =>
        (q.1 i, (q.2.1.1 i, q.2.1.2 i), q.2.2.1 i, q.2.2.2.1 i, q.2.2.2.2.1 i, q.2.2.2.2.2 i))
      ((Spec.iid n μ1).prod (((Spec.iid n μ2).prod (Spec.iid n μ3)).prod
        ((Spec.iid n μ4).prod ((Spec.iid n μ5).prod ((Spec.iid n μ6).prod (Spec.iid n μ7))))))
      (Spec.iid n (μ1.prod ((μ2.prod μ3).prod (μ4.prod (μ5.prod (μ6.prod μ7)))))) := by
  have h0 := iid_zip n μ6 μ7
  have h1 := (iid_zip n μ5 (μ6.prod μ7)).comp ((MeasurePreserving.id (Spec.iid n μ5)).prod h0)
  have h2 := (iid_zip n μ4 _).comp ((MeasurePreserving.id (Spec.iid n μ4)).prod h1)
  have h3 := (iid_zip n (μ2.prod μ3) _).comp ((iid_zip n μ2 μ3).prod h2)
  exact (iid_zip n μ1 _).comp ((MeasurePreserving.id (Spec.iid n μ1)).prod h3)

theorem last_out (μ1 : Measure ℝ) (μ2 : Measure (ℝ × ℝ)) (μ4 : Measure κ) (μ5 : Measure κ')
    (μ6 μ7 : Measure ℝ) [SFinite μ1] [SFinite μ2] [SFinite μ4] [SFinite μ5] [SFinite μ6] [SFinite μ7] :
    MeasurePreserving (fun q : ℝ × (ℝ × ℝ) × κ × κ' × ℝ × ℝ =>
        ((q.1, q.2.1, q.2.2.1, q.2.2.2.1, q.2.2.2.2.1), q.2.2.2.2.2))
      (μ1.prod (μ2.prod (μ4.prod (μ5.prod (μ6.prod μ7)))))
      ((μ1.prod (μ2.prod (μ4.prod (μ5.prod μ6)))).prod μ7) := by
  have a5 := (measurePreserving_prodAssoc μ5 μ6 μ7).symm (e := MeasurableEquiv.prodAssoc)
  have a4 := ((measurePreserving_prodAssoc μ4 (μ5.prod μ6) μ7).symm (e := MeasurableEquiv.prodAssoc)).comp
    ((MeasurePreserving.id μ4).prod a5)
  have a2 := ((measurePreserving_prodAssoc μ2 (μ4.prod (μ5.prod μ6)) μ7).symm (e := MeasurableEquiv.prodAssoc)).comp
    ((MeasurePreserving.id μ2).prod a4)
  exact ((measurePreserving_prodAssoc μ1 (μ2.prod (μ4.prod (μ5.prod μ6))) μ7).symm
    (e := MeasurableEquiv.prodAssoc)).comp ((MeasurePreserving.id μ1).prod a2)

end

/-- A survey with a given number of objects. -/
theorem survey_all_samples (h : Spec.Staged P e env c tr y a s flux rm m vs p)
    (hA : Spec.Company P e y s L A) (hfx : Spec.FiniteFluxes e c y a s flux rm m vs L A)
    (showProgress : Bool) (galB : List ℝ → List ℝ → List ℝ) {o1 : Obj ℝ}
    (ho : RdRel c.decl s.sp.params o1 ∧ NormRel c.reads c.decl s.sp.params o1) (n : ℕ) :
    Spec.Samples P (Spec.iid n (Spec.surveyLaw e c y a s flux rm m vs p L A)) fun k g1 v g6 =>
      ∀ g0, countObjects (Spec.surveyEnv e env c.code showProgress tr galB k g0) a.nSamples a.normalize
        { s with heap := { s.heap with rng := g0 } } =
          .ok n { s with sp := { s.sp with params := o1 }, heap := { s.heap with rng := g1 } } →
      ∃ Q s', drawSurvey (Spec.surveyEnv e env c.code showProgress tr galB k g0) y a s = .ok Q s' ∧
        s'.heap.rng = g6 ∧ Spec.HoldsAll Q flux (Spec.observed e
          (Spec.sigmaUsed (s.heap.selectors y.fluxSel).kind a) a.log10Draw) L A (List.ofFn v) := by
  obtain ⟨ν, D, _, hν, hD, hp, hsel⟩ := h.detects
  have j1 := h.distance_prob
  have j2 := hA.lights.law
  have j3 := sin_law_prob
  have j4 := uniformLaw_prob (h := 2 * Real.pi) (by have := Real.pi_pos; positivity)
  have j5 := fun j => (hA.performs j).law
  have j6 := surveyFate_prob h hA
  have j7 := surveyLaw_prob h hA
  -- distances
  have hr1 : outcome (paramGet (c.decl "r_max") "r_max" o1) = .ok rm := by
    rw [outcome_paramGet_rd, ho.1.same, ← outcome_paramGet_rd]; exact h.radius.1
  have hvs1 : outcome (readAll c.decl c.reads o1) = .ok vs := by
    rw [readAll_outcome, rdAll_congr _ _ ho.1.same, ← readAll_outcome]; exact h.values
  have hok1 : ∀ n, o1.norm = some n → (c.decl n).isNorm = true ∧ (o1.storage.get? n).isSome :=
    fun n hn => ⟨ho.1.normOk (fun n hn => (h.norm n hn).1) n hn,
      ho.2.stored (fun n hn => (h.norm n hn).2) n hn⟩
  have S1 := C73_draw_distance env h.uniform h.lt c h.declared h.unique showProgress n
    { s.sp with params := o1 } hok1 hr1 hvs1 h.highest.1 h.highest.2 h.radius.2 h.density h.somewhere
  have S2 := sky_samples env h.uniform h.thetaOf h.twoPi n
  have S3 := hA.lights.draws n
  -- everybody is different
  have hids := hA.ids
  have hsels := hA.sels
  have hkeys := hA.keys
  unfold Spec.everyone at hids hsels
  rw [List.map_append, List.nodup_append] at hids hsels
  have SA := troupes_samples n A hA.performs hids.2.1 hsels.2.1
  have S4 := noise_samples e y a s.heap h.noise n
  have S5 := hsel n
  have S := Samples.mapTo (Q := fun k g (w : Fin n → ℝ × (ℝ × ℝ) × L.κ × (∀ j, (A j).κ) × ℝ × ℝ) g' =>
      After _ (After _ (After _ (After _ (After _ _)))) k g
        (((fun i => (w i).1), ((fun i => (w i).2.1.1), fun i => (w i).2.1.2), (fun i => (w i).2.2.1),
          (fun i => (w i).2.2.2.1), (fun i => (w i).2.2.2.2.1), fun i => (w i).2.2.2.2.2)) g')
    (Samples.after S1 (Samples.after S2 (Samples.after S3 (Samples.after SA (Samples.after S4 S5)))))
    (iid_zip_all n _ _ _ _ _ _ _) (fun k g q g' hq => hq)
  -- the law of an object
  have r0 := last_out (Spec.densityLaw (fun r => min (c.dens vs r) m) rm)
    ((Spec.densityLaw Real.sin Real.pi).prod (Spec.uniformLaw (2 * Real.pi))) L.law
    (Measure.pi fun j => (A j).law) (Spec.noiseLaw (Spec.sigmaUsed (s.heap.selectors y.fluxSel).kind a)) ν
  have r3 := fate_flag (p := p) (Spec.surveyFate y a s c rm m vs L A)
    (approved_measurable hA.lights.shine hA.lights.response fun i => (hA.performs i).response) ν hD
    (h.flux_measurable.comp (sourceOf_measurable hA.lights.shine)) hp
  have r4 := r3.comp r0
  have hfst := (measurePreserving_fst (μ := Spec.surveyFate y a s c rm m vs L A) (ν := ν)).comp r0
  have hfin := iid_ae (hfst.quasiMeasurePreserving.ae hfx) n
  have hiid := measurePreserving_pi (fun _ : Fin n => _)
    (fun _ => Spec.surveyLaw e c y a s flux rm m vs p L A) fun _ => r4
  refine Samples.mapTo (Samples.and_ae S hfin) hiid ?_
  rintro k g1 w g6 ⟨⟨g2, ⟨sp2, d1, d2⟩, g3, q2, g4, q3, g4', qA, g5, q5, q6⟩, hf⟩ g0 hcount
  -- the objects
  let z : Fin n → Spec.Fate L A := fun i =>
    ((w i).1, (w i).2.1, (w i).2.2.1, (w i).2.2.2.1, (w i).2.2.2.2.1)
  let x : Fin n → Spec.SkySource := fun i => Spec.sourceOf L A (z i)
  have hf' : ∀ i, Spec.observable e (Spec.sigmaUsed (s.heap.selectors y.fluxSel).kind a) a.log10Draw
        (flux (x i).luminosity (w i).1) (w i).2.2.2.2.1 := hf
  obtain ⟨sel', t1, t2⟩ := q6 fun i => Spec.fluxOf e y a s flux (x i)
  obtain ⟨rs', p1, u1, u2, u3⟩ := drawDistance_probability _ c _ _ _ d1
  obtain ⟨d3, -, -, d4⟩ := d2
  have u4 : p1.length = n := by
    rw [u3]
    have := u1.symm.trans d3
    cases this
    simp
  have hrr : ∃ r o, readRMax env sp2.params = .ok r o := by
    have h1 := d4 "r_max"
    rw [hr1, outcome_paramGet_rd] at h1
    cases h2 : rd c.decl "r_max" sp2.params with
    | none => rw [h2] at h1; cases h1
    | some x =>
      obtain ⟨o, h3, -⟩ := readRMax_ok env h.declared h2
      exact ⟨x, o, h3⟩
  -- luminosities and attached samplers
  let sp3 : Spat ℝ := { sp2 with theta := some (List.ofFn fun i => (w i).2.1.1), phi := some (List.ofFn fun i => (w i).2.1.2) }
  obtain ⟨lum4, h4, prL, v1, v2, v3⟩ := q3 sp3 fun i => ((w i).1, (w i).2.1)
  let DL := Spec.gainsOf L.members (fun i => L.response ((w i).1, (w i).2.1) (w i).2.2.1) prL
  have hDL : DL.map Spec.Gain.who = L.members := gainsOf_id _ _ _
  have hDL1 : DL.map Spec.Gain.id = L.members.map fun p => p.2.1 := by
    rw [← hDL, List.map_map]; rfl
  have hDL2 : DL.map Spec.Gain.sel = L.members.map fun p => p.2.2 := by
    rw [← hDL, List.map_map]; rfl
  obtain ⟨h5, prs, tk, hr'⟩ := qA h4 (fun i => (x i).seen) (by
    intro j q hq
    have hin : q ∈ (List.ofFn fun j : Fin N => (A j).members).flatten :=
      List.mem_flatten.2 ⟨_, List.mem_ofFn.2 ⟨j, rfl⟩, hq⟩
    rw [v2.others, v2.selectors]
    · exact ⟨rfl, rfl⟩
    · intro hm
      exact hsels.2.2 _ (by rw [← hDL2]; exact hm) _ (List.mem_map.2 ⟨q, hin, rfl⟩) rfl
    · intro hm
      exact hids.2.2 _ (by rw [← hDL1]; exact hm) _ (List.mem_map.2 ⟨q, hin, rfl⟩) rfl) v1
  let TG := troupeGains A (fun i => (x i).seen) (fun i => (w i).2.2.2.1) prs
  let DA := allGains TG
  have hDA : DA.map Spec.Gain.who = (List.ofFn fun j => (A j).members).flatten := by
    simp only [DA, TG, allGains, troupeGains]
    rw [List.map_flatten, List.map_map, List.map_ofFn]
    congr 2
    funext j
    exact gainsOf_id _ _ _
  have hall : (DL ++ DA).map Spec.Gain.who = Spec.everyone L A := by
    rw [List.map_append, hDL, hDA]; rfl
  have hk : ((DL ++ DA).map Spec.Gain.key).Nodup := by
    have := hA.keys
    rw [← hall, List.map_map] at this
    exact this
  have hs' : ((DL ++ DA).map Spec.Gain.sel).Nodup := by
    have := hA.sels
    rw [← hall, List.map_map] at this
    exact this
  have hnames : ∀ d ∈ DL ++ DA, d.key ≠ "" ∧ d.key ∉ readOnlyNames := fun d hd =>
    hA.names d.who (by rw [← hall]; exact List.mem_map_of_mem hd)
  have hflux : y.fluxSel ∉ (DL ++ DA).map Spec.Gain.sel := by
    have := hA.flux
    rw [← hall, List.map_map] at this
    exact this
  have hdist : y.distSel ∉ (DL ++ DA).map Spec.Gain.sel := by
    have := hA.dist
    rw [← hall, List.map_map] at this
    exact this
  have hch : Spec.Changed n s.heap h5 (DL ++ DA) := by
    refine changed_trans v2 (acts_changed tk ?_) hs'
    rw [List.map_append, List.nodup_append] at hs'
    exact hs'.2.1
  have hent : (DL ++ DA).map Spec.Gain.stored = entriesOf (DL ++ DA) := rfl
  let e' := Spec.surveyEnv e env c.code showProgress tr galB k g0
  have haux : y.aux = TG.map Prod.fst := by
    rw [hA.aux]
    simp only [TG, troupeGains]
    rw [List.map_ofFn]
    rfl
  have stages : CoreStages e' y a s n g6
      (List.ofFn fun i => (w i).1) (List.ofFn fun i => (w i).2.1.1) (List.ofFn fun i => (w i).2.1.2)
      (List.ofFn fun i => (x i).luminosity) (List.ofFn fun i => flux (x i).luminosity (w i).1)
      (List.ofFn fun i => Spec.fluxOf e y a s flux (x i))
      (entriesOf (DL ++ DA)) (commonMask n (DL ++ DA))
      (List.ofFn fun i => decide ((Spec.fluxOf e y a s flux (x i), (w i).2.2.2.2.2) ∈ D)) :=
    { g0 := g0, g1 := g1, g2 := g2, g3 := g3, g5 := g5, o1 := o1, sp2 := sp2
      sp3 := sp3, lum4 := lum4, h4 := h4, h5 := h5, auxq0 := DL.map Spec.Gain.stored
      sg := (Spec.sigmaUsed (s.heap.selectors y.fluxSel).kind a).getD e.minusOne, sel' := sel'
      seed := rfl
      count := hcount
      dist := by rw [h.plainCount]; exact d1
      prob := ⟨p1, u2, u4⟩
      sky := q2 sp2
      pos := ⟨d3, rfl, rfl⟩
      lens := by simp
      lumd := v3
      flux := by
        show tr _ _ = _
        rw [h.transforms _ _ (by simp), ofFn_zipWith]
      auxd := by
        intro loc hloc
        obtain ⟨loc', a1, a2, a3⟩ := acts_fold tk { s with sp := sp3, lum := lum4, heap := h4 } loc rfl
          (by
            obtain ⟨_, c1, -⟩ := h.equipped.rooted
            intro q hq
            rw [(v2.links _).2.1]
            exact c1 q.1.1 q.1.2 (by rw [haux]; exact List.mem_map_of_mem hq))
          (fun d hd => (hnames d (by simp only [List.mem_append]; exact .inr hd)).1)
          (by
            rw [hloc]
            intro q hq
            obtain ⟨d, hd, rfl⟩ := List.mem_map.1 hq
            exact (hnames d (by simp only [List.mem_append]; exact .inl hd)).1)
          (by rw [hloc, stored_keys, ← List.map_append]; exact hk)
        rw [haux]
        refine ⟨loc', a1, ?_, a3⟩
        rw [a2, hloc, ← List.map_append]
        rfl
      len := commonMask_length _ fun d hd => (hch.gained d hd).2.2.2.2.2.1
      good := by
        refine ⟨?_, ?_⟩
        · intro k v hkv
          obtain ⟨d, hd, he⟩ := List.mem_map.1 hkv
          cases he
          obtain ⟨-, -, -, l1, l2, -⟩ := hch.gained d hd
          exact ⟨⟨_, rfl, l2⟩, ⟨_, rfl, l1⟩, by simp, (hnames d hd).2⟩
        · have : (entriesOf (DL ++ DA)).map Prod.fst = (DL ++ DA).map Spec.Gain.key := by
            unfold entriesOf; rw [List.map_map]; rfl
          rw [this]; exact hk
      fluxSel := hch.selectors _ hflux
      distSel := hch.selectors _ hdist
      links := hch.links
      apply := by
        intro t prob hpr hsel
        refine apply_fold (fun d hd => ?_) _ _ _ rfl (by simp) hpr
        obtain ⟨j1, j2, j3, -, -, j4, j5⟩ := hch.gained d hd
        rw [hsel d.sel fun h => hflux (h ▸ List.mem_map_of_mem hd)]
        exact ⟨j1, fun hu => j3 (by rw [← j2]; exact hu), j4, j5⟩
      obs := by
        intro t hr ht
        rw [hr'] at hr
        rw [observeFlux_env]
        exact q5 (fun i => flux (x i).luminosity (w i).1) t hr ht hf'
      sel := t1
      mask := t2
      rmax := hrr }
  have pl : Spec.Equipped e' y s :=
    ⟨h.equipped.lum, h.equipped.spat, h.equipped.apart, h.equipped.fresh,
      h.equipped.known, h.equipped.spaces, h.equipped.dict, h.equipped.rooted⟩
  obtain ⟨Q, s', b1, b2, b3, b4, b5, b6, b7, b8, b9, b10, b11⟩ := stages.returns pl
  refine ⟨Q, s', b1, b2, ?_⟩
  have hmask : commonMask n (DL ++ DA) = List.ofFn fun i => Spec.approved L A (z i) := by
    unfold commonMask
    rw [← List.ofFn_const, List.foldl_append, gainsOf_mask, troupeGains_mask]
    congr 1
    funext i
    unfold Spec.approved
    rw [Bool.eq_iff_iff, Bool.and_eq_true, Bool.and_eq_true, decide_eq_true_eq, decide_eq_true_eq,
      decide_eq_true_eq]
    simp only [true_and]
    exact Iff.rfl
  rw [hmask, ofFn_zipWith] at b3
  have hs : Q.selection = (List.ofFn fun i => (z i, Spec.approved L A (z i) &&
      decide ((Spec.fluxOf e y a s flux (x i), (w i).2.2.2.2.2) ∈ D))).map fun q => q.2 := by
    rw [b3, List.map_ofFn]; rfl
  have hlen : Q.selection.length = n := by rw [b3]; simp
  constructor
  · rw [List.map_ofFn]
    refine ⟨?_, ?_, ?_, ?_, ?_, ?_, ?_⟩
    · rw [hs, List.map_ofFn, List.map_ofFn]; rfl
    · rw [b5, List.map_ofFn]; rfl
    · rw [b6, List.map_ofFn]; rfl
    · rw [b7, List.map_ofFn]; rfl
    · rw [b8, List.map_ofFn]; rfl
    · rw [b9, List.map_ofFn, List.map_ofFn]; rfl
    · have hc := List.count_true_add_count_false Q.selection
      rw [hlen] at hc
      have hsel : (List.map (fun q : Spec.SkySource × Bool => q.2) (List.ofFn ((fun q : Spec.Fate L A × Bool =>
          (Spec.sourceOf L A q.1, q.2)) ∘ fun i => (z i, Spec.approved L A (z i) &&
            decide ((Spec.fluxOf e y a s flux (x i), (w i).2.2.2.2.2) ∈ D))))) = Q.selection := by
        rw [hs, List.map_ofFn, List.map_ofFn]; rfl
      constructor
      · rw [b10, countTrue_eq]
        exact congrArg (List.count true) hsel.symm
      · rw [b11, countTrue_eq]
        refine (Nat.eq_sub_of_add_eq' hc).symm.trans ?_
        exact congrArg (List.count false) hsel.symm
  · rw [b4, entries_attrs]
    · rw [List.nil_append, List.map_append]
      congr 1
      · simp only [DL, Spec.gainsOf, List.map_ofFn]
        rfl
      · simp only [DA, TG, allGains, troupeGains]
        rw [List.map_flatten, List.map_map, List.map_ofFn]
        congr 2
        funext j
        simp only [Function.comp_apply, Spec.gainsOf, List.map_ofFn]
        rfl
    · exact hk

/-- **C84** (catalogue): whatever gives the luminosities, and with secondary samplers, a survey
returns almost surely; its population is a Poisson number (mean the integral of the density) of
independent objects with the law `surveyLaw`, and its quantities are what the samplers make of
the objects. -/
theorem C84_catalogue (h : Spec.Staged P e env c tr y a s flux rm m vs p)
    (hA : Spec.Company P e y s L A) (hfx : Spec.FiniteFluxes e c y a s flux rm m vs L A)
    (hc : Spec.Counted P e env c a rm vs Λ) (showProgress : Bool) (galB : List ℝ → List ℝ → List ℝ) :
    Spec.Samples P (Spec.poissonSample Λ (Spec.surveyLaw e c y a s flux rm m vs p L A))
      fun k g v g' => ∃ Q s',
        drawSurvey (Spec.surveyEnv e env c.code showProgress tr galB k g) y a s = .ok Q s' ∧
        s'.heap.rng = g' ∧ Spec.HoldsAll Q flux (Spec.observed e
          (Spec.sigmaUsed (s.heap.selectors y.fluxSel).kind a) a.log10Draw) L A v := by
  have := surveyLaw_prob h hA
  have hr : rd c.decl "r_max" s.sp.params = some rm := rd_of_outcome h.radius.1
  have hvs : rdAll c.decl c.reads s.sp.params = .ok vs := by rw [← readAll_outcome]; exact h.values
  obtain ⟨o1, c1, c2, c3⟩ := expectedCount_returns env c h.declared hr hvs
  have hi : ∀ n, IsProbabilityMeasure ((Spec.iid n (Spec.surveyLaw e c y a s flux rm m vs p L A)).map
      List.ofFn) := fun n =>
    Measure.isProbabilityMeasure_map (measurable_ofFn n).aemeasurable
  refine Samples.bindNat hc.poisson (fun n => Samples.map (survey_all_samples h hA hfx showProgress galB ⟨c2, c3⟩ n)
    (measurable_ofFn n) (Q := fun k g1 v g6 => v.length = n ∧
      ∀ g0, countObjects (Spec.surveyEnv e env c.code showProgress tr galB k g0) a.nSamples a.normalize
        { s with heap := { s.heap with rng := g0 } } =
          .ok n { s with sp := { s.sp with params := o1 }, heap := { s.heap with rng := g1 } } →
      ∃ Q s', drawSurvey (Spec.surveyEnv e env c.code showProgress tr galB k g0) y a s = .ok Q s' ∧
        s'.heap.rng = g6 ∧ Spec.HoldsAll Q flux (Spec.observed e
          (Spec.sigmaUsed (s.heap.selectors y.fluxSel).kind a) a.log10Draw) L A v)
    (fun k g1 v g6 hv => ⟨List.length_ofFn, hv⟩)) ?_
  rintro k g n g1 v g2 hp ⟨rfl, hv⟩
  refine hv g ?_
  rw [hc.drawn, h.plainCount]
  show (onSpatial (onParams ((Spec.surveyEnv e env c.code showProgress tr galB k g).spatial.count false)) >>=
    fun N => onRng ((Spec.surveyEnv e env c.code showProgress tr galB k g).poisson N)) _ = _
  have e1 : onSpatial (onParams ((Spec.surveyEnv e env c.code showProgress tr galB k g).spatial.count false))
      { s with heap := { s.heap with rng := g } } = .ok (Λ : ℝ)
        { s with sp := { s.sp with params := o1 }, heap := { s.heap with rng := g } } := by
    refine onSpatial_of_ok (t := { sp := { s.sp with params := o1 }, rng := g }) ?_
    unfold onParams
    have : (Spec.surveyEnv e env c.code showProgress tr galB k g).spatial.count false s.sp.params =
      .ok (Λ : ℝ) o1 := by rw [hc.mean]; exact c1
    simp only [this]
  rw [bind_of_ok e1]
  exact onRng_of_ok hp

/-- **C84** (given number): with `n_samples = n` there are `n` independent objects with the same
law. -/
theorem C84_given_number (h : Spec.Staged P e env c tr y a s flux rm m vs p)
    (hA : Spec.Company P e y s L A) (hfx : Spec.FiniteFluxes e c y a s flux rm m vs L A) {n : ℕ}
    (hn : a.nSamples = some n) (showProgress : Bool) (galB : List ℝ → List ℝ → List ℝ) :
    Spec.Samples P (Spec.iid n (Spec.surveyLaw e c y a s flux rm m vs p L A))
      fun k g v g' => ∃ Q s',
        drawSurvey (Spec.surveyEnv e env c.code showProgress tr galB k g) y a s = .ok Q s' ∧
        s'.heap.rng = g' ∧ Spec.HoldsAll Q flux (Spec.observed e
          (Spec.sigmaUsed (s.heap.selectors y.fluxSel).kind a) a.log10Draw) L A (List.ofFn v) := by
  refine Samples.mono (survey_all_samples h hA hfx showProgress galB (o1 := s.sp.params)
    ⟨RdRel.refl _, NormRel.refl _⟩ n) fun k g v g' hv => hv g ?_
  rw [hn]
  rfl

end Popsynth
