import Verif.Lemmas.Law
import Verif.Lemmas.Distance
import Mathlib.MeasureTheory.Measure.Lebesgue.Integral

/-!
# Rejection sampling as a random draw
-/

set_option autoImplicit false
set_option linter.unusedSectionVars false

open MeasureTheory Filter

namespace Popsynth

/-! ### Laws -/

theorem uniformLaw_prob {h : ℝ} (hh : 0 < h) : IsProbabilityMeasure (Spec.uniformLaw h) := by
  constructor
  simp only [Spec.uniformLaw, Measure.smul_apply, Measure.restrict_apply_univ, Real.volume_Icc,
    sub_zero, smul_eq_mul]
  exact ENNReal.inv_mul_cancel (by simpa using hh) ENNReal.ofReal_ne_top

theorem densityLaw_apply (f : ℝ → ℝ) (x : ℝ) {X : Set ℝ} (hX : MeasurableSet X) :
    Spec.densityLaw f x X = (∫⁻ r in Set.Icc 0 x, ENNReal.ofReal (f r))⁻¹ *
      ∫⁻ r in X ∩ Set.Icc 0 x, ENNReal.ofReal (f r) := by
  rw [Spec.densityLaw, Measure.smul_apply, withDensity_apply _ hX, smul_eq_mul,
    Measure.restrict_restrict hX]

theorem densityLaw_prob {f : ℝ → ℝ} {x : ℝ}
    (h0 : ∫⁻ r in Set.Icc 0 x, ENNReal.ofReal (f r) ≠ 0)
    (h1 : ∫⁻ r in Set.Icc 0 x, ENNReal.ofReal (f r) ≠ ⊤) :
    IsProbabilityMeasure (Spec.densityLaw f x) := by
  constructor
  rw [densityLaw_apply f x MeasurableSet.univ, Set.univ_inter]
  exact ENNReal.inv_mul_cancel h0 h1

/-- The mass of the densities cut off at `m` is finite. -/
theorem cut_mass_finite (f : ℝ → ℝ) (m x : ℝ) :
    ∫⁻ r in Set.Icc 0 x, ENNReal.ofReal (min (f r) m) ≠ ⊤ := by
  refine ne_of_lt (lt_of_le_of_lt (lintegral_mono (g := fun _ => ENNReal.ofReal m) fun r =>
    ENNReal.ofReal_le_ofReal (min_le_right _ _)) ?_)
  rw [setLIntegral_const, Real.volume_Icc]
  exact ENNReal.mul_lt_top ENNReal.ofReal_lt_top ENNReal.ofReal_lt_top

theorem volume_below (v m : ℝ) :
    volume (Set.Iio v ∩ Set.Icc 0 m) = ENNReal.ofReal (min v m) := by
  by_cases h : v ≤ m
  · rw [min_eq_left h]
    have : Set.Iio v ∩ Set.Icc 0 m = Set.Ico 0 v := by
      ext y; simp only [Set.mem_inter_iff, Set.mem_Iio, Set.mem_Icc, Set.mem_Ico]
      constructor
      · rintro ⟨a, b, _⟩; exact ⟨b, a⟩
      · rintro ⟨a, b⟩; exact ⟨b, a, by linarith⟩
    rw [this, Real.volume_Ico, sub_zero]
  · rw [not_le] at h
    rw [min_eq_right h.le]
    have : Set.Iio v ∩ Set.Icc 0 m = Set.Icc 0 m := by
      ext y; simp only [Set.mem_inter_iff, Set.mem_Iio, Set.mem_Icc]
      constructor
      · rintro ⟨_, b⟩; exact b
      · rintro ⟨a, b⟩; exact ⟨by linarith, a, b⟩
    rw [this, Real.volume_Icc, sub_zero]

/-- The pairs (height, distance) that are accepted, with distance in `X`. -/
theorem accepted_measure {f : ℝ → ℝ} (hf : Measurable f) (m x : ℝ) {X : Set ℝ}
    (hX : MeasurableSet X) :
    ((Spec.uniformLaw m).prod (Spec.uniformLaw x)) ({p | p.1 < f p.2} ∩ Prod.snd ⁻¹' X) =
      (ENNReal.ofReal m)⁻¹ * (ENNReal.ofReal x)⁻¹ *
        ∫⁻ r in X ∩ Set.Icc 0 x, ENNReal.ofReal (min (f r) m) := by
  have hA : MeasurableSet {p : ℝ × ℝ | p.1 < f p.2} :=
    measurableSet_lt measurable_fst (hf.comp measurable_snd)
  have hm : MeasurableSet ({p : ℝ × ℝ | p.1 < f p.2} ∩ Prod.snd ⁻¹' X) :=
    hA.inter (measurable_snd hX)
  unfold Spec.uniformLaw
  rw [Measure.prod_smul_left, Measure.prod_smul_right, Measure.smul_apply, Measure.smul_apply,
    Measure.prod_apply_symm hm, smul_eq_mul, smul_eq_mul, mul_assoc,
    ← Measure.restrict_restrict hX, ← lintegral_indicator hX]
  congr 2
  refine lintegral_congr fun r => ?_
  by_cases hr : r ∈ X
  · rw [Set.indicator_of_mem hr, Measure.restrict_apply (measurable_prodMk_right hm),
      ← volume_below]
    congr 2
    ext y; simp [hr]
  · rw [Set.indicator_of_notMem hr]
    have : (fun y => (y, r)) ⁻¹' ({p : ℝ × ℝ | p.1 < f p.2} ∩ Prod.snd ⁻¹' X) = ∅ := by
      ext y; simp [hr]
    rw [this, measure_empty]

/-- An accepted distance has the cut off density. -/
theorem accepted_law {f : ℝ → ℝ} (hf : Measurable f) {m x : ℝ} (hm : 0 < m) (hx : 0 < x) :
    (ProbabilityTheory.cond ((Spec.uniformLaw m).prod (Spec.uniformLaw x))
      {p | p.1 < f p.2}).map Prod.snd = Spec.densityLaw (fun r => min (f r) m) x := by
  have hA : MeasurableSet {p : ℝ × ℝ | p.1 < f p.2} :=
    measurableSet_lt measurable_fst (hf.comp measurable_snd)
  ext X hX
  have e := accepted_measure hf m x MeasurableSet.univ
  rw [Set.preimage_univ, Set.inter_univ, Set.univ_inter] at e
  rw [Measure.map_apply measurable_snd hX, ProbabilityTheory.cond_apply hA,
    accepted_measure hf m x hX, densityLaw_apply _ _ hX, e]
  have c0 : (ENNReal.ofReal m)⁻¹ * (ENNReal.ofReal x)⁻¹ ≠ 0 := by
    simp
  have c1 : (ENNReal.ofReal m)⁻¹ * (ENNReal.ofReal x)⁻¹ ≠ ⊤ := by
    refine ENNReal.mul_ne_top ?_ ?_ <;> simpa
  rw [ENNReal.mul_inv (Or.inl c0) (Or.inl c1), mul_mul_mul_comm, ENNReal.inv_mul_cancel c0 c1,
    one_mul]

theorem accepted_pos {f : ℝ → ℝ} (hf : Measurable f) {m x : ℝ}
    (h0 : ∫⁻ r in Set.Icc 0 x, ENNReal.ofReal (min (f r) m) ≠ 0) :
    ((Spec.uniformLaw m).prod (Spec.uniformLaw x)) {p | p.1 < f p.2} ≠ 0 := by
  have e := accepted_measure hf m x MeasurableSet.univ
  rw [Set.preimage_univ, Set.inter_univ, Set.univ_inter] at e
  rw [e]
  exact mul_ne_zero (by simp) h0

/-! ### The loops -/

variable {G : Type} [MeasurableSpace G] {P : Measure G} [IsProbabilityMeasure P]

/-- The same environment with another bound on the number of turns of loops. -/
def DistEnv.withBudget (env : DistEnv ℝ G) (k : ℕ) : DistEnv ℝ G := { env with budget := k }

/-- One trial: a height and a distance. -/
def trial (Sy Sx : G → ℝ × G) (g : G) : (ℝ × ℝ) × G :=
  (((Sy g).1, (Sx (Sy g).2).1), (Sx (Sy g).2).2)

theorem trial_preserves {Sy Sx : G → ℝ × G} {m x : ℝ} (hm : 0 < m) (hx : 0 < x)
    (hy : MeasurePreserving Sy P ((Spec.uniformLaw m).prod P))
    (hs : MeasurePreserving Sx P ((Spec.uniformLaw x).prod P)) :
    MeasurePreserving (trial Sy Sx) P
      (((Spec.uniformLaw m).prod (Spec.uniformLaw x)).prod P) := by
  have := uniformLaw_prob hm
  have := uniformLaw_prob hx
  have h1 : MeasurePreserving (Prod.map (id : ℝ → ℝ) Sx) ((Spec.uniformLaw m).prod P)
      ((Spec.uniformLaw m).prod ((Spec.uniformLaw x).prod P)) := (MeasurePreserving.id _).prod hs
  have h2 := (measurePreserving_prodAssoc (Spec.uniformLaw m) (Spec.uniformLaw x) P).symm
    (e := MeasurableEquiv.prodAssoc)
  exact h2.comp (h1.comp hy)

section loops
variable {env : DistEnv ℝ G} {m x : ℝ} {Sy Sx : G → ℝ × G}
  (hy : ∀ g, env.uniform m g = (.ok (Sy g).1, (Sy g).2))
  (hs : ∀ g, env.uniform x g = (.ok (Sx g).1, (Sx g).2))
  (hlt : ∀ a b, env.lt a b = true ↔ a < b)
  {Inv : Obj ℝ → Prop} {xmax : Py (Obj ℝ) ℝ} {code : ℝ → Py (Obj ℝ) ℝ} {f : ℝ → ℝ}
  (hxm : ∀ o, Inv o → ∃ o', xmax o = .ok x o' ∧ Inv o')
  (hcode : ∀ o r, Inv o → ∃ o', code r o = .ok (f r) o' ∧ Inv o')

include hy hs hlt hxm hcode in
/-- One turn of the loop. -/
theorem rejectOne_step (k : ℕ) (sp : Spat ℝ) (g : G) (hI : Inv sp.params) :
    ∃ o', Inv o' ∧ rejectOne env m xmax code (k + 1) { sp := sp, rng := g } =
      if (trial Sy Sx g).1.1 < f (trial Sy Sx g).1.2 then
        .ok (trial Sy Sx g).1.2 { sp := { sp with params := o' }, rng := (trial Sy Sx g).2 }
      else rejectOne env m xmax code k
        { sp := { sp with params := o' }, rng := (trial Sy Sx g).2 } := by
  have e1 : ∀ (t : SpSt ℝ G), drawUniform env m t = .ok (Sy t.rng).1 { t with rng := (Sy t.rng).2 } := by
    intro t; unfold drawUniform; rw [hy]
  have e2 : ∀ (t : SpSt ℝ G), drawUniform env x t = .ok (Sx t.rng).1 { t with rng := (Sx t.rng).2 } := by
    intro t; unfold drawUniform; rw [hs]
  obtain ⟨o1, h1, i1⟩ := hxm sp.params hI
  obtain ⟨o2, h2, i2⟩ := hcode o1 (Sx (Sy g).2).1 i1
  refine ⟨o2, i2, ?_⟩
  simp only [rejectOne]
  rw [bind_of_ok (e1 _)]
  rw [bind_of_ok (show onParams xmax _ = .ok x { sp := { sp with params := o1 }, rng := (Sy g).2 } by
    simp only [onParams, h1])]
  rw [bind_of_ok (e2 _)]
  dsimp only
  rw [bind_of_ok (show onParams (code (Sx (Sy g).2).1) _ =
    .ok (f (Sx (Sy g).2).1) { sp := { sp with params := o2 }, rng := (Sx (Sy g).2).2 } by
    simp only [onParams, h2])]
  by_cases hc : (Sy g).1 < f (Sx (Sy g).2).1
  · rw [if_pos ((hlt _ _).2 hc), if_pos (show (trial Sy Sx g).1.1 < f (trial Sy Sx g).1.2 from hc)]
    rfl
  · rw [if_neg (fun h => hc ((hlt _ _).1 h)),
      if_neg (show ¬ (trial Sy Sx g).1.1 < f (trial Sy Sx g).1.2 from hc)]
    rfl

include hy hs hlt hxm hcode in
/-- The loop returns the first accepted distance. -/
theorem rejectOne_wait (j : ℕ) : ∀ (k : ℕ) (sp : Spat ℝ) (g : G), j < k → Inv sp.params →
    g ∈ waitEnds (trial Sy Sx) {p | p.1 < f p.2} j Set.univ Set.univ →
    ∃ o', Inv o' ∧ rejectOne env m xmax code k { sp := sp, rng := g } =
      .ok (trial Sy Sx (waitState (trial Sy Sx) j g)).1.2
        { sp := { sp with params := o' }, rng := (trial Sy Sx (waitState (trial Sy Sx) j g)).2 } := by
  induction j with
  | zero =>
    intro k sp g hk hI hg
    obtain ⟨k, rfl⟩ : ∃ k', k = k' + 1 := ⟨k - 1, by omega⟩
    obtain ⟨o', i', h⟩ := rejectOne_step hy hs hlt hxm hcode k sp g hI
    have ha : (trial Sy Sx g).1.1 < f (trial Sy Sx g).1.2 := hg.2.1.1
    rw [if_pos ha] at h
    exact ⟨o', i', h⟩
  | succ j ih =>
    intro k sp g hk hI hg
    obtain ⟨k, rfl⟩ : ∃ k', k = k' + 1 := ⟨k - 1, by omega⟩
    obtain ⟨o', i', h⟩ := rejectOne_step hy hs hlt hxm hcode k sp g hI
    have ha : ¬ (trial Sy Sx g).1.1 < f (trial Sy Sx g).1.2 := hg.1.1
    rw [if_neg ha] at h
    obtain ⟨o2, i2, h2⟩ := ih k { sp with params := o' } (trial Sy Sx g).2 (by omega) i'
      ⟨hg.1.2, hg.2⟩
    exact ⟨o2, i2, h.trans h2⟩

end loops

/-- The loop for one object: a run that keeps the invariant of the parameters. -/
def RunsReject (env : ℕ → DistEnv ℝ G) (Inv : Obj ℝ → Prop) (m : ℝ) (xmax : Py (Obj ℝ) ℝ)
    (code : ℝ → Py (Obj ℝ) ℝ) (k : ℕ) (g : G) (r : ℝ) (g' : G) : Prop :=
  ∀ sp : Spat ℝ, Inv sp.params → ∃ o', Inv o' ∧
    rejectOne (env k) m xmax code (env k).budget { sp := sp, rng := g } =
      .ok r { sp := { sp with params := o' }, rng := g' }

/-- One distance. -/
theorem rejectOne_samples {env : DistEnv ℝ G} {m x : ℝ} {Sy Sx : G → ℝ × G}
    (hm : 0 < m) (hx : 0 < x)
    (py : MeasurePreserving Sy P ((Spec.uniformLaw m).prod P))
    (ps : MeasurePreserving Sx P ((Spec.uniformLaw x).prod P))
    (hy : ∀ g, env.uniform m g = (.ok (Sy g).1, (Sy g).2))
    (hs : ∀ g, env.uniform x g = (.ok (Sx g).1, (Sx g).2))
    (hlt : ∀ a b, env.lt a b = true ↔ a < b)
    {Inv : Obj ℝ → Prop} {xmax : Py (Obj ℝ) ℝ} {code : ℝ → Py (Obj ℝ) ℝ} {f : ℝ → ℝ}
    (hxm : ∀ o, Inv o → ∃ o', xmax o = .ok x o' ∧ Inv o')
    (hcode : ∀ o r, Inv o → ∃ o', code r o = .ok (f r) o' ∧ Inv o')
    (hf : Measurable f) (h0 : ∫⁻ r in Set.Icc 0 x, ENNReal.ofReal (min (f r) m) ≠ 0) :
    Spec.Samples P (Spec.densityLaw (fun r => min (f r) m) x)
      (RunsReject env.withBudget Inv m xmax code) := by
  have hT := trial_preserves hm hx py ps
  have := uniformLaw_prob hm
  have := uniformLaw_prob hx
  have hA : MeasurableSet {p : ℝ × ℝ | p.1 < f p.2} :=
    measurableSet_lt measurable_fst (hf.comp measurable_snd)
  have hpos := accepted_pos hf h0
  have hprob : IsProbabilityMeasure (ProbabilityTheory.cond
      ((Spec.uniformLaw m).prod (Spec.uniformLaw x)) {p | p.1 < f p.2}) :=
    ProbabilityTheory.cond_isProbabilityMeasure hpos
  have key : Spec.Samples P (ProbabilityTheory.cond
      ((Spec.uniformLaw m).prod (Spec.uniformLaw x)) {p | p.1 < f p.2})
      (fun k g p g' => RunsReject env.withBudget Inv m xmax code k g p.2 g') := by
    refine ⟨waitFor (trial Sy Sx) {p | p.1 < f p.2}, waitFor_preserves hT hA hpos, ?_⟩
    filter_upwards [wait_ends hT hA hpos] with g hg
    obtain ⟨j, hj⟩ := hg
    filter_upwards [eventually_gt_atTop j] with k hk
    rw [waitFor_eq hj]
    intro sp hI
    exact rejectOne_wait (env := env.withBudget k) hy hs hlt hxm hcode j k sp g hk hI hj
  rw [← accepted_law hf hm hx]
  exact Samples.map key measurable_snd fun k g a g' h => h

/-- `rejectMany` repeats the loop. -/
theorem rejectMany_repeats {env : ℕ → DistEnv ℝ G} {Inv : Obj ℝ → Prop} {m : ℝ}
    {xmax : Py (Obj ℝ) ℝ} {code : ℝ → Py (Obj ℝ) ℝ} (k : ℕ) (rs : List ℝ) :
    ∀ (g g' : G) (sp : Spat ℝ), Repeats (RunsReject env Inv m xmax code) k rs g g' →
      Inv sp.params → ∃ o', Inv o' ∧
      rejectMany (env k) m xmax code rs.length { sp := sp, rng := g } =
        .ok rs { sp := { sp with params := o' }, rng := g' } := by
  induction rs with
  | nil =>
    intro g g' sp h hI
    cases h
    exact ⟨sp.params, hI, rfl⟩
  | cons r rs ih =>
    rintro g g' sp ⟨g1, h1, h2⟩ hI
    obtain ⟨o1, i1, e1⟩ := h1 sp hI
    obtain ⟨o2, i2, e2⟩ := ih g1 g' { sp with params := o1 } h2 i1
    refine ⟨o2, i2, ?_⟩
    simp only [List.length_cons, rejectMany]
    rw [bind_of_ok e1, bind_of_ok e2]
    rfl

end Popsynth
