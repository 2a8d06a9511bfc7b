import Verif.Props.LawClasses

/-!
# The law of distances drawn with `normalize=True`, and of sky positions (C73)
-/

set_option autoImplicit false
set_option linter.unusedSectionVars false

open MeasureTheory Filter

namespace Popsynth
variable {G : Type} [MeasurableSpace G] {P : Measure G} [IsProbabilityMeasure P]

/-- A program that does not depend on anything but the generator state has one law. -/
theorem Samples.unique {α : Type} [MeasurableSpace α] {μ ν : Measure α} [IsProbabilityMeasure μ]
    [IsProbabilityMeasure ν] {R : ℕ → G → α → G → Prop} (h : Spec.Samples P μ R)
    (h' : Spec.Samples P ν R)
    (hR : ∀ k g a b g1 g2, R k g a g1 → R k g b g2 → a = b) : μ = ν := by
  obtain ⟨T, hT, h1⟩ := h
  obtain ⟨T', hT', h2⟩ := h'
  have e : (fun g => (T g).1) =ᵐ[P] fun g => (T' g).1 := by
    filter_upwards [h1, h2] with g a b
    obtain ⟨k, ha, hb⟩ := (a.and b).exists
    exact hR k g _ _ _ _ ha hb
  have m1 : Measure.map (fun g => (T g).1) P = μ :=
    ((measurePreserving_fst (μ := μ) (ν := P)).comp hT).map_eq
  have m2 : Measure.map (fun g => (T' g).1) P = ν :=
    ((measurePreserving_fst (μ := ν) (ν := P)).comp hT').map_eq
  rw [← m1, ← m2]
  exact Measure.map_congr e

/-- Independent values with different laws have different laws. -/
theorem iid_one_inj {α : Type} [MeasurableSpace α] {μ ν : Measure α} [IsProbabilityMeasure μ]
    [IsProbabilityMeasure ν] (h : Spec.iid 1 μ = Spec.iid 1 ν) : μ = ν := by
  have key : ∀ (ρ : Measure α) [IsProbabilityMeasure ρ],
      Measure.map (fun v : Fin 1 → α => v 0) (Spec.iid 1 ρ) = ρ := fun ρ _ =>
    (measurePreserving_eval (fun _ : Fin 1 => ρ) 0).map_eq
  rw [← key μ, ← key ν, h]

/-- C73 (exactness): a distance drawn from a class of the modelled form follows the density
of the class if and only if the largest density on the grid bounds the density almost
everywhere (given that the part of the density below it has positive mass). -/
theorem C73_draw_distance_iff (env : DistEnv ℝ G) (hfair : Spec.FairUniform P env.uniform)
    (hlt : ∀ a b, env.lt a b = true ↔ a < b) (c : SpClass ℝ)
    (hrm : c.decl "r_max" = declRMax env)
    (huniq : ∀ a b, (c.decl a).isNorm = true → (c.decl b).isNorm = true → a = b)
    (showProgress : Bool) (sp : Spat ℝ)
    (hok : ∀ n, sp.params.norm = some n →
      (c.decl n).isNorm = true ∧ (sp.params.storage.get? n).isSome)
    {rm m : ℝ} {vs : List ℝ}
    (hr : outcome (paramGet (c.decl "r_max") "r_max" sp.params) = .ok rm)
    (hvs : outcome (readAll c.decl c.reads sp.params) = .ok vs)
    (hm : m = env.npMax ((env.grid rm).map (c.dens vs)))
    (hm0 : 0 < m) (hrm0 : 0 < rm) (hf : Measurable (c.dens vs))
    (hfin : ∫⁻ r in Set.Icc 0 rm, ENNReal.ofReal (c.dens vs r) ≠ ⊤)
    (hpos : ∫⁻ r in {r | c.dens vs r ≤ m} ∩ Set.Icc 0 rm, ENNReal.ofReal (c.dens vs r) ≠ 0) :
    (Spec.Samples P (Spec.iid 1 (Spec.densityLaw (c.dens vs) rm))
      fun k g v g' => ∃ sp', drawDistance { env with budget := k } c.code showProgress 1 false
        { sp := sp, rng := g } = .ok () { sp := sp', rng := g' } ∧
        Spec.DrewDistances c.decl (List.ofFn v) sp sp') ↔
      ∀ᵐ r ∂(volume.restrict (Set.Icc 0 rm)), c.dens vs r ≤ m := by
  have hX : MeasurableSet {r | c.dens vs r ≤ m} := measurableSet_le hf measurable_const
  have h0 : ∫⁻ r in Set.Icc 0 rm, ENNReal.ofReal (min (c.dens vs r) m) ≠ 0 := by
    intro hz
    refine hpos (le_antisymm ?_ zero_le)
    rw [← hz]
    calc ∫⁻ r in {r | c.dens vs r ≤ m} ∩ Set.Icc 0 rm, ENNReal.ofReal (c.dens vs r)
        = ∫⁻ r in {r | c.dens vs r ≤ m} ∩ Set.Icc 0 rm, ENNReal.ofReal (min (c.dens vs r) m) :=
          setLIntegral_congr_fun (hX.inter measurableSet_Icc) fun r hr => by
            rw [min_eq_left (show c.dens vs r ≤ m from hr.1)]
      _ ≤ _ := lintegral_mono_set Set.inter_subset_right
  have hf0 : ∫⁻ r in Set.Icc 0 rm, ENNReal.ofReal (c.dens vs r) ≠ 0 := by
    intro hz
    exact hpos (le_antisymm (hz ▸ lintegral_mono_set Set.inter_subset_right) zero_le)
  have i1 := densityLaw_prob h0 (cut_mass_finite (c.dens vs) m rm)
  have i2 := densityLaw_prob hf0 hfin
  have hlaw := C73_draw_distance env hfair hlt c hrm huniq showProgress 1 sp hok hr hvs hm hm0 hrm0 hf h0
  rw [← C73_exact_iff hf hm0 hfin hpos]
  constructor
  · intro hs
    exact iid_one_inj (Samples.unique hlaw hs (by
      rintro k g a b g1 g2 ⟨s1, e1, d1⟩ ⟨s2, e2, d2⟩
      rw [e1] at e2
      cases e2
      exact List.ofFn_injective (Option.some.inj (d1.1.symm.trans d2.1))))
  · intro h
    rw [← h]; exact hlaw

/-! ### Normalized -/

section
variable (env : DistEnv ℝ G) {c : SpClass ℝ} {p : String} (N : Spec.Normalized c p)

/-- The normalization succeeds and leaves the parameters as they were. -/
theorem Spec.Normalized.normBlock_returns (hten : env.ten = 10) (o : Obj ℝ) (v rm : ℝ)
    (vs : List ℝ) (hn : o.norm = some p) (hg : o.storage.get? p = some (some v))
    (hvs : rdAll c.decl N.others o = .ok vs) (hrm : rd c.decl "r_max" o = some rm) :
    ∃ o', normBlock env c.code true o =
        .ok (some ((env.quad rm).eval fun r => 1 * N.shape vs r), some (some v)) o' ∧
      RdRel c.decl o o' ∧ NormStored o' := by
  have hdecl : c.decl "r_max" = declRMax env := by rw [N.rmax]; simp [declRMaxR, declRMax, hten]
  have hpr : p ≠ "r_max" := by
    intro e
    have := (N.flag "r_max").2 e.symm
    rw [N.rmax] at this; cases this
  have huniq : ∀ a b, (c.decl a).isNorm = true → (c.decl b).isNorm = true → a = b :=
    fun a b ha hb => ((N.flag a).1 ha).trans ((N.flag b).1 hb).symm
  have hok : NormOk c.decl o := by
    intro n hn'
    rw [hn] at hn'; cases hn'; exact (N.flag p).2 rfl
  let o1 : Obj ℝ := { o with storage := o.storage.set p (some 1) }
  have hpush : pushNorm none o = .ok (some (some v)) o1 := by
    unfold pushNorm getNorm setNorm; simp [hn, hg, o1]
  have hrm1 : rd c.decl "r_max" o1 = some rm := by
    simp only [o1, rd, Dict.get?_set, if_neg hpr]; exact hrm
  obtain ⟨o2, g2, k2⟩ := readRMax_returns env hdecl hrm1
  obtain ⟨o3, g3, k3⟩ := N.quad_returns (o := o2) (w := 1) (vs := vs)
    (by rw [k2.same]; simp [rd, o1])
    (by rw [rdAll_congr _ _ k2.same, rdAll_set _ _ _ _ _ N.notIn]; exact hvs) (env.quad rm)
  have k13 : RdRel c.decl o1 o3 := k2.trans k3
  have hok1 : NormOk c.decl o1 := hok
  have hn3 : o3.norm = some p := by
    obtain ⟨m, hm⟩ := Option.isSome_iff_exists.1 (k13.some (by
      show o.norm.isSome; rw [hn]; rfl))
    rw [hm, (N.flag m).1 (k13.normOk hok1 m hm)]
  have hpop : popNorm (some (some v)) o3 = .ok () { o3 with storage := o3.storage.set p (some v) } := by
    unfold popNorm setNorm; simp [hn3]
  have hb : normBlock env c.code true o =
      .ok (some ((env.quad rm).eval fun r => 1 * N.shape vs r), some (some v))
        { o3 with storage := o3.storage.set p (some v) } := by
    unfold normBlock
    rw [if_pos rfl, bind_of_ok hpush, bind_of_ok g2, bind_of_ok g3, bind_of_ok hpop]
    rfl
  refine ⟨_, hb, (normBlock_rel env c hdecl huniq true hok hb).1, fun n h => ?_⟩
  have : o3.norm = some n := h
  rw [hn3] at this; cases this
  rw [Dict.get?_set, if_pos rfl]; rfl

/-- What `draw_distance(normalize=True)` samples: with progress bar the normalized density
cut off at its largest value on the grid; without, the density that is not normalized cut off
at the largest value of the normalized one. -/
theorem C73_normalized_law (hfair : Spec.FairUniform P env.uniform)
    (hlt : ∀ a b, env.lt a b = true ↔ a < b) (hdiv : ∀ a b, env.div a b = a / b)
    (hten : env.ten = 10) (showProgress : Bool) (n : ℕ) (sp : Spat ℝ) {v rm m I : ℝ}
    {vs : List ℝ} (hn : sp.params.norm = some p)
    (hg : sp.params.storage.get? p = some (some v))
    (hvs : outcome (readAll c.decl N.others sp.params) = .ok vs)
    (hrm : outcome (paramGet (c.decl "r_max") "r_max" sp.params) = .ok rm)
    (hI : I = (env.quad rm).eval fun r => 1 * N.shape vs r)
    (hm : m = env.npMax ((env.grid rm).map fun r => v * N.shape vs r / I))
    (hm0 : 0 < m) (hrm0 : 0 < rm) (hf : Measurable (N.shape vs)) {f : ℝ → ℝ}
    (hfe : ∀ r, f r = if showProgress then v * N.shape vs r / I else v * N.shape vs r)
    (h0 : ∫⁻ r in Set.Icc 0 rm, ENNReal.ofReal (min (f r) m) ≠ 0) :
    Spec.Samples P (Spec.iid n (Spec.densityLaw (fun r => min (f r) m) rm))
      fun k g w g' => ∃ sp', drawDistance { env with budget := k } c.code showProgress n true
        { sp := sp, rng := g } = .ok () { sp := sp', rng := g' } ∧
        Spec.DrewDistances c.decl (List.ofFn w) sp sp' := by
  have hdecl : c.decl "r_max" = declRMax env := by rw [N.rmax]; simp [declRMaxR, declRMax, hten]
  have huniq : ∀ a b, (c.decl a).isNorm = true → (c.decl b).isNorm = true → a = b :=
    fun a b ha hb => ((N.flag a).1 ha).trans ((N.flag b).1 hb).symm
  rw [readAll_outcome] at hvs
  have hrm' : rd c.decl "r_max" sp.params = some rm := by
    rw [outcome_paramGet_rd] at hrm
    cases h : rd c.decl "r_max" sp.params with
    | none => rw [h] at hrm; cases hrm
    | some x => rw [h] at hrm; cases hrm; rfl
  obtain ⟨o1, hb, k1, st⟩ := N.normBlock_returns env hten sp.params v rm vs hn hg hvs hrm'
  have hreads : rdAll c.decl c.reads o1 = .ok (v :: vs) := by
    rw [rdAll_congr _ _ k1.same, N.reads]
    exact rdAll_cons_ok _ _ _ _ _ _ (by simp [rd, hg]) hvs
  have hd : ∀ r, c.dens (v :: vs) r = v * N.shape vs r := fun r =>
    N.dens v vs r (rdAll_length _ _ _ _ hvs)
  have hnd : ∀ r, normalizedDens env c (some ((env.quad rm).eval fun r => 1 * N.shape vs r))
      (v :: vs) r = v * N.shape vs r / I := by
    intro r
    show env.div (c.dens (v :: vs) r) _ = _
    rw [hdiv, hd, hI]
  have hfm : Measurable f := by
    have : f = fun r => if showProgress then v * N.shape vs r / I else v * N.shape vs r :=
      funext hfe
    rw [this]
    cases showProgress
    · simpa using hf.const_mul v
    · simpa using (hf.const_mul v).div_const I
  refine drawDistance_samples env hfair hlt c hdecl huniq showProgress true n sp
    (fun n h => by rw [hn] at h; cases h; exact (N.flag p).2 rfl) hb st
    (by rw [k1.same]; exact hrm') hreads ?_ hm0 hrm0 hfm ?_ h0
  · rw [hm]
    congr 2
    funext r
    exact (hnd r).symm
  · funext r
    rw [hfe]
    cases showProgress
    · simp [hd]
    · simpa using (hnd r).symm

/-- C73 (normalized, with progress bar): the distances follow the shape of the density,
whatever the value of the normalization parameter. -/
theorem C73_normalized (hfair : Spec.FairUniform P env.uniform)
    (hlt : ∀ a b, env.lt a b = true ↔ a < b) (hdiv : ∀ a b, env.div a b = a / b)
    (hten : env.ten = 10) (n : ℕ) (sp : Spat ℝ) {v rm m I : ℝ}
    {vs : List ℝ} (hn : sp.params.norm = some p)
    (hg : sp.params.storage.get? p = some (some v)) (hv0 : 0 < v)
    (hvs : outcome (readAll c.decl N.others sp.params) = .ok vs)
    (hrm : outcome (paramGet (c.decl "r_max") "r_max" sp.params) = .ok rm)
    (hI : I = (env.quad rm).eval fun r => 1 * N.shape vs r) (hI0 : 0 < I)
    (hm : m = env.npMax ((env.grid rm).map fun r => v * N.shape vs r / I))
    (hb : ∀ r, 0 ≤ r → r ≤ rm → v * N.shape vs r / I ≤ m)
    (hrm0 : 0 < rm) (hf : Measurable (N.shape vs))
    (h0 : ∫⁻ r in Set.Icc 0 rm, ENNReal.ofReal (N.shape vs r) ≠ 0) :
    Spec.Samples P (Spec.iid n (Spec.densityLaw (N.shape vs) rm))
      fun k g w g' => ∃ sp', drawDistance { env with budget := k } c.code true n true
        { sp := sp, rng := g } = .ok () { sp := sp', rng := g' } ∧
        Spec.DrewDistances c.decl (List.ofFn w) sp sp' := by
  have ha : 0 < v / I := by positivity
  have e : Spec.densityLaw (N.shape vs) rm =
      Spec.densityLaw (fun r => min (v * N.shape vs r / I) m) rm := by
    rw [densityLaw_bounded hb]
    exact (densityLaw_scale ha fun r _ _ => by ring).symm
  have hm0 : 0 < m := by
    by_contra hneg
    refine h0 ?_
    rw [setLIntegral_congr_fun measurableSet_Icc
      (g := fun _ => 0) fun r hr => ENNReal.ofReal_of_nonpos (by
        have := (hb r hr.1 hr.2).trans (not_lt.1 hneg)
        by_contra hp
        rw [not_le] at hp
        have : 0 < v * N.shape vs r / I := by positivity
        linarith)]
    simp
  rw [e]
  refine C73_normalized_law env N hfair hlt hdiv hten true n sp hn hg hvs hrm hI hm hm0 hrm0 hf
    (f := fun r => v * N.shape vs r / I) (fun r => by simp) ?_
  rw [setLIntegral_congr_fun measurableSet_Icc (g := fun r => ENNReal.ofReal (v / I) *
    ENNReal.ofReal (N.shape vs r)) fun r hr => by
      beta_reduce
      rw [min_eq_left (hb r hr.1 hr.2), ← ENNReal.ofReal_mul ha.le]; congr 1; ring]
  rw [lintegral_const_mul' _ _ ENNReal.ofReal_ne_top]
  exact mul_ne_zero (by simpa using ha) h0

end

/-- C73 violated (normalized, no progress bar): the silent path compares the density that is
not normalized with the largest value of the normalized one.  For a constant density in a
sphere whose volume exceeds one the distance drawn does not follow the density. -/
theorem C73_violated_silent (env : DistEnv ℝ G) (hfair : Spec.FairUniform P env.uniform)
    (hlt : ∀ a b, env.lt a b = true ↔ a < b) (hdiv : ∀ a b, env.div a b = a / b)
    (hten : env.ten = 10) (hgrid : Spec.GridMax env) (sp : Spat ℝ) {l rm I : ℝ}
    (hn : sp.params.norm = some "Lambda")
    (hg : sp.params.storage.get? "Lambda" = some (some l)) (hl0 : 0 < l)
    (hrm : outcome (paramGet (constantSpherical.decl "r_max") "r_max" sp.params) = .ok rm)
    (hrm0 : 0 < rm) (hI : I = (env.quad rm).eval fun r => 1 * sphereVolume r) (hI1 : 1 < I) :
    ¬ Spec.Samples P (Spec.iid 1 (Spec.densityLaw sphereVolume rm))
      fun k g w g' => ∃ sp', drawDistance { env with budget := k } constantSpherical.code false 1 true
        { sp := sp, rng := g } = .ok () { sp := sp', rng := g' } ∧
        Spec.DrewDistances constantSpherical.decl (List.ofFn w) sp sp' := by
  intro hs
  have hp := Real.pi_pos
  have hI0 : 0 < I := by linarith
  let f : ℝ → ℝ := fun r => l * sphereVolume r
  let m : ℝ := l * sphereVolume rm / I
  have hfm : Continuous f := by unfold f sphereVolume; fun_prop
  have hvol : ∀ r, 0 < r → 0 < sphereVolume r := fun r h => by unfold sphereVolume; positivity
  have hm0 : 0 < m := by have := hvol rm hrm0; unfold m; positivity
  have hm : m = env.npMax ((env.grid rm).map fun r => l * C28_constantSpherical.shape [] r / I) := by
    refine (hgrid.end (f := fun r => l * sphereVolume r / I) hrm0 ?_).symm
    intro r s h0 hrs _
    have : sphereVolume r ≤ sphereVolume s := by
      unfold sphereVolume
      have : r * r ≤ s * s := mul_self_le_mul_self h0 hrs
      nlinarith
    show l * sphereVolume r / I ≤ l * sphereVolume s / I
    gcongr
  -- masses
  have hmass : ∀ {h : ℝ → ℝ}, Continuous h → (∃ d, 0 < d ∧ d ≤ rm ∧ ∀ r, 0 < r → r ≤ d → 0 < h r) →
      ∀ {S : Set ℝ}, (∃ d, 0 < d ∧ d ≤ rm ∧ Set.Icc 0 d ⊆ S) →
      ∫⁻ r in S, ENNReal.ofReal (h r) ≠ 0 := by
    rintro h hc ⟨d, hd, _, hpos⟩ S ⟨d', hd', _, hS⟩ hz
    have hz' : ∫⁻ r in Set.Ioc 0 (min d d'), ENNReal.ofReal (h r) = 0 := by
      refine le_antisymm (le_trans (lintegral_mono_set ?_) hz.le) zero_le
      intro r hr
      exact hS ⟨hr.1.le, hr.2.trans (min_le_right _ _)⟩
    rw [lintegral_eq_zero_iff hc.measurable.ennreal_ofReal] at hz'
    have h1 := (ae_restrict_iff' measurableSet_Ioc).1 hz'
    have h2 : Set.Ioc (0 : ℝ) (min d d') ⊆ {r | ¬ (r ∈ Set.Ioc (0 : ℝ) (min d d') →
        (fun r => ENNReal.ofReal (h r)) r = (0 : ℝ → ENNReal) r)} := by
      intro r hr hc
      have := hc hr
      simp only [Pi.zero_apply, ENNReal.ofReal_eq_zero] at this
      have := hpos r hr.1 (hr.2.trans (min_le_left _ _))
      linarith
    have h3 := measure_mono_null h2 (ae_iff.1 h1)
    rw [Real.volume_Ioc, sub_zero, ENNReal.ofReal_eq_zero] at h3
    have : 0 < min d d' := lt_min hd hd'
    linarith
  have hcut : Continuous fun r => min (f r) m := hfm.min continuous_const
  have hfpos : ∀ r, 0 < r → 0 < f r := fun r h => by have := hvol r h; unfold f; positivity
  have h0 : ∫⁻ r in Set.Icc 0 rm, ENNReal.ofReal (min (f r) m) ≠ 0 :=
    hmass hcut ⟨rm, hrm0, le_rfl, fun r h _ => lt_min (hfpos r h) hm0⟩ ⟨rm, hrm0, le_rfl, subset_rfl⟩
  have hlaw := C73_normalized_law env C28_constantSpherical hfair hlt hdiv hten false 1 sp
    (v := l) (rm := rm) (m := m) (I := I) (vs := []) hn hg rfl hrm hI hm hm0 hrm0
    (by show Measurable sphereVolume; unfold sphereVolume; fun_prop) (f := f)
    (fun r => rfl) h0
  have hfin : ∫⁻ r in Set.Icc 0 rm, ENNReal.ofReal (f r) ≠ ⊤ := by
    have := cut_mass_finite f (f rm) rm
    rwa [setLIntegral_congr_fun measurableSet_Icc fun r hr => by
      rw [min_eq_left (show f r ≤ f rm by
        show l * sphereVolume r ≤ l * sphereVolume rm
        have : r * r ≤ rm * rm := mul_self_le_mul_self hr.1 hr.2
        have : sphereVolume r ≤ sphereVolume rm := by unfold sphereVolume; nlinarith
        gcongr)]] at this
  have hf0 : ∫⁻ r in Set.Icc 0 rm, ENNReal.ofReal (f r) ≠ 0 :=
    hmass hfm ⟨rm, hrm0, le_rfl, fun r h _ => hfpos r h⟩ ⟨rm, hrm0, le_rfl, subset_rfl⟩
  have hscale : Spec.densityLaw f rm = Spec.densityLaw sphereVolume rm :=
    densityLaw_scale hl0 fun r _ _ => rfl
  rw [← hscale] at hs
  have := densityLaw_prob h0 (cut_mass_finite f m rm)
  have := densityLaw_prob hf0 hfin
  have heq := iid_one_inj (Samples.unique hlaw hs (by
    rintro k g a b g1 g2 ⟨s1, e1, d1⟩ ⟨s2, e2, d2⟩
    rw [e1] at e2
    cases e2
    have := d1.1.symm.trans d2.1
    exact List.ofFn_injective (Option.some.inj this)))
  -- the bound is not a bound
  let d : ℝ := rm / 2 / I
  have hd0 : 0 < d := by unfold d; positivity
  have hdr : d ≤ rm := by
    unfold d
    rw [div_div, div_le_iff₀ (by positivity)]
    nlinarith
  have hpos : ∫⁻ r in {r | f r ≤ m} ∩ Set.Icc 0 rm, ENNReal.ofReal (f r) ≠ 0 := by
    refine hmass hfm ⟨rm, hrm0, le_rfl, fun r h _ => hfpos r h⟩ ⟨d, hd0, hdr, fun r hr => ⟨?_, hr.1, hr.2.trans hdr⟩⟩
    show l * sphereVolume r ≤ l * sphereVolume rm / I
    rw [le_div_iff₀ hI0]
    have h1 : r * I ≤ rm := by
      have := hr.2
      unfold d at this
      rw [le_div_iff₀ hI0] at this
      linarith
    have h2 : r ≤ rm := hr.2.trans hdr
    have h3 : sphereVolume r * I ≤ sphereVolume rm := by
      unfold sphereVolume
      have : r * (r * I) ≤ rm * rm := mul_le_mul h2 h1 (mul_nonneg hr.1 hI0.le) hrm0.le
      nlinarith
    nlinarith
  have hae := (C73_exact_iff hfm.measurable hm0 hfin hpos).1 heq
  -- but above it is a set of positive measure
  have h1 := (ae_restrict_iff' measurableSet_Icc).1 hae
  have hopen : ∃ e, 0 < e ∧ e < rm ∧ ∀ r, rm - e < r → r ≤ rm → m < f r := by
    have hlt' : m < f rm := by
      unfold m f
      rw [div_lt_iff₀ hI0]
      have := hvol rm hrm0
      have : 0 < l * sphereVolume rm := by positivity
      nlinarith
    obtain ⟨e, he, hball⟩ := Metric.mem_nhds_iff.1 ((hfm.isOpen_preimage _ isOpen_Ioi).mem_nhds
      (show rm ∈ f ⁻¹' Set.Ioi m from hlt'))
    refine ⟨min e (rm / 2), by positivity, lt_of_le_of_lt (min_le_right _ _) (by linarith), fun r h1 h2 => ?_⟩
    refine hball ?_
    rw [Metric.mem_ball, Real.dist_eq, abs_lt]
    have := min_le_left e (rm / 2)
    constructor <;> linarith
  obtain ⟨e, he, her, hab⟩ := hopen
  have h2 : Set.Ioc (rm - e) rm ⊆ {r | ¬ (r ∈ Set.Icc (0 : ℝ) rm → f r ≤ m)} := by
    intro r hr hc
    have := hc ⟨by linarith [hr.1], hr.2⟩
    exact absurd this (not_le.2 (hab r hr.1 hr.2))
  have h3 := measure_mono_null h2 (ae_iff.1 h1)
  rw [Real.volume_Ioc, ENNReal.ofReal_eq_zero] at h3
  linarith

end Popsynth
