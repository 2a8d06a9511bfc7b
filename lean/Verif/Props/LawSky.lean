import Verif.Props.LawNormalized

/-!
# The law of the sky positions, and a generator for which all this holds (C73)
-/

set_option autoImplicit false
set_option linter.unusedSectionVars false

open MeasureTheory Filter

namespace Popsynth
variable {G : Type} [MeasurableSpace G] {P : Measure G} [IsProbabilityMeasure P]

/-! ### Sky positions -/

theorem sin_int (t : ℝ) : ∫ r in (0 : ℝ)..t, Real.sin r = 1 - Real.cos t := by
  rw [integral_sin]; simp

theorem sin_law_prob : IsProbabilityMeasure (Spec.densityLaw Real.sin Real.pi) := by
  refine densityLaw_prob ?_ ?_
  · intro h
    rw [lintegral_eq_zero_iff (by fun_prop)] at h
    have h1 := (ae_restrict_iff' measurableSet_Icc).1 h
    have h2 : Set.Ioo (0 : ℝ) Real.pi ⊆ {r | ¬ (r ∈ Set.Icc (0 : ℝ) Real.pi →
        (fun r => ENNReal.ofReal (Real.sin r)) r = (0 : ℝ → ENNReal) r)} := by
      intro r hr hc
      have := hc ⟨hr.1.le, hr.2.le⟩
      simp only [Pi.zero_apply, ENNReal.ofReal_eq_zero] at this
      have := Real.sin_pos_of_pos_of_lt_pi hr.1 hr.2
      linarith
    have h3 := measure_mono_null h2 (ae_iff.1 h1)
    rw [Real.volume_Ioo, sub_zero, ENNReal.ofReal_eq_zero] at h3
    have := Real.pi_pos
    linarith
  · have := cut_mass_finite Real.sin 1 Real.pi
    rwa [setLIntegral_congr_fun measurableSet_Icc fun r hr => by
      rw [min_eq_left (Real.sin_le_one r)]] at this

/-- `arccos(1 - 2u)` of a uniform number has a density proportional to the sine. -/
theorem polar_law : Measure.map (fun u => Real.arccos (1 - 2 * u)) (Spec.uniformLaw 1) =
    Spec.densityLaw Real.sin Real.pi := by
  have hp := Real.pi_pos
  have hmeas : Measurable fun u : ℝ => Real.arccos (1 - 2 * u) :=
    (Real.continuous_arccos.comp (by fun_prop)).measurable
  have i1 := uniformLaw_prob (h := 1) one_pos
  have i2 := sin_law_prob
  have i3 : IsProbabilityMeasure (Measure.map (fun u => Real.arccos (1 - 2 * u)) (Spec.uniformLaw 1)) :=
    Measure.isProbabilityMeasure_map hmeas.aemeasurable
  refine Measure.ext_of_Iic _ _ fun t => ?_
  have hpre : MeasurableSet ((fun u : ℝ => Real.arccos (1 - 2 * u)) ⁻¹' Set.Iic t) :=
    hmeas measurableSet_Iic
  rw [Measure.map_apply hmeas measurableSet_Iic]
  rcases lt_or_ge t 0 with h | h
  · have e1 : (fun u : ℝ => Real.arccos (1 - 2 * u)) ⁻¹' Set.Iic t = ∅ := by
      ext u
      simp only [Set.mem_preimage, Set.mem_Iic, Set.mem_empty_iff_false, iff_false, not_le]
      exact h.trans_le (Real.arccos_nonneg _)
    have e2 : Set.Iic t ∩ Set.Icc 0 Real.pi = ∅ := by
      ext u
      simp only [Set.mem_inter_iff, Set.mem_Iic, Set.mem_Icc, Set.mem_empty_iff_false, iff_false]
      rintro ⟨a, b, _⟩; linarith
    rw [e1, densityLaw_apply _ _ measurableSet_Iic, e2]; simp
  · rcases lt_or_ge Real.pi t with h' | h'
    · have e1 : (fun u : ℝ => Real.arccos (1 - 2 * u)) ⁻¹' Set.Iic t = Set.univ := by
        ext u
        simp only [Set.mem_preimage, Set.mem_Iic, Set.mem_univ, iff_true]
        exact (Real.arccos_le_pi _).trans h'.le
      have e2 : Set.Iic t ∩ Set.Icc 0 Real.pi = Set.univ ∩ Set.Icc 0 Real.pi := by
        ext u
        simp only [Set.mem_inter_iff, Set.mem_Iic, Set.mem_Icc, Set.mem_univ, true_and]
        constructor
        · rintro ⟨_, b⟩; exact b
        · intro b; exact ⟨b.2.trans h'.le, b⟩
      rw [e1, measure_univ, densityLaw_apply _ _ measurableSet_Iic, e2,
        ← densityLaw_apply _ _ MeasurableSet.univ, measure_univ]
    · rw [densityLaw_Iic Real.continuous_sin
        (fun r h0 h1 => Real.sin_nonneg_of_nonneg_of_le_pi h0 h1) h h'
        (by rw [sin_int]; simp), sin_int, sin_int]
      have hc := Real.cos_le_one t
      have hc' := Real.neg_one_le_cos t
      have e : (fun u : ℝ => Real.arccos (1 - 2 * u)) ⁻¹' Set.Iic t ∩ Set.Icc 0 1 =
          Set.Icc 0 ((1 - Real.cos t) / 2) := by
        ext u
        simp only [Set.mem_inter_iff, Set.mem_preimage, Set.mem_Iic, Set.mem_Icc]
        constructor
        · rintro ⟨a, b, c⟩
          refine ⟨b, ?_⟩
          have := Real.cos_le_cos_of_nonneg_of_le_pi (Real.arccos_nonneg _) h' a
          rw [Real.cos_arccos (by linarith) (by linarith)] at this
          linarith
        · rintro ⟨a, b⟩
          refine ⟨?_, a, by linarith⟩
          rw [← Real.arccos_cos h h']
          exact Real.arccos_le_arccos (by linarith)
      rw [Spec.uniformLaw, Measure.smul_apply, Measure.restrict_apply hpre, e, Real.volume_Icc]
      simp only [ENNReal.ofReal_one, inv_one, sub_zero, smul_eq_mul, one_mul, Real.cos_pi]
      norm_num

/-- C73 (sky positions): `draw_sky_positions(n)` always returns; the polar angles have a
density proportional to the sine on `[0, pi]`, the azimuths are uniform on `[0, 2 pi]`, all
`2 n` numbers are independent, and the distances and parameters are kept: isotropic
positions. -/
theorem C73_sky (env : DistEnv ℝ G) (hfair : Spec.FairUniform P env.uniform)
    (hth : ∀ u, env.thetaOf u = Real.arccos (1 - 2 * u)) (h2 : env.twoPi = 2 * Real.pi)
    (n : ℕ) (sp : Spat ℝ) :
    Spec.Samples P ((Spec.iid n (Spec.densityLaw Real.sin Real.pi)).prod
        (Spec.iid n (Spec.uniformLaw (2 * Real.pi))))
      fun _ g v g' => drawSky env n { sp := sp, rng := g } =
        .ok () { sp := { sp with theta := some (List.ofFn v.1), phi := some (List.ofFn v.2) },
                 rng := g' } := by
  have hp : 0 < 2 * Real.pi := by have := Real.pi_pos; positivity
  obtain ⟨S1, p1, e1⟩ := hfair 1 one_pos
  obtain ⟨S2, p2, e2⟩ := hfair (2 * Real.pi) hp
  have i1 := uniformLaw_prob (h := 1) one_pos
  have i2 := uniformLaw_prob hp
  have i3 := sin_law_prob
  have s1 : Spec.Samples P (Spec.uniformLaw 1) fun _ g u g' => env.uniform 1 g = (.ok u, g') :=
    ⟨S1, p1, Eventually.of_forall fun g => Eventually.of_forall fun _ => e1 g⟩
  have s2 : Spec.Samples P (Spec.uniformLaw (2 * Real.pi)) fun _ g u g' =>
      env.uniform (2 * Real.pi) g = (.ok u, g') :=
    ⟨S2, p2, Eventually.of_forall fun g => Eventually.of_forall fun _ => e2 g⟩
  have s3 := Samples.map s1 (f := fun u => Real.arccos (1 - 2 * u))
    (Real.continuous_arccos.comp (by fun_prop)).measurable
    (Q := fun _ g t g' => ∃ u, env.uniform 1 g = (.ok u, g') ∧ t = env.thetaOf u)
    (fun k g u g' h => ⟨u, h, (hth u).symm⟩)
  rw [polar_law] at s3
  have r1 := Samples.repeat s3 n
  have r2 := Samples.repeat s2 n
  refine Samples.seq r1 r2 fun k g a g1 b g2 h1 h2' => ?_
  have key1 : ∀ (l : List ℝ) (g g' : G),
      Repeats (fun _ g t g' => ∃ u, env.uniform 1 g = (.ok u, g') ∧ t = env.thetaOf u) k l g g' →
      ∃ us, us.length = l.length ∧ Spec.Uniforms env 1 g us g' ∧ us.map env.thetaOf = l := by
    intro l
    induction l with
    | nil => intro g g' h; cases h; exact ⟨[], rfl, .nil _, rfl⟩
    | cons t l ih =>
      rintro g g' ⟨g1, ⟨u, hu, rfl⟩, h⟩
      obtain ⟨us, a, b, c⟩ := ih _ _ h
      exact ⟨u :: us, by simp [a], .cons hu b, by simp [c]⟩
  have key2 : ∀ (l : List ℝ) (g g' : G),
      Repeats (fun _ g u g' => env.uniform (2 * Real.pi) g = (.ok u, g')) k l g g' →
      Spec.Uniforms env (2 * Real.pi) g l g' := by
    intro l
    induction l with
    | nil => intro g g' h; cases h; exact .nil _
    | cons t l ih =>
      rintro g g' ⟨g1, hu, h⟩
      exact .cons hu (ih _ _ h)
  obtain ⟨us, a1, a2, a3⟩ := key1 _ _ _ h1
  have a4 := key2 _ _ _ h2'
  rw [List.length_ofFn] at a1
  refine (C52_drawn env n _ _).2 ⟨us, List.ofFn b, g1, a1, List.length_ofFn, a2, ?_, ?_⟩
  · rw [h2]; exact a4
  · simp only [a3]

/-- C73 (positions): distances and sky positions, drawn one after the other as
`draw_survey` does, are independent of each other. -/
theorem C73_positions (env : DistEnv ℝ G) (hfair : Spec.FairUniform P env.uniform)
    (hth : ∀ u, env.thetaOf u = Real.arccos (1 - 2 * u)) (h2 : env.twoPi = 2 * Real.pi)
    (c : SpClass ℝ) (showProgress normalize : Bool) (n : ℕ) (sp : Spat ℝ) {μ : Measure ℝ}
    [IsProbabilityMeasure μ]
    (hd : Spec.Samples P (Spec.iid n μ) fun k g v g' => ∃ sp',
      drawDistance { env with budget := k } c.code showProgress n normalize
        { sp := sp, rng := g } = .ok () { sp := sp', rng := g' } ∧
        Spec.DrewDistances c.decl (List.ofFn v) sp sp') :
    Spec.Samples P ((Spec.iid n μ).prod ((Spec.iid n (Spec.densityLaw Real.sin Real.pi)).prod
        (Spec.iid n (Spec.uniformLaw (2 * Real.pi)))))
      fun k g v g' => ∃ sp',
        (do drawDistance { env with budget := k } c.code showProgress n normalize
            drawSky { env with budget := k } n) { sp := sp, rng := g } =
          .ok () { sp := sp', rng := g' } ∧
        sp'.distances = some (List.ofFn v.1) ∧ sp'.theta = some (List.ofFn v.2.1) ∧
        sp'.phi = some (List.ofFn v.2.2) := by
  have hp : 0 < 2 * Real.pi := by have := Real.pi_pos; positivity
  have i2 := uniformLaw_prob hp
  have i3 := sin_law_prob
  have hs : Spec.Samples P ((Spec.iid n (Spec.densityLaw Real.sin Real.pi)).prod
        (Spec.iid n (Spec.uniformLaw (2 * Real.pi))))
      fun k g v g' => ∀ sp, drawSky { env with budget := k } n { sp := sp, rng := g } =
        .ok () { sp := { sp with theta := some (List.ofFn v.1), phi := some (List.ofFn v.2) },
                 rng := g' } := by
    refine Samples.mono (C73_sky env hfair hth h2 n {}) fun k g v g' h sp => ?_
    obtain ⟨us, ps, g1, a1, a2, a3, a4, a5⟩ := (C52_drawn env n _ _).1 h
    have key : ∀ {hi : ℝ} {g g' : G} {l : List ℝ}, Spec.Uniforms env hi g l g' →
        Spec.Uniforms { env with budget := k } hi g l g' := by
      intro hi g g' l hu
      induction hu with
      | nil g => exact .nil g
      | cons h t ih => exact .cons h ih
    simp only [Spat.mk.injEq, true_and, and_true, Option.some.injEq] at a5
    refine (C52_drawn { env with budget := k } n _ _).2 ⟨us, ps, g1, a1, a2, key a3, key a4, ?_⟩
    show _ = { sp with theta := some (us.map env.thetaOf), phi := some ps }
    rw [a5.1, a5.2]
  refine Samples.seq hd hs fun k g a g1 b g2 h1 h3 => ?_
  obtain ⟨sp', e1, d⟩ := h1
  refine ⟨{ sp' with theta := some (List.ofFn b.1), phi := some (List.ofFn b.2) }, ?_, d.1, rfl, rfl⟩
  rw [bind_of_ok e1]
  exact h3 sp'

/-! ### A generator that is fair -/

open Classical in
/-- Exact real arithmetic with a sequence of independent uniform numbers as generator state
and Simpson's rule, which is exact for the densities of the example. -/
noncomputable def Stream.env : DistEnv ℝ (ℕ → ℝ) where
  uniform := Stream.uniform
  quad h := QuadStrat.weighted 0 [(0, h / 6), (h / 2, 4 * h / 6), (h, h / 6)]
  grid := grid500
  npMax l := l.foldr max (l.headD 0)
  div a b := a / b
  lt a b := decide (a < b)
  thetaOf u := Real.arccos (1 - 2 * u)
  twoPi := 2 * Real.pi
  ten := 10
  budget := 0

theorem Stream.gridMax : Spec.GridMax Stream.env where
  grid := by
    intro h hh
    have e : Stream.env.grid h = grid500 h := by simp only [Stream.env]
    have key : ∀ r, r ∈ Stream.env.grid h ↔ ∃ k : ℕ, k < 500 ∧ (k : ℝ) * h / 499 = r := by
      intro r
      rw [e]
      simp only [grid500, List.mem_map, List.mem_range]
    constructor
    · exact (key h).2 ⟨499, by norm_num, by field_simp; norm_num⟩
    · intro r hr
      obtain ⟨i, hi, rfl⟩ := (key r).1 hr
      have : (i : ℝ) ≤ 499 := by exact_mod_cast Nat.lt_succ_iff.1 hi
      refine ⟨by positivity, ?_⟩
      rw [div_le_iff₀ (by norm_num), mul_comm h]
      exact mul_le_mul_of_nonneg_right this hh.le
  max := by
    intro l hl
    show l.foldr max (l.headD 0) ∈ l ∧ ∀ y ∈ l, y ≤ l.foldr max (l.headD 0)
    have key : ∀ (l : List ℝ) (a : ℝ), (l.foldr max a = a ∨ l.foldr max a ∈ l) ∧
        ∀ y ∈ l, y ≤ l.foldr max a := by
      intro l a
      induction l with
      | nil => simp
      | cons x l ih =>
        obtain ⟨h1, h2⟩ := ih
        refine ⟨?_, ?_⟩
        · rw [List.foldr_cons]
          rcases max_choice x (l.foldr max a) with h | h <;> rw [h]
          · exact Or.inr (List.mem_cons_self ..)
          · rcases h1 with h1 | h1
            · exact Or.inl h1
            · exact Or.inr (List.mem_cons_of_mem _ h1)
        · intro y hy
          rw [List.foldr_cons]
          rcases List.mem_cons.1 hy with rfl | hy
          · exact le_max_left _ _
          · exact (h2 y hy).trans (le_max_right _ _)
    obtain ⟨h1, h2⟩ := key l (l.headD 0)
    refine ⟨?_, h2⟩
    rcases h1 with h1 | h1
    · rw [h1]
      cases l with
      | nil => exact absurd rfl hl
      | cons x l => exact List.mem_cons_self ..
    · exact h1

/-- A sphere of radius 10 with `Lambda = 5`. -/
def LawExample.sp : Spat ℝ := { params := { storage := [("Lambda", some 5)], norm := some "Lambda" } }

/-- The median of the law of the sphere of `C73_sphere` is not in the middle: with this
generator the probability of a distance of at most 5 out of 10 is an eighth. -/
example : ∃ μ : Measure ℝ, μ (Set.Iic 5) = ENNReal.ofReal (1 / 8) ∧
    Spec.Samples (Stream.law (Spec.uniformLaw 1)) (Spec.iid 3 μ) fun k g v g' => ∃ sp',
      drawDistance { Stream.env with budget := k } constantSpherical.code false 3 false
        { sp := LawExample.sp, rng := g } = .ok () { sp := sp', rng := g' } ∧
      Spec.DrewDistances constantSpherical.decl (List.ofFn v) LawExample.sp sp' := by
  obtain ⟨μ, _, h1, h2⟩ := C73_sphere Stream.env Stream.fair
    (fun a b => by simp [Stream.env]) rfl Stream.gridMax false 3 LawExample.sp
    (by intro n h; cases h; exact ⟨rfl, rfl⟩) (rm := 10) (l := 5) rfl rfl (by norm_num) (by norm_num)
  exact ⟨μ, by rw [h1 5 (by norm_num) (by norm_num)]; norm_num, h2⟩

/-- Rejection sampling of `func(r) = r` below `ymax = 1` on `[0, 2]`: the density is
proportional to `min(r, 1)`. -/
example : Spec.Samples (Stream.law (Spec.uniformLaw 1))
    (Spec.iid 2 (Spec.densityLaw (fun r => min r 1) 2)) fun k g v g' =>
      rejectionSample { Stream.env with budget := k } 2 1 2 (fun r => r)
        { sp := {}, rng := g } = .ok (List.ofFn v) { sp := {}, rng := g' } := by
  refine C73_rejection_sample Stream.env Stream.fair (fun a b => by simp [Stream.env]) 2 one_pos
    two_pos measurable_id ?_ {}
  intro h
  have h1 : ∫⁻ r in Set.Icc (1 : ℝ) 2, 1 ≤ ∫⁻ r in Set.Icc (0 : ℝ) 2, ENNReal.ofReal (min r 1) := by
    refine le_trans ?_ (lintegral_mono_set (Set.Icc_subset_Icc_left (a₁ := (0 : ℝ)) (a₂ := 1) (b := 2) zero_le_one))
    refine le_of_eq (setLIntegral_congr_fun measurableSet_Icc fun r hr => ?_)
    rw [min_eq_right hr.1, ENNReal.ofReal_one]
  rw [show ∫⁻ r in Set.Icc (0 : ℝ) 2, ENNReal.ofReal (min r 1) = 0 from h] at h1
  norm_num at h1

/-- The same sphere with `normalize=True` and the progress bar follows the shape of the
sphere, without it does not: the volume exceeds one. -/
example : Spec.Samples (Stream.law (Spec.uniformLaw 1)) (Spec.iid 3 (Spec.densityLaw sphereVolume 10))
    (fun k g w g' => ∃ sp', drawDistance { Stream.env with budget := k } constantSpherical.code true 3 true
        { sp := LawExample.sp, rng := g } = .ok () { sp := sp', rng := g' } ∧
        Spec.DrewDistances constantSpherical.decl (List.ofFn w) LawExample.sp sp') ∧
    ¬ Spec.Samples (Stream.law (Spec.uniformLaw 1)) (Spec.iid 1 (Spec.densityLaw sphereVolume 10))
      fun k g w g' => ∃ sp', drawDistance { Stream.env with budget := k } constantSpherical.code false 1 true
        { sp := LawExample.sp, rng := g } = .ok () { sp := sp', rng := g' } ∧
        Spec.DrewDistances constantSpherical.decl (List.ofFn w) LawExample.sp sp' := by
  have hp := Real.pi_pos
  have hp3 := Real.pi_gt_three
  have hI : (Stream.env.quad 10).eval (fun r => 1 * sphereVolume r) = 4000 * Real.pi / 3 := by
    show (QuadStrat.weighted 0 [((0 : ℝ), 10 / 6), (10 / 2, 4 * 10 / 6), (10, 10 / 6)]).eval _ = _
    simp only [QuadStrat.weighted, QuadStrat.eval, sphereVolume]
    ring
  have hmono : ∀ r s, 0 ≤ r → r ≤ s → s ≤ (10 : ℝ) → 5 * sphereVolume r / (4000 * Real.pi / 3) ≤
      5 * sphereVolume s / (4000 * Real.pi / 3) := by
    intro r s h0 hrs _
    have : r * r ≤ s * s := mul_self_le_mul_self h0 hrs
    have : sphereVolume r ≤ sphereVolume s := by unfold sphereVolume; nlinarith
    gcongr
  have hmax := Stream.gridMax.end (by norm_num) hmono
  constructor
  · refine C73_normalized Stream.env C28_constantSpherical Stream.fair
      (fun a b => by simp [Stream.env]) (fun _ _ => rfl) rfl 3 LawExample.sp (v := 5) (rm := 10)
      (m := 5 * sphereVolume 10 / (4000 * Real.pi / 3)) (I := 4000 * Real.pi / 3) (vs := [])
      rfl rfl (by norm_num) rfl rfl hI.symm (by positivity) hmax.symm
      (fun r h0 h1 => hmono r 10 h0 h1 le_rfl) (by norm_num)
      (by show Measurable sphereVolume; unfold sphereVolume; fun_prop) ?_
    have := sphere_mass (l := 1) (x := 10) one_pos (by norm_num)
    intro hz
    refine this ?_
    rw [← hz]
    refine setLIntegral_congr_fun measurableSet_Icc fun r _ => ?_
    show ENNReal.ofReal (1 * sphereVolume r / 1) = ENNReal.ofReal (sphereVolume r)
    rw [one_mul, div_one]
  · refine C73_violated_silent Stream.env Stream.fair (fun a b => by simp [Stream.env])
      (fun _ _ => rfl) rfl Stream.gridMax LawExample.sp (l := 5) rfl rfl (by norm_num) rfl
      (by norm_num) hI.symm ?_
    linarith

/-- Sky positions drawn with this generator. -/
example : Spec.Samples (Stream.law (Spec.uniformLaw 1))
    ((Spec.iid 4 (Spec.densityLaw Real.sin Real.pi)).prod (Spec.iid 4 (Spec.uniformLaw (2 * Real.pi))))
    fun _ g v g' => drawSky Stream.env 4 { sp := LawExample.sp, rng := g } =
      .ok () { sp := { LawExample.sp with theta := some (List.ofFn v.1), phi := some (List.ofFn v.2) },
               rng := g' } :=
  C73_sky Stream.env Stream.fair (fun _ => rfl) rfl 4 LawExample.sp

/-- The law of the sine gives the northern hemisphere probability one half. -/
example : Spec.densityLaw Real.sin Real.pi (Set.Iic (Real.pi / 2)) = ENNReal.ofReal (1 / 2) := by
  have := Real.pi_pos
  rw [densityLaw_Iic Real.continuous_sin
    (fun r h0 h1 => Real.sin_nonneg_of_nonneg_of_le_pi h0 h1) (by linarith) (by linarith)
    (by rw [sin_int]; simp), sin_int, sin_int]
  simp; norm_num

/-- A class whose density has narrow bumps between the points of the grid. -/
noncomputable def LawExample.bumps : SpClass ℝ where
  decl := constantSpherical.decl
  reads := []
  dens _ r := 1 + max 0 (Real.sin (2 * Real.pi * (r * 499 / 10)))

/-- C73 violated (bumps): there is a smooth positive density for which the distances drawn do
not follow it, because the largest value on the grid is not a bound. -/
theorem C73_violated_grid :
    ¬ Spec.Samples (Stream.law (Spec.uniformLaw 1))
      (Spec.iid 1 (Spec.densityLaw (LawExample.bumps.dens []) 10))
      fun k g v g' => ∃ sp', drawDistance { Stream.env with budget := k } LawExample.bumps.code false 1 false
        { sp := {}, rng := g } = .ok () { sp := sp', rng := g' } ∧
        Spec.DrewDistances LawExample.bumps.decl (List.ofFn v) {} sp' := by
  have hp := Real.pi_pos
  have hd : LawExample.bumps.dens [] = fun r => 1 + max 0 (Real.sin (2 * Real.pi * (r * 499 / 10))) := rfl
  have hc : Continuous (LawExample.bumps.dens []) := by rw [hd]; fun_prop
  have hg : Stream.env.grid 10 = grid500 10 := by simp only [Stream.env]
  have hgrid : ∀ y ∈ (Stream.env.grid 10).map (LawExample.bumps.dens []), y = 1 := by
    intro y hy
    obtain ⟨r, hr, rfl⟩ := List.mem_map.1 hy
    rw [hg] at hr
    simp only [grid500, List.mem_map, List.mem_range] at hr
    obtain ⟨k, _, rfl⟩ := hr
    have e : 2 * Real.pi * ((k : ℝ) * 10 / 499 * 499 / 10) = ((2 * k : ℕ) : ℝ) * Real.pi := by
      push_cast; ring
    rw [hd]
    beta_reduce
    rw [e, Real.sin_nat_mul_pi]
    norm_num
  have hm : (1 : ℝ) = Stream.env.npMax ((Stream.env.grid 10).map (LawExample.bumps.dens [])) := by
    refine (hgrid _ (Stream.gridMax.max _ ?_).1).symm
    exact List.ne_nil_of_mem (List.mem_map_of_mem (Stream.gridMax.grid 10 (by norm_num)).1)
  have hle : ∀ r, LawExample.bumps.dens [] r ≤ 2 := fun r => by
    have := max_le zero_le_one (Real.sin_le_one (2 * Real.pi * (r * 499 / 10)))
    rw [hd]; linarith
  have hge : ∀ r, 1 ≤ LawExample.bumps.dens [] r := fun r => by
    have := le_max_left 0 (Real.sin (2 * Real.pi * (r * 499 / 10)))
    rw [hd]; linarith
  have hfin : ∫⁻ r in Set.Icc 0 10, ENNReal.ofReal (LawExample.bumps.dens [] r) ≠ ⊤ := by
    have := cut_mass_finite (LawExample.bumps.dens []) 2 10
    rwa [setLIntegral_congr_fun measurableSet_Icc fun r hr => by
      rw [min_eq_left (hle r)]] at this
  have hpos : ∫⁻ r in {r | LawExample.bumps.dens [] r ≤ 1} ∩ Set.Icc 0 10,
      ENNReal.ofReal (LawExample.bumps.dens [] r) ≠ 0 := by
    intro hz
    have hsub : Set.Icc (5 / 499 : ℝ) (10 / 499) ⊆
        {r | LawExample.bumps.dens [] r ≤ 1} ∩ Set.Icc 0 10 := by
      intro r hr
      refine ⟨?_, by linarith [hr.1], by linarith [hr.2]⟩
      show LawExample.bumps.dens [] r ≤ 1
      have : Real.sin (2 * Real.pi * (r * 499 / 10)) ≤ 0 := by
        rw [← Real.sin_sub_two_pi]
        have h1 : 1 / 2 ≤ r * 499 / 10 := by linarith [hr.1]
        have h2 : r * 499 / 10 ≤ 1 := by linarith [hr.2]
        refine Real.sin_nonpos_of_nonpos_of_neg_pi_le ?_ ?_ <;> nlinarith
      rw [hd]
      beta_reduce
      rw [max_eq_left this]; norm_num
    have h1 : ∫⁻ r in Set.Icc (5 / 499 : ℝ) (10 / 499), 1 ≤ 0 := by
      rw [← hz]
      refine le_trans ?_ (lintegral_mono_set hsub)
      exact lintegral_mono fun r => by
        rw [← ENNReal.ofReal_one]; exact ENNReal.ofReal_le_ofReal (hge r)
    norm_num at h1
  intro hs
  have hae := (C73_draw_distance_iff Stream.env Stream.fair (fun a b => by simp [Stream.env])
    LawExample.bumps (constantSpherical_rmax (by simp only [Stream.env])) constantSpherical_flag false {}
    (by intro n h; cases h) (rm := 10) (m := 1) (vs := []) rfl rfl hm one_pos (by norm_num)
    hc.measurable hfin hpos).1 hs
  have h1 := (ae_restrict_iff' measurableSet_Icc).1 hae
  have h2 : Set.Ioo (0 : ℝ) (5 / 499) ⊆ {r | ¬ (r ∈ Set.Icc (0 : ℝ) 10 → LawExample.bumps.dens [] r ≤ 1)} := by
    intro r hr hn
    have h3 := hn ⟨hr.1.le, by linarith [hr.2]⟩
    have : 0 < Real.sin (2 * Real.pi * (r * 499 / 10)) := by
      have a1 : 0 < r * 499 / 10 := by linarith [hr.1]
      have a2 : r * 499 / 10 < 1 / 2 := by linarith [hr.2]
      exact Real.sin_pos_of_pos_of_lt_pi (mul_pos (by linarith) a1) (by nlinarith)
    rw [hd] at h3
    beta_reduce at h3
    rw [max_eq_right this.le] at h3
    linarith
  have h3 := measure_mono_null h2 (ae_iff.1 h1)
  rw [Real.volume_Ioo, ENNReal.ofReal_eq_zero] at h3
  norm_num at h3

end Popsynth
