import Verif.Props.Law
import Verif.Props.SkyDraw
import Mathlib.Analysis.SpecialFunctions.Integrals.Basic
import Mathlib.MeasureTheory.Integral.IntervalIntegral.Basic

/-!
# The law of the distances and sky positions of concrete classes (C73)
-/

set_option autoImplicit false
set_option linter.unusedSectionVars false

open MeasureTheory Filter

namespace Popsynth

/-! ### When sampling is exact -/

/-- C73: the law of the sampled distances is the one with the density of the class if and
only if the bound used is a bound almost everywhere (given that the part of the density
below the bound has positive mass). -/
theorem C73_exact_iff {f : ℝ → ℝ} (hf : Measurable f) {m x : ℝ} (hm : 0 < m)
    (hfin : ∫⁻ r in Set.Icc 0 x, ENNReal.ofReal (f r) ≠ ⊤)
    (hpos : ∫⁻ r in {r | f r ≤ m} ∩ Set.Icc 0 x, ENNReal.ofReal (f r) ≠ 0) :
    Spec.densityLaw (fun r => min (f r) m) x = Spec.densityLaw f x ↔
      ∀ᵐ r ∂(volume.restrict (Set.Icc 0 x)), f r ≤ m := by
  have hX : MeasurableSet {r | f r ≤ m} := measurableSet_le hf measurable_const
  have hle : ∫⁻ r in Set.Icc 0 x, ENNReal.ofReal (min (f r) m) ≤
      ∫⁻ r in Set.Icc 0 x, ENNReal.ofReal (f r) :=
    lintegral_mono fun r => ENNReal.ofReal_le_ofReal (min_le_left _ _)
  constructor
  · intro h
    have h1 := congrFun (congrArg (fun μ : Measure ℝ => (μ : Set ℝ → ENNReal)) h) {r | f r ≤ m}
    simp only [densityLaw_apply _ _ hX] at h1
    have e : ∫⁻ r in {r | f r ≤ m} ∩ Set.Icc 0 x, ENNReal.ofReal (min (f r) m) =
        ∫⁻ r in {r | f r ≤ m} ∩ Set.Icc 0 x, ENNReal.ofReal (f r) :=
      setLIntegral_congr_fun (hX.inter measurableSet_Icc) fun r hr => by
        rw [min_eq_left (show f r ≤ m from hr.1)]
    rw [e] at h1
    have hfin' : ∫⁻ r in {r | f r ≤ m} ∩ Set.Icc 0 x, ENNReal.ofReal (f r) ≠ ⊤ :=
      ne_top_of_le_ne_top hfin (lintegral_mono_set Set.inter_subset_right)
    have h2 := (ENNReal.mul_left_inj hpos hfin').1 h1
    have h3 := inv_injective h2
    have h4 : (fun r => ENNReal.ofReal (min (f r) m)) =ᵐ[volume.restrict (Set.Icc 0 x)]
        fun r => ENNReal.ofReal (f r) :=
      ae_eq_of_ae_le_of_lintegral_le
        (Eventually.of_forall fun r => ENNReal.ofReal_le_ofReal (min_le_left _ _))
        (cut_mass_finite f m x) (hf.ennreal_ofReal.aemeasurable) h3.ge
    filter_upwards [h4] with r hr
    by_contra hn
    rw [not_le] at hn
    rw [min_eq_right hn.le, ENNReal.ofReal_eq_ofReal_iff hm.le (hm.trans hn).le] at hr
    exact absurd hr hn.ne
  · intro h
    have e : (fun r => ENNReal.ofReal (min (f r) m)) =ᵐ[volume.restrict (Set.Icc 0 x)]
        fun r => ENNReal.ofReal (f r) := by
      filter_upwards [h] with r hr
      rw [min_eq_left hr]
    unfold Spec.densityLaw
    rw [lintegral_congr_ae e, withDensity_congr_ae e]

/-- Proportional densities have the same law. -/
theorem densityLaw_scale {f g : ℝ → ℝ} {x a : ℝ} (ha : 0 < a)
    (h : ∀ r, 0 ≤ r → r ≤ x → f r = a * g r) :
    Spec.densityLaw f x = Spec.densityLaw g x := by
  ext X hX
  rw [densityLaw_apply _ _ hX, densityLaw_apply _ _ hX]
  have e : ∀ r ∈ Set.Icc (0 : ℝ) x, ENNReal.ofReal (f r) = ENNReal.ofReal a * ENNReal.ofReal (g r) :=
    fun r hr => by rw [h r hr.1 hr.2, ENNReal.ofReal_mul ha.le]
  have hI := measurableSet_Icc (a := (0 : ℝ)) (b := x)
  have a0 : ENNReal.ofReal a ≠ 0 := by simpa using ha
  have a1 : ENNReal.ofReal a ≠ ⊤ := ENNReal.ofReal_ne_top
  rw [setLIntegral_congr_fun hI e, setLIntegral_congr_fun (hX.inter hI) fun r hr => e r hr.2,
    lintegral_const_mul' _ _ a1, lintegral_const_mul' _ _ a1,
    ENNReal.mul_inv (Or.inl a0) (Or.inl a1), mul_mul_mul_comm, ENNReal.inv_mul_cancel a0 a1, one_mul]

/-- The probability of a distance of at most `t`, for continuous non-negative densities. -/
theorem densityLaw_Iic {f : ℝ → ℝ} (hf : Continuous f) {x t : ℝ} (h0 : ∀ r, 0 ≤ r → r ≤ x → 0 ≤ f r)
    (ht : 0 ≤ t) (htx : t ≤ x) (hpos : 0 < ∫ r in (0 : ℝ)..x, f r) :
    Spec.densityLaw f x (Set.Iic t) =
      ENNReal.ofReal ((∫ r in (0 : ℝ)..t, f r) / ∫ r in (0 : ℝ)..x, f r) := by
  have key : ∀ s, 0 ≤ s → s ≤ x → ∫⁻ r in Set.Icc 0 s, ENNReal.ofReal (f r) =
      ENNReal.ofReal (∫ r in (0 : ℝ)..s, f r) := by
    intro s hs hsx
    rw [intervalIntegral.integral_of_le hs, ← integral_Icc_eq_integral_Ioc,
      ofReal_integral_eq_lintegral_ofReal]
    · exact hf.continuousOn.integrableOn_Icc
    · refine (ae_restrict_iff' measurableSet_Icc).2 (Eventually.of_forall fun r hr => ?_)
      exact h0 r hr.1 (hr.2.trans hsx)
  have e : Set.Iic t ∩ Set.Icc 0 x = Set.Icc 0 t := by
    ext r; simp only [Set.mem_inter_iff, Set.mem_Iic, Set.mem_Icc]
    constructor
    · rintro ⟨a, b, _⟩; exact ⟨b, a⟩
    · rintro ⟨a, b⟩; exact ⟨b, a, b.trans htx⟩
  rw [densityLaw_apply _ _ measurableSet_Iic, e, key t ht htx, key x (ht.trans htx) le_rfl,
    ENNReal.ofReal_div_of_pos hpos, ENNReal.div_eq_inv_mul]

/-! ### `ConstantSphericalDistribution` -/

/-- What is used of numpy's grid and maximum. -/
structure Spec.GridMax {G : Type} (env : DistEnv ℝ G) : Prop where
  grid : ∀ h, 0 < h → h ∈ env.grid h ∧ ∀ r ∈ env.grid h, 0 ≤ r ∧ r ≤ h
  max : ∀ l, l ≠ [] → env.npMax l ∈ l ∧ ∀ y ∈ l, y ≤ env.npMax l

/-- For a density that does not decrease, the largest value on the grid is the one at the
end. -/
theorem Spec.GridMax.end {G : Type} {env : DistEnv ℝ G} (h : Spec.GridMax env) {f : ℝ → ℝ} {x : ℝ}
    (hx : 0 < x) (hf : ∀ r s, 0 ≤ r → r ≤ s → s ≤ x → f r ≤ f s) :
    env.npMax ((env.grid x).map f) = f x := by
  obtain ⟨h1, h2⟩ := h.grid x hx
  obtain ⟨h3, h4⟩ := h.max ((env.grid x).map f) (List.ne_nil_of_mem (List.mem_map_of_mem h1))
  refine le_antisymm ?_ (h4 _ (List.mem_map_of_mem h1))
  obtain ⟨r, hr, e⟩ := List.mem_map.1 h3
  rw [← e]
  exact hf r x (h2 r hr).1 (h2 r hr).2 le_rfl

variable {G : Type} [MeasurableSpace G] {P : Measure G} [IsProbabilityMeasure P]

theorem constantSpherical_dens (l : ℝ) : constantSpherical.dens [l] = fun r => l * sphereVolume r / 1 :=
  rfl

theorem constantSpherical_rmax {env : DistEnv ℝ G} (hten : env.ten = 10) :
    constantSpherical.decl "r_max" = declRMax env := by
  simp [constantSpherical, declTable, declRMaxR, declRMax, hten]

theorem constantSpherical_flag (a b : String) (ha : (constantSpherical.decl a).isNorm = true)
    (hb : (constantSpherical.decl b).isNorm = true) : a = b := by
  have key : ∀ c, (constantSpherical.decl c).isNorm = true → c = "Lambda" := by
    intro c hc
    simp only [constantSpherical, declTable] at hc
    split at hc
    · simp [declRMaxR] at hc
    · by_contra hn
      simp [Dict.get?, Ne.symm hn] at hc
  rw [key a ha, key b hb]

theorem sphere_mass {l x : ℝ} (hl : 0 < l) (hx : 0 < x) :
    ∫⁻ r in Set.Icc 0 x, ENNReal.ofReal (constantSpherical.dens [l] r) ≠ 0 := by
  rw [constantSpherical_dens]
  intro h
  rw [lintegral_eq_zero_iff (by unfold sphereVolume; fun_prop)] at h
  have h1 := (ae_restrict_iff' measurableSet_Icc).1 h
  have h2 : Set.Ioc (0 : ℝ) x ⊆ {r | ¬ (r ∈ Set.Icc (0 : ℝ) x →
      (fun r => ENNReal.ofReal (l * sphereVolume r / 1)) r = (0 : ℝ → ENNReal) r)} := by
    intro r hr hc
    have := hc ⟨hr.1.le, hr.2⟩
    simp only [Pi.zero_apply, ENNReal.ofReal_eq_zero, div_one] at this
    have hp : 0 < l * sphereVolume r := by
      unfold sphereVolume
      have := Real.pi_pos
      have := hr.1
      positivity
    linarith
  have h3 := measure_mono_null h2 (ae_iff.1 h1)
  rw [Real.volume_Ioc, sub_zero, ENNReal.ofReal_eq_zero] at h3
  linarith

/-- C73 (constant density in a sphere): `draw_distance` of `ConstantSphericalDistribution`
samples exactly; the distances are independent and the probability of a distance of at most
`t` is `(t / r_max)^3`. -/
theorem C73_sphere (env : DistEnv ℝ G) (hfair : Spec.FairUniform P env.uniform)
    (hlt : ∀ a b, env.lt a b = true ↔ a < b) (hten : env.ten = 10) (hgrid : Spec.GridMax env)
    (showProgress : Bool) (n : ℕ) (sp : Spat ℝ)
    (hok : ∀ n, sp.params.norm = some n →
      (constantSpherical.decl n).isNorm = true ∧ (sp.params.storage.get? n).isSome)
    {rm l : ℝ}
    (hr : outcome (paramGet (constantSpherical.decl "r_max") "r_max" sp.params) = .ok rm)
    (hl : outcome (paramGet (constantSpherical.decl "Lambda") "Lambda" sp.params) = .ok l)
    (hrm0 : 0 < rm) (hl0 : 0 < l) :
    ∃ μ : Measure ℝ, IsProbabilityMeasure μ ∧
      (∀ t, 0 ≤ t → t ≤ rm → μ (Set.Iic t) = ENNReal.ofReal ((t / rm) ^ 3)) ∧
      Spec.Samples P (Spec.iid n μ) fun k g v g' => ∃ sp',
        drawDistance { env with budget := k } constantSpherical.code showProgress n false
          { sp := sp, rng := g } = .ok () { sp := sp', rng := g' } ∧
        Spec.DrewDistances constantSpherical.decl (List.ofFn v) sp sp' := by
  have hmono : ∀ r s, 0 ≤ r → r ≤ s → s ≤ rm →
      constantSpherical.dens [l] r ≤ constantSpherical.dens [l] s := by
    intro r s h0 hrs _
    simp only [constantSpherical_dens, sphereVolume, div_one]
    have hp := Real.pi_pos
    have : 4 * Real.pi * r * r ≤ 4 * Real.pi * s * s := by
      have : r * r ≤ s * s := mul_self_le_mul_self h0 hrs
      nlinarith
    exact mul_le_mul_of_nonneg_left this hl0.le
  have hcont : Continuous (constantSpherical.dens [l]) := by
    rw [constantSpherical_dens]; unfold sphereVolume; fun_prop
  have hend := hgrid.end hrm0 hmono
  have hint : ∀ t, ∫ r in (0 : ℝ)..t, constantSpherical.dens [l] r = l * (4 * Real.pi) * t ^ 3 / 3 := by
    intro t
    have : ∀ r, constantSpherical.dens [l] r = l * (4 * Real.pi) * r ^ 2 := by
      intro r; rw [constantSpherical_dens]; simp only [sphereVolume]; ring
    simp only [this]
    rw [intervalIntegral.integral_const_mul, integral_pow]
    norm_num
    ring
  have hfin : ∫⁻ r in Set.Icc 0 rm, ENNReal.ofReal (constantSpherical.dens [l] r) ≠ ⊤ := by
    have := cut_mass_finite (constantSpherical.dens [l]) (constantSpherical.dens [l] rm) rm
    rwa [setLIntegral_congr_fun measurableSet_Icc fun r hr => by
      rw [min_eq_left (hmono r rm hr.1 hr.2 le_rfl)]] at this
  have hvs : outcome (readAll constantSpherical.decl constantSpherical.reads sp.params) = .ok [l] := by
    rw [readAll_outcome]
    rw [outcome_paramGet_rd] at hl
    simp only [constantSpherical, rdAll] at hl ⊢
    split at hl
    · rename_i h; cases hl; rw [h]
    · cases hl
  refine ⟨Spec.densityLaw (constantSpherical.dens [l]) rm, densityLaw_prob (sphere_mass hl0 hrm0) hfin,
    fun t ht htr => ?_, ?_⟩
  · have hp := Real.pi_pos
    rw [densityLaw_Iic hcont (fun r h0 _ => ?_) ht htr (by rw [hint]; positivity), hint, hint]
    · congr 1
      field_simp
    · simp only [constantSpherical_dens, sphereVolume]; positivity
  · exact C73_draw_distance_exact env hfair hlt constantSpherical (constantSpherical_rmax hten)
      constantSpherical_flag showProgress n sp hok hr hvs (m := constantSpherical.dens [l] rm)
      hend.symm hrm0 hcont.measurable (fun r h0 h1 => hmono r rm h0 h1 le_rfl)
      (sphere_mass hl0 hrm0)

end Popsynth
