import Verif.Spec.FlatUniverse
import Verif.Lemmas.CosmologySlope
import Verif.Props.Cosmology
import Mathlib.MeasureTheory.Integral.IntervalIntegral.FundThmCalculus
import Mathlib.Analysis.SpecialFunctions.Sqrt

/-!
# The distances of the package are those of a flat universe (C90)
-/

set_option autoImplicit false
set_option linter.unusedSectionVars false

namespace Popsynth

open Set

noncomputable section

open Spec

variable {c : Cosmo}

/-! ### The slope -/

/-- The slope of the approximate distance in units of the exact one, as a function of the ratio of
dark energy to matter. -/
def slopeRatio (y : ℝ) : ℝ := √(1 + y) * (phiSlope y / phiBottom y ^ 2)

theorem phiSlope_pos {y : ℝ} (h : 0 ≤ y) : 0 < phiSlope y := by unfold phiSlope; positivity

theorem slopeRatio_le {y e : ℝ} (hy : 0 ≤ y) (he : 0 ≤ e)
    (h : 0 ≤ e ^ 2 * phiBottom y ^ 4 - (1 + y) * phiSlope y ^ 2) : slopeRatio y ≤ e := by
  have hb := phiBottom_pos hy
  have hs := phiSlope_pos hy
  refine abs_le_of_sq_le_sq' ?_ he |>.2
  unfold slopeRatio
  rw [mul_pow, Real.sq_sqrt (by linarith), div_pow, ← pow_mul, show 2 * 2 = 4 from rfl, ← mul_div_assoc,
    div_le_iff₀ (by positivity)]
  linarith

theorem le_slopeRatio {y e : ℝ} (hy : 0 ≤ y) (h : 0 ≤ (1 + y) * phiSlope y ^ 2 - e ^ 2 * phiBottom y ^ 4) :
    e ≤ slopeRatio y := by
  have hb := phiBottom_pos hy
  have hs := phiSlope_pos hy
  have h0 : 0 ≤ slopeRatio y := by unfold slopeRatio; positivity
  refine abs_le_of_sq_le_sq' ?_ h0 |>.2
  unfold slopeRatio
  rw [mul_pow, Real.sq_sqrt (by linarith), div_pow, ← pow_mul, show 2 * 2 = 4 from rfl, ← mul_div_assoc,
    le_div_iff₀ (by positivity)]
  linarith

theorem slope_near {y : ℝ} (h0 : 0 ≤ y) (h1 : y ≤ 7 / 3) :
    4987 / 5000 ≤ slopeRatio y ∧ slopeRatio y ≤ 5013 / 5000 := by
  refine ⟨le_slopeRatio h0 ?_, slopeRatio_le h0 (by norm_num) (slope_upper h0 h1)⟩
  rcases le_total y (7 / 6) with h | h
  · exact slope_lower_left h0 h
  · exact slope_lower_right h h1

theorem slope_wide {y : ℝ} (h0 : 0 ≤ y) (h1 : y ≤ 4) :
    49 / 50 ≤ slopeRatio y ∧ slopeRatio y ≤ 51 / 50 :=
  ⟨le_slopeRatio h0 (slope_lower_wide h0 h1), slopeRatio_le h0 (by norm_num) (slope_upper_wide h0 h1)⟩

/-! ### Comparing distances -/

namespace Spec.FlatCosmology

theorem below_one (h : FlatCosmology c) : c.Om < 1 := by
  have := h.radiation; have := h.darkEnergy; linarith

/-- The ratio of dark energy to matter at redshift `z`. -/
def ratioAt (c : Cosmo) (z : ℝ) : ℝ := c.ratio / (1 + z) ^ 3

theorem ratioAt_nonneg (h : FlatCosmology c) {z : ℝ} (hz : 0 ≤ z) : 0 ≤ ratioAt c z :=
  div_nonneg h.ratio_nonneg (by positivity)

theorem ratioAt_le (h : FlatCosmology c) {z : ℝ} (hz : 0 ≤ z) : ratioAt c z ≤ c.ratio :=
  div_le_self h.ratio_nonneg (one_le_pow₀ (by linarith))

theorem expansion_pos (h : FlatCosmology c) {z : ℝ} (hz : -1 < z) : 0 < expansion c.Om z := by
  have := h.matter; have := h.below_one
  have : 0 < (1 + z) ^ 3 := pow_pos (by linarith) 3
  exact Real.sqrt_pos.2 (by nlinarith [mul_pos h.matter this])

theorem expansion_eq (h : FlatCosmology c) {z : ℝ} (hz : -1 < z) :
    expansion c.Om z = √c.Om * ((1 + z) * √(1 + z)) * √(1 + ratioAt c z) := by
  have hm := h.matter
  have h1 : 0 < 1 + z := by linarith
  unfold expansion
  have e : c.Om * (1 + z) ^ 3 + (1 - c.Om) = c.Om * ((1 + z) ^ 2 * (1 + z)) * (1 + ratioAt c z) := by
    unfold ratioAt Cosmo.ratio; field_simp
  rw [e, Real.sqrt_mul (by positivity), Real.sqrt_mul hm.le, Real.sqrt_mul (by positivity),
    Real.sqrt_sq h1.le]

theorem shape_deriv (h : FlatCosmology c) {z : ℝ} (hz : 0 ≤ z) :
    HasDerivAt c.shape (√c.Om / 2 * (slopeRatio (ratioAt c z) / expansion c.Om z)) z := by
  have hz1 : (0 : ℝ) < 1 + z := by linarith
  have hr : 0 < √(1 + z) := Real.sqrt_pos.2 hz1
  have hy : ratioAt c z = c.ratio * (1 / √(1 + z)) ^ 6 := by
    unfold ratioAt
    rw [div_pow, one_pow, show √(1 + z) ^ 6 = (√(1 + z) ^ 2) ^ 3 by ring, Real.sq_sqrt hz1.le]
    ring
  have hn := h.ratioAt_nonneg hz
  have hf := hFun_deriv c.ratio (1 / √(1 + z)) h.ratio_nonneg hy
  have hs : HasDerivAt (fun t : ℝ => 1 / √(1 + t)) (-(1 / (2 * √(1 + z))) / √(1 + z) ^ 2) z := by
    have h1 : HasDerivAt (fun t : ℝ => 1 + t) 1 z := (hasDerivAt_id z).const_add 1
    have h2 := (h1.sqrt hz1.ne').inv hr.ne'
    refine h2.congr_of_eventuallyEq (Filter.Eventually.of_forall fun t => ?_)
    simp only [one_div, Pi.inv_apply]
  have hc := (hf.comp z hs).const_sub (hFun c.ratio 1)
  refine hc.congr_deriv ?_
  have hN : (phiTop (ratioAt c z) + 6 * ratioAt c z * (1.320 + 0.441 * (2 * ratioAt c z) + 0.02656 * (3 * ratioAt c z ^ 2))) *
      phiBottom (ratioAt c z) - phiTop (ratioAt c z) * (6 * ratioAt c z * (1.392 + 0.5121 * (2 * ratioAt c z) + 0.03944 * (3 * ratioAt c z ^ 2))) =
      phiSlope (ratioAt c z) := by
    generalize ratioAt c z = y
    rw [phiSlope_rat]
    unfold phiTop phiBottom
    norm_num
    ring
  rw [hN, h.expansion_eq (by linarith)]
  unfold slopeRatio
  have ho : 0 < √c.Om := Real.sqrt_pos.2 h.matter
  have hq : 0 < √(1 + ratioAt c z) := Real.sqrt_pos.2 (by linarith)
  have hb := phiBottom_pos hn
  rw [Real.sq_sqrt hz1.le]
  field_simp

theorem inv_expansion_continuousAt (h : FlatCosmology c) {z : ℝ} (hz : -1 < z) :
    ContinuousAt (fun t => 1 / expansion c.Om t) z := by
  refine ContinuousAt.div continuousAt_const ?_ (h.expansion_pos hz).ne'
  unfold expansion
  fun_prop

theorem inv_expansion_integrable (h : FlatCosmology c) {z : ℝ} (hz : 0 ≤ z) :
    IntervalIntegrable (fun t => 1 / expansion c.Om t) MeasureTheory.volume 0 z := by
  refine ContinuousOn.intervalIntegrable fun t ht => ?_
  rw [uIcc_of_le hz] at ht
  exact (h.inv_expansion_continuousAt (by linarith [ht.1])).continuousWithinAt

theorem integral_deriv (h : FlatCosmology c) {z : ℝ} (hz : 0 ≤ z) :
    HasDerivAt (fun z => ∫ t in (0 : ℝ)..z, 1 / expansion c.Om t) (1 / expansion c.Om z) z := by
  refine intervalIntegral.integral_hasDerivAt_right (h.inv_expansion_integrable hz) ?_
    (h.inv_expansion_continuousAt (by linarith))
  refine Measurable.stronglyMeasurable ?_ |>.stronglyMeasurableAtFilter
  unfold expansion
  fun_prop

theorem integral_nonneg (h : FlatCosmology c) {z : ℝ} (hz : 0 ≤ z) :
    0 ≤ ∫ t in (0 : ℝ)..z, 1 / expansion c.Om t :=
  intervalIntegral.integral_nonneg hz fun t ht => one_div_nonneg.2 (h.expansion_pos (by linarith [ht.1])).le

/-- A function with values and slope zero or more. -/
theorem grows {f f' : ℝ → ℝ} {b : ℝ} (h0 : f 0 = 0) (hd : ∀ z ∈ Icc 0 b, HasDerivAt f (f' z) z)
    (hp : ∀ z ∈ Icc 0 b, 0 ≤ f' z) {z : ℝ} (hz : z ∈ Icc 0 b) : 0 ≤ f z := by
  have hm : MonotoneOn f (Icc 0 b) := by
    refine monotoneOn_of_deriv_nonneg (convex_Icc 0 b)
      (fun z hz => (hd z hz).continuousAt.continuousWithinAt)
      (fun z hz => (hd z (interior_subset hz)).differentiableAt.differentiableWithinAt) fun z hz => ?_
    rw [(hd z (interior_subset hz)).deriv]
    exact hp z (interior_subset hz)
  rw [← h0]
  exact hm ⟨le_rfl, hz.1.trans hz.2⟩ hz hz.1

theorem shape_le (h : FlatCosmology c) {e b : ℝ}
    (hs : ∀ z ∈ Icc 0 b, slopeRatio (ratioAt c z) ≤ e) {z : ℝ} (hz : z ∈ Icc 0 b) :
    c.shape z ≤ e * (√c.Om / 2 * ∫ t in (0 : ℝ)..z, 1 / expansion c.Om t) := by
  have := grows (f := fun z => e * (√c.Om / 2 * ∫ t in (0 : ℝ)..z, 1 / expansion c.Om t) - c.shape z)
    (by simp [shape_zero])
    (fun z hz => (((h.integral_deriv hz.1).const_mul (√c.Om / 2)).const_mul e).sub (h.shape_deriv hz.1))
    (fun z hz => by
      have h1 := h.expansion_pos (z := z) (by linarith [hz.1])
      have h2 := Real.sqrt_nonneg c.Om
      have : e * (√c.Om / 2 * (1 / expansion c.Om z)) - √c.Om / 2 * (slopeRatio (ratioAt c z) / expansion c.Om z) =
        √c.Om / 2 * ((e - slopeRatio (ratioAt c z)) / expansion c.Om z) := by ring
      rw [this]
      exact mul_nonneg (by positivity) (div_nonneg (sub_nonneg.2 (hs z hz)) h1.le)) hz
  linarith

theorem le_shape (h : FlatCosmology c) {e b : ℝ}
    (hs : ∀ z ∈ Icc 0 b, e ≤ slopeRatio (ratioAt c z)) {z : ℝ} (hz : z ∈ Icc 0 b) :
    e * (√c.Om / 2 * ∫ t in (0 : ℝ)..z, 1 / expansion c.Om t) ≤ c.shape z := by
  have := grows (f := fun z => c.shape z - e * (√c.Om / 2 * ∫ t in (0 : ℝ)..z, 1 / expansion c.Om t))
    (by simp [shape_zero])
    (fun z hz => (h.shape_deriv hz.1).sub (((h.integral_deriv hz.1).const_mul (√c.Om / 2)).const_mul e))
    (fun z hz => by
      have h1 := h.expansion_pos (z := z) (by linarith [hz.1])
      have h2 := Real.sqrt_nonneg c.Om
      have : √c.Om / 2 * (slopeRatio (ratioAt c z) / expansion c.Om z) - e * (√c.Om / 2 * (1 / expansion c.Om z)) =
        √c.Om / 2 * ((slopeRatio (ratioAt c z) - e) / expansion c.Om z) := by ring
      rw [this]
      exact mul_nonneg (by positivity) (div_nonneg (sub_nonneg.2 (hs z hz)) h1.le)) hz
  linarith

theorem exact_eq (h : FlatCosmology c) (z : ℝ) :
    luminosityDistance c.Om c.h0 z =
      c.scale * (1 + z) * (√c.Om / 2 * ∫ t in (0 : ℝ)..z, 1 / expansion c.Om t) := by
  have ho : 0 < √c.Om := Real.sqrt_pos.2 h.matter
  have hh := h.hubble
  unfold luminosityDistance comovingDistance hubbleDistance Cosmo.scale speedOfLight
  field_simp
  norm_num
  ring

end Spec.FlatCosmology

open FlatCosmology

/-- **C90** (distances): with at least 30% matter the luminosity distance is that of a flat
universe to 0.26%, for all redshifts; with at least 20% to 2%. -/
theorem C90_distance (h : FlatCosmology c) {z : ℝ} (hz : 0 ≤ z) :
    ∃ d, c.luminosityDistance z = some d ∧
      (3 / 10 ≤ c.Om → |d - luminosityDistance c.Om c.h0 z| ≤ 0.0026 * luminosityDistance c.Om c.h0 z) ∧
      (1 / 5 ≤ c.Om → |d - luminosityDistance c.Om c.h0 z| ≤ 0.02 * luminosityDistance c.Om c.h0 z) := by
  have hm := h.matter
  have key : ∀ {k e : ℝ}, c.ratio ≤ k → (∀ y, 0 ≤ y → y ≤ k → 1 - e ≤ slopeRatio y ∧ slopeRatio y ≤ 1 + e) →
      |c.scale * (1 + z) * c.shape z - luminosityDistance c.Om c.h0 z| ≤ e * luminosityDistance c.Om c.h0 z := by
    intro k e hk hs
    have hs' : ∀ t ∈ Icc 0 z, 1 - e ≤ slopeRatio (ratioAt c t) ∧ slopeRatio (ratioAt c t) ≤ 1 + e :=
      fun t ht => hs _ (h.ratioAt_nonneg ht.1) ((h.ratioAt_le ht.1).trans hk)
    have h1 := h.le_shape (fun t ht => (hs' t ht).1) (z := z) ⟨hz, le_rfl⟩
    have h2 := h.shape_le (fun t ht => (hs' t ht).2) (z := z) ⟨hz, le_rfl⟩
    rw [h.exact_eq]
    have hp : 0 ≤ c.scale * (1 + z) := mul_nonneg h.scale_pos.le (by linarith)
    have h3 := mul_le_mul_of_nonneg_left h1 hp
    have h4 := mul_le_mul_of_nonneg_left h2 hp
    rw [abs_le]
    constructor <;> linarith
  refine ⟨_, h.luminosityDistance_eq (by linarith), fun ho => ?_, fun ho => ?_⟩
  · refine key (k := 7 / 3) ?_ fun y h0 h1 => ?_
    · unfold Cosmo.ratio; rw [div_le_iff₀ hm]; linarith
    · have := slope_near h0 h1
      constructor <;> norm_num <;> linarith
  · refine key (k := 4) ?_ fun y h0 h1 => ?_
    · unfold Cosmo.ratio; rw [div_le_iff₀ hm]; linarith
    · have := slope_wide h0 h1
      constructor <;> norm_num <;> linarith

/-- **C90** (violated): with at most 10% matter every luminosity distance up to redshift 0.04 is
at least 14% too large. -/
theorem C90_violated_low (h : FlatCosmology c) (ho : c.Om ≤ 1 / 10) {z : ℝ} (hz : 0 < z) (hz1 : z ≤ 0.04) :
    ∃ d, c.luminosityDistance z = some d ∧ 0 < luminosityDistance c.Om c.h0 z ∧
      1.14 * luminosityDistance c.Om c.h0 z ≤ d := by
  have hm := h.matter
  have hp : 0 < c.scale * (1 + z) := mul_pos h.scale_pos (by linarith)
  refine ⟨_, h.luminosityDistance_eq (by linarith), ?_, ?_⟩
  · rw [h.exact_eq]
    refine mul_pos hp (mul_pos (by have := Real.sqrt_pos.2 hm; positivity) ?_)
    refine intervalIntegral.intervalIntegral_pos_of_pos_on (h.inv_expansion_integrable hz.le) (fun t ht => ?_) hz
    exact one_div_pos.2 (h.expansion_pos (by linarith [ht.1]))
  · have := h.le_shape (e := 57 / 50) (b := z) (fun t ht => by
      refine le_slopeRatio (h.ratioAt_nonneg ht.1) (slope_far ?_)
      have h1 : (1 + t) ^ 3 ≤ 9 / 8 := by
        have : (1 + t) ^ 3 ≤ (1 + 0.04) ^ 3 :=
          pow_le_pow_left₀ (by linarith [ht.1]) (by linarith [ht.2]) 3
        norm_num at this ⊢
        linarith
      have h2 : 9 ≤ c.ratio := by unfold Cosmo.ratio; rw [le_div_iff₀ hm]; linarith
      unfold ratioAt
      rw [le_div_iff₀ (pow_pos (by linarith [ht.1]) 3)]
      linarith) (z := z) ⟨hz.le, le_rfl⟩
    rw [h.exact_eq]
    have h3 := mul_le_mul_of_nonneg_left this hp.le
    norm_num at h3 ⊢
    linarith

/-- Comoving distances are luminosity distances without the factor of the expansion. -/
theorem comoving_of (h : FlatCosmology c) {z e : ℝ} (hz : 0 ≤ z)
    (hd : |c.scale * (1 + z) * c.shape z - luminosityDistance c.Om c.h0 z| ≤ e * luminosityDistance c.Om c.h0 z) :
    c.comovingTransverseDistance z = some (c.scale * c.shape z) ∧
      (1 - e) * comovingDistance c.Om c.h0 z ≤ c.scale * c.shape z / 3.086e24 ∧
      c.scale * c.shape z / 3.086e24 ≤ (1 + e) * comovingDistance c.Om c.h0 z := by
  have hz1 : 0 < 1 + z := by linarith
  refine ⟨?_, ?_⟩
  · unfold Cosmo.comovingTransverseDistance
    rw [h.luminosityDistance_eq (by linarith)]
    simp only [Option.bind_eq_bind, Option.bind_some, npDiv_ne hz1.ne', Option.some.injEq]
    field_simp
  · unfold luminosityDistance at hd
    rw [abs_le] at hd
    obtain ⟨h1, h2⟩ := hd
    rw [le_div_iff₀ (by norm_num), div_le_iff₀ (by norm_num)]
    constructor
    · refine le_of_mul_le_mul_left ?_ hz1; linarith
    · refine le_of_mul_le_mul_left ?_ hz1; linarith

/-- **C90** (volumes): with at least 30% matter the comoving volume per redshift is that of a flat
universe to 0.53%, but for the radiation that is subtracted from the dark energy. -/
theorem C90_volume (h : FlatCosmology c) (ho : 3 / 10 ≤ c.Om) {z : ℝ} (hz : 0 ≤ z) :
    ∃ v, c.differentialComovingVolume z = some v ∧
      (1 - 0.0053) * volumeElement c.Om c.h0 z ≤ v ∧
      v ≤ (1 + 0.0053) * volumeElement c.Om c.h0 z / √(1 - c.radiation) := by
  obtain ⟨d, e, hd, -⟩ := C90_distance h hz
  rw [h.luminosityDistance_eq (by linarith), Option.some.injEq] at e
  subst e
  obtain ⟨ht, h1, h2⟩ := comoving_of h hz (hd ho)
  have hm := h.matter
  have hh := h.hubble
  have hr := h.radiation
  have hde := h.darkEnergy
  have hp : 1 ≤ (1 + z) ^ 3 := one_le_pow₀ (by linarith)
  have hA : 1 - c.radiation ≤ (1 + z) ^ 3 * c.Om + c.ode := by unfold Cosmo.ode; nlinarith
  have hr1 : 0 < 1 - c.radiation := by linarith
  have ha : c.a z = some (√((1 + z) ^ 3 * c.Om + c.ode)) := npSqrt_nonneg (by linarith)
  have ha0 : 0 < √((1 + z) ^ 3 * c.Om + c.ode) := Real.sqrt_pos.2 (by linarith)
  have hE : 0 < expansion c.Om z := h.expansion_pos (by linarith)
  -- the two expansion rates
  have hEl : √((1 + z) ^ 3 * c.Om + c.ode) ≤ expansion c.Om z :=
    Real.sqrt_le_sqrt (by unfold Cosmo.ode; linarith)
  have hEu : expansion c.Om z * √(1 - c.radiation) ≤ √((1 + z) ^ 3 * c.Om + c.ode) := by
    unfold expansion
    rw [← Real.sqrt_mul (by nlinarith)]
    refine Real.sqrt_le_sqrt ?_
    unfold Cosmo.ode at hA ⊢
    nlinarith
  have hI : 0 ≤ comovingDistance c.Om c.h0 z :=
    mul_nonneg (by unfold hubbleDistance; positivity) (h.integral_nonneg hz)
  set D := comovingDistance c.Om c.h0 z with hD
  set t := c.scale * c.shape z / 3.086e24 with htd
  set A := √((1 + z) ^ 3 * c.Om + c.ode)
  have hH : 0 < hubbleDistance c.h0 := by unfold hubbleDistance; positivity
  have hv : c.differentialComovingVolume z = some (hubbleDistance c.h0 * (t * t) / A * 1e-9) := by
    unfold Cosmo.differentialComovingVolume Cosmo.dh
    rw [ht, ha, npDiv_ne hh.ne']
    simp only [Option.bind_eq_bind, Option.bind_some, npDiv_ne ha0.ne', Option.pure_def, Option.some.injEq]
    rw [show speedOfLight * 1.0e-3 / c.h0 = hubbleDistance c.h0 by
      unfold speedOfLight hubbleDistance; norm_num]
    ring
  have ht0 : 0 ≤ t := le_trans (by norm_num; positivity) h1
  have hl : (1 - 0.0053) * D ^ 2 ≤ t * t := by
    have := mul_le_mul h1 h1 (by norm_num; positivity) ht0
    norm_num at this ⊢
    nlinarith [sq_nonneg D]
  have hu : t * t ≤ (1 + 0.0053) * D ^ 2 := by
    have := mul_le_mul h2 h2 ht0 (by norm_num; positivity)
    norm_num at this ⊢
    nlinarith [sq_nonneg D]
  refine ⟨_, hv, ?_, ?_⟩
  · unfold volumeElement
    rw [← hD]
    have e1 : (1 - 0.0053) * (hubbleDistance c.h0 * D ^ 2 / expansion c.Om z * 1e-9) =
      hubbleDistance c.h0 * ((1 - 0.0053) * D ^ 2) / expansion c.Om z * 1e-9 := by ring
    rw [e1]
    refine mul_le_mul_of_nonneg_right ?_ (by norm_num)
    exact div_le_div₀ (by positivity) (mul_le_mul_of_nonneg_left hl hH.le) ha0 hEl
  · unfold volumeElement
    rw [← hD]
    have hs0 : 0 < √(1 - c.radiation) := Real.sqrt_pos.2 hr1
    have e1 : (1 + 0.0053) * (hubbleDistance c.h0 * D ^ 2 / expansion c.Om z * 1e-9) / √(1 - c.radiation) =
      hubbleDistance c.h0 * ((1 + 0.0053) * D ^ 2) / (expansion c.Om z * √(1 - c.radiation)) * 1e-9 := by
      field_simp
    rw [e1]
    refine mul_le_mul_of_nonneg_right ?_ (by norm_num)
    exact div_le_div₀ (by norm_num; positivity) (mul_le_mul_of_nonneg_left hu hH.le) (by positivity) hEu

/-- **C90** (fluxes): with at least 30% matter fluxes of sources at positive redshift are those of
a flat universe to 0.53%. -/
theorem C90_flux (h : FlatCosmology c) (ho : 3 / 10 ≤ c.Om) {L z : ℝ} (hL : 0 ≤ L) (hz : 0 < z) :
    ∃ f, cosmologicalFlux c L z = some f ∧ |f - flux c.Om c.h0 L z| ≤ 0.0053 * flux c.Om c.h0 L z := by
  obtain ⟨d, e, hd, -⟩ := C90_distance h hz.le
  have hdp : 0 < d := by
    rw [h.luminosityDistance_eq (by linarith), Option.some.injEq] at e
    rw [← e]
    exact mul_pos (mul_pos h.scale_pos (by linarith)) (h.shape_pos hz)
  have hd := hd ho
  set D := luminosityDistance c.Om c.h0 z with hD
  rw [abs_le] at hd
  obtain ⟨h1, h2⟩ := hd
  have hDp : 0 < D := by norm_num at h1 h2; linarith
  have hpi := Real.pi_pos
  refine ⟨L / (4 * Real.pi * d ^ 2), ?_, ?_⟩
  · unfold cosmologicalFlux
    rw [e]
    simp only [Option.bind_eq_bind, Option.bind_some]
    exact npDiv_ne (by positivity)
  · unfold flux
    rw [← hD]
    have e1 : L / (4 * Real.pi * d ^ 2) = L / (4 * Real.pi * D ^ 2) * (D ^ 2 / d ^ 2) := by field_simp
    have hf : 0 ≤ L / (4 * Real.pi * D ^ 2) := by positivity
    rw [e1]
    have h3 : 1 - 0.0053 ≤ D ^ 2 / d ^ 2 := by
      rw [le_div_iff₀ (by positivity)]
      norm_num at h1 h2 ⊢
      nlinarith
    have h4 : D ^ 2 / d ^ 2 ≤ 1 + 0.0053 := by
      rw [div_le_iff₀ (by positivity)]
      norm_num at h1 h2 ⊢
      nlinarith
    rw [abs_le]
    constructor
    · have := mul_le_mul_of_nonneg_left h3 hf; linarith
    · have := mul_le_mul_of_nonneg_left h4 hf; linarith

/-- The default cosmology of the package. -/
example : ∃ d, Cosmo.luminosityDistance ⟨0.307, 67.7, 0.0001⟩ 3 = some d ∧
    |d - luminosityDistance 0.307 67.7 3| ≤ 0.0026 * luminosityDistance 0.307 67.7 3 := by
  obtain ⟨d, h1, h2, -⟩ := C90_distance (c := ⟨0.307, 67.7, 0.0001⟩) (by constructor <;> norm_num) (z := 3) (by norm_num)
  exact ⟨d, h1, h2 (by norm_num)⟩

/-- A universe of 5% matter. -/
example : ∃ d, Cosmo.luminosityDistance ⟨0.05, 70, 0⟩ 0.01 = some d ∧
    1.14 * luminosityDistance 0.05 70 0.01 ≤ d := by
  obtain ⟨d, h1, -, h2⟩ := C90_violated_low (c := ⟨0.05, 70, 0⟩) (by constructor <;> norm_num)
    (by norm_num) (z := 0.01) (by norm_num) (by norm_num)
  exact ⟨d, h1, h2⟩

end

end Popsynth
