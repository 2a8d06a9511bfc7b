import Verif.Lemmas.PowerLaw
import Verif.Model.Luminosity
import Mathlib.MeasureTheory.Function.JacobianOneDim
import Mathlib.Probability.Distributions.Gaussian.Real
import Mathlib.Analysis.Complex.ExponentialBounds

/-! # Lemmas about luminosity functions -/

set_option autoImplicit false
set_option linter.unusedSectionVars false

namespace Popsynth

open MeasureTheory Set intervalIntegral Spec ProbabilityTheory

noncomputable section

/-- A uniform number is at most `c` with probability `c`. -/
theorem volume_uniform_le {c : ℝ} (h0 : 0 ≤ c) (h1 : c ≤ 1) :
    volume {u : ℝ | u ∈ Ico (0 : ℝ) 1 ∧ u ≤ c} = ENNReal.ofReal c := by
  rcases eq_or_lt_of_le h1 with e | e
  · have : {u : ℝ | u ∈ Ico (0 : ℝ) 1 ∧ u ≤ c} = Ico 0 1 := by
      ext u; simp only [mem_ofPred_eq, mem_Ico]
      exact ⟨fun h => h.1, fun h => ⟨h, by rw [e]; exact h.2.le⟩⟩
    rw [this, Real.volume_Ico, e]; simp
  · have : {u : ℝ | u ∈ Ico (0 : ℝ) 1 ∧ u ≤ c} = Icc 0 c := by
      ext u; simp only [mem_ofPred_eq, mem_Ico, mem_Icc]
      exact ⟨fun h => ⟨h.1.1, h.2⟩, fun h => ⟨⟨h.1, h.2.trans_lt e⟩, h.2⟩⟩
    rw [this, Real.volume_Icc]; simp

/-- A uniform number is at least `1 - c` with probability `c`. -/
theorem volume_uniform_ge {c : ℝ} (h0 : 0 ≤ c) (h1 : c ≤ 1) :
    volume {u : ℝ | u ∈ Ioo (0 : ℝ) 1 ∧ 1 - u ≤ c} = ENNReal.ofReal c := by
  rcases eq_or_lt_of_le h1 with e | e
  · have : {u : ℝ | u ∈ Ioo (0 : ℝ) 1 ∧ 1 - u ≤ c} = Ioo 0 1 := by
      ext u; simp only [mem_ofPred_eq, mem_Ioo]
      exact ⟨fun h => h.1, fun h => ⟨h, by rw [e]; linarith [h.1]⟩⟩
    rw [this, Real.volume_Ioo, e]; simp
  · have : {u : ℝ | u ∈ Ioo (0 : ℝ) 1 ∧ 1 - u ≤ c} = Ico (1 - c) 1 := by
      ext u; simp only [mem_ofPred_eq, mem_Ioo, mem_Ico]
      exact ⟨fun h => ⟨by linarith [h.2], h.1.2⟩, fun h => ⟨⟨by linarith [h.1], h.2⟩, by linarith [h.1]⟩⟩
    rw [this, Real.volume_Ico]; simp

/-! ### Densities of exponentials of normal numbers -/

/-- The formula of both log-normal densities: the logarithm to the base `exp k` is normal. -/
def lnFormula (k mu tau x : ℝ) : ℝ :=
  1 / (tau * x * √(2 * Real.pi)) * Real.exp (-(Real.log x / k - mu) ^ 2 / (2 * tau ^ 2))

/-- The variance. -/
def tauSq (tau : ℝ) : NNReal := ⟨tau ^ 2, sq_nonneg _⟩

theorem coe_tauSq (tau : ℝ) : (tauSq tau : ℝ) = tau ^ 2 := rfl

theorem tauSq_ne {tau : ℝ} (h : 0 < tau) : tauSq tau ≠ 0 := by
  intro e
  have := congrArg NNReal.toReal e
  rw [coe_tauSq, NNReal.coe_zero] at this
  exact (pow_pos h 2).ne' this

theorem lnFormula_subst {k mu tau : ℝ} (hk : 0 < k) (ht : 0 < tau) (y : ℝ) :
    k * Real.exp (k * y) * lnFormula k mu tau (Real.exp (k * y)) =
      k * gaussianPDFReal mu (tauSq tau) y := by
  unfold lnFormula
  rw [gaussianPDFReal_def, Real.log_exp, mul_div_cancel_left₀ _ hk.ne']
  simp only [coe_tauSq]
  rw [show 2 * Real.pi * tau ^ 2 = tau ^ 2 * (2 * Real.pi) by ring,
    Real.sqrt_mul (sq_nonneg _), Real.sqrt_sq ht.le]
  have h1 : Real.exp (k * y) ≠ 0 := (Real.exp_pos _).ne'
  have h2 : √(2 * Real.pi) ≠ 0 := (Real.sqrt_pos.2 (by positivity)).ne'
  field_simp

theorem expk_image_univ {k : ℝ} (hk : 0 < k) : (fun y => Real.exp (k * y)) '' univ = Ioi 0 := by
  ext x
  constructor
  · rintro ⟨y, _, rfl⟩; exact Real.exp_pos _
  · intro hx
    refine ⟨Real.log x / k, trivial, ?_⟩
    simp only [mul_div_cancel₀ _ hk.ne', Real.exp_log hx]

theorem expk_image_Iic {k t : ℝ} (hk : 0 < k) (ht : 0 < t) :
    (fun y => Real.exp (k * y)) '' Iic (Real.log t / k) = Ioc 0 t := by
  ext x
  constructor
  · rintro ⟨y, hy, rfl⟩
    refine ⟨Real.exp_pos _, ?_⟩
    rw [mem_Iic, le_div_iff₀ hk] at hy
    have := Real.exp_le_exp.2 hy
    rw [Real.exp_log ht, mul_comm] at this
    exact this
  · intro hx
    refine ⟨Real.log x / k, ?_, ?_⟩
    · rw [mem_Iic]
      exact (div_le_div_iff_of_pos_right hk).2 (Real.log_le_log hx.1 hx.2)
    · simp only [mul_div_cancel₀ _ hk.ne', Real.exp_log hx.1]

theorem lnFormula_integral {k mu tau : ℝ} (hk : 0 < k) (ht : 0 < tau) {s : Set ℝ}
    (hs : MeasurableSet s) :
    IntegrableOn (lnFormula k mu tau) ((fun y => Real.exp (k * y)) '' s) ∧
    ∫ x in (fun y => Real.exp (k * y)) '' s, lnFormula k mu tau x =
      k * ∫ y in s, gaussianPDFReal mu (tauSq tau) y := by
  have hd : ∀ y ∈ s, HasDerivWithinAt (fun y => Real.exp (k * y)) (k * Real.exp (k * y)) s y := by
    intro y _
    have h1 : HasDerivAt (fun y : ℝ => k * y) k y := by
      simpa using (hasDerivAt_id y).const_mul k
    have := h1.exp
    rw [mul_comm] at this
    exact this.hasDerivWithinAt
  have hi : InjOn (fun y => Real.exp (k * y)) s := by
    intro a _ b _ e
    exact mul_left_cancel₀ hk.ne' (Real.exp_injective e)
  have he : ∀ y : ℝ, |k * Real.exp (k * y)| • lnFormula k mu tau (Real.exp (k * y)) =
      k * gaussianPDFReal mu (tauSq tau) y := by
    intro y
    rw [abs_of_pos (mul_pos hk (Real.exp_pos _)), smul_eq_mul, lnFormula_subst hk ht]
  constructor
  · rw [integrableOn_image_iff_integrableOn_abs_deriv_smul hs hd hi]
    simp only [he]
    exact ((integrable_gaussianPDFReal _ _).const_mul k).integrableOn
  · rw [integral_image_eq_integral_abs_deriv_smul hs hd hi]
    simp only [he]
    rw [MeasureTheory.integral_const_mul]

theorem lnFormula_univ {k mu tau : ℝ} (hk : 0 < k) (ht : 0 < tau) :
    IntegrableOn (lnFormula k mu tau) (Ioi 0) ∧ ∫ x in Ioi 0, lnFormula k mu tau x = k := by
  have := lnFormula_integral (mu := mu) hk ht MeasurableSet.univ
  rw [expk_image_univ hk] at this
  refine ⟨this.1, ?_⟩
  rw [this.2, setIntegral_univ, integral_gaussianPDFReal_eq_one _ (tauSq_ne ht), mul_one]

theorem gaussian_affine (mu tau : ℝ) :
    (gaussianReal 0 1).map (fun z => mu + tau * z) = gaussianReal mu (tauSq tau) := by
  have h1 : (gaussianReal 0 1).map (tau * ·) = gaussianReal 0 (tauSq tau) := by
    rw [gaussianReal_map_const_mul, mul_zero, mul_one]; rfl
  have h2 : (gaussianReal 0 (tauSq tau)).map (mu + ·) = gaussianReal mu (tauSq tau) := by
    rw [gaussianReal_map_const_add, zero_add]
  rw [← h2, ← h1, Measure.map_map (by fun_prop) (by fun_prop)]
  rfl

/-- The probability that `exp (k (mu + tau z))` is at most `t`. -/
theorem lnFormula_law {k mu tau t : ℝ} (hk : 0 < k) (ht : 0 < tau) (h0 : 0 < t) :
    gaussianReal 0 1 {z | Real.exp (k * (mu + tau * z)) ≤ t} =
      ENNReal.ofReal (1 / k * ∫ x in Ioc 0 t, lnFormula k mu tau x) := by
  have e : {z | Real.exp (k * (mu + tau * z)) ≤ t} =
      (fun z => mu + tau * z) ⁻¹' Iic (Real.log t / k) := by
    ext z
    rw [mem_ofPred_eq, mem_preimage, mem_Iic, le_div_iff₀ hk, mul_comm _ k,
      Real.le_log_iff_exp_le h0]
  rw [e, ← Measure.map_apply (by fun_prop) measurableSet_Iic, gaussian_affine,
    gaussianReal_apply_eq_integral _ (tauSq_ne ht), ← expk_image_Iic hk h0,
    (lnFormula_integral hk ht measurableSet_Iic).2, ← mul_assoc, one_div, inv_mul_cancel₀ hk.ne',
    one_mul]

/-! ### The incomplete gamma function -/

namespace Spec

/-- The lower incomplete gamma function. -/
def gammaInc (a x : ℝ) : ℝ := ∫ s in (0 : ℝ)..x, s ^ (a - 1) * Real.exp (-s)

/-- What `scipy.special.gammaincinv` computes for a positive first argument: the inverse of the
regularized incomplete gamma function, infinite at one. -/
structure IsGammaincinv (inv : ℝ → ℝ → Option ℝ) : Prop where
  inverse : ∀ a > 0, ∀ y ∈ Ico (0 : ℝ) 1, ∃ x ≥ 0, inv a y = some x ∧
    gammaInc a x = y * Real.Gamma a
  one : ∀ a > 0, inv a 1 = none

end Spec

theorem gammaInc_integrable {a : ℝ} (ha : 0 < a) :
    IntegrableOn (fun s : ℝ => s ^ (a - 1) * Real.exp (-s)) (Ioi 0) := by
  have := Real.GammaIntegral_convergent ha
  refine this.congr_fun (fun s _ => ?_) measurableSet_Ioi
  exact mul_comm _ _

theorem gammaInc_intervalIntegrable {a x y : ℝ} (ha : 0 < a) (hx : 0 ≤ x) (hy : 0 ≤ y) :
    IntervalIntegrable (fun s : ℝ => s ^ (a - 1) * Real.exp (-s)) volume x y := by
  rw [intervalIntegrable_iff]
  refine (gammaInc_integrable ha).mono_set fun s hs => ?_
  rw [mem_uIoc] at hs
  rcases hs with hs | hs
  · exact lt_of_le_of_lt hx hs.1
  · exact lt_of_le_of_lt hy hs.1

theorem gammaInc_strictMonoOn {a : ℝ} (ha : 0 < a) : StrictMonoOn (gammaInc a) (Ici 0) := by
  intro x hx y hy hxy
  have h1 := integral_add_adjacent_intervals
    (gammaInc_intervalIntegrable ha (le_refl (0 : ℝ)) hx) (gammaInc_intervalIntegrable ha hx hy)
  have h2 : 0 < ∫ s in x..y, s ^ (a - 1) * Real.exp (-s) := by
    refine intervalIntegral_pos_of_pos_on (gammaInc_intervalIntegrable ha hx hy) ?_ hxy
    intro s hs
    exact mul_pos (Real.rpow_pos_of_pos (lt_of_le_of_lt hx hs.1) _) (Real.exp_pos _)
  unfold gammaInc
  linarith

theorem gammaInc_nonneg {a x : ℝ} (ha : 0 < a) (hx : 0 ≤ x) : 0 ≤ gammaInc a x := by
  have h := (gammaInc_strictMonoOn ha).monotoneOn (mem_Ici.2 (le_refl 0)) (mem_Ici.2 hx) hx
  have : gammaInc a 0 = 0 := by unfold gammaInc; exact integral_same
  linarith

theorem gammaInc_le {a x : ℝ} (ha : 0 < a) (hx : 0 ≤ x) : gammaInc a x ≤ Real.Gamma a := by
  have e : Real.Gamma a = ∫ s in Ioi (0 : ℝ), s ^ (a - 1) * Real.exp (-s) := by
    rw [Real.Gamma_eq_integral ha]
    exact setIntegral_congr_fun measurableSet_Ioi fun s _ => mul_comm _ _
  unfold gammaInc
  rw [e, integral_of_le hx]
  refine setIntegral_mono_set (gammaInc_integrable ha) ?_ Ioc_subset_Ioi_self.eventuallyLE
  refine (ae_restrict_iff' measurableSet_Ioi).2 (Filter.Eventually.of_forall fun s hs => ?_)
  exact mul_nonneg (Real.rpow_nonneg (mem_Ioi.1 hs).le _) (Real.exp_pos _).le

end

end Popsynth
