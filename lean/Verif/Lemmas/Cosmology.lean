import Verif.Model.Cosmology
import Verif.Lemmas.PowerLaw
import Mathlib.Analysis.Calculus.Deriv.MeanValue
import Mathlib.Analysis.Calculus.Deriv.Pow
import Mathlib.Analysis.Calculus.Deriv.Inv

/-! # Lemmas about cosmological distances -/

set_option autoImplicit false
set_option linter.unusedSectionVars false

namespace Popsynth

open Set

noncomputable section

theorem npSqrt_nonneg {x : ℝ} (h : 0 ≤ x) : npSqrt x = some (√x) := by
  unfold npSqrt; rw [if_pos h]

/-- Numerator and denominator of `Phi`. -/
def phiTop (y : ℝ) : ℝ := 1 + 1.320 * y + 0.441 * (y * y) + 0.02656 * (y * y * y)
def phiBottom (y : ℝ) : ℝ := 1 + 1.392 * y + 0.5121 * (y * y) + 0.03944 * (y * y * y)

theorem phiBottom_pos {y : ℝ} (h : 0 ≤ y) : 0 < phiBottom y := by unfold phiBottom; positivity
theorem phiTop_pos {y : ℝ} (h : 0 ≤ y) : 0 < phiTop y := by unfold phiTop; positivity

theorem cosmoPhi_eq {y : ℝ} (h : 0 ≤ y) : cosmoPhi y = some (phiTop y / phiBottom y) := by
  unfold cosmoPhi
  simp only
  rw [npDiv_ne]
  · rfl
  · exact (phiBottom_pos h).ne'

/-- `s * Phi (k * s ^ 6)` as a function of `s`, the reciprocal root of `1 + z`. -/
def hFun (k s : ℝ) : ℝ := s * phiTop (k * s ^ 6) / phiBottom (k * s ^ 6)

theorem hFun_deriv (k s : ℝ) (hk : 0 ≤ k) {y : ℝ} (hy : y = k * s ^ 6) :
    HasDerivAt (hFun k) (((phiTop y + 6 * y * (1.320 + 0.441 * (2 * y) + 0.02656 * (3 * y ^ 2))) *
      phiBottom y - phiTop y * (6 * y * (1.392 + 0.5121 * (2 * y) + 0.03944 * (3 * y ^ 2)))) /
        phiBottom y ^ 2) s := by
  have hy0 : 0 ≤ y := by rw [hy]; positivity
  have hinner : HasDerivAt (fun s => k * s ^ 6) (k * (6 * s ^ 5)) s := by
    simpa using (hasDerivAt_pow 6 s).const_mul k
  have htop : HasDerivAt phiTop (1.320 + 0.441 * (2 * y) + 0.02656 * (3 * y ^ 2)) y := by
    have h1 := (hasDerivAt_id y).const_mul 1.320
    have h2 := ((hasDerivAt_pow 2 y).const_mul 0.441)
    have h3 := ((hasDerivAt_pow 3 y).const_mul 0.02656)
    have := ((h1.add h2).add h3).const_add 1
    refine (this.congr_deriv ?_).congr_of_eventuallyEq (Filter.Eventually.of_forall fun x => ?_)
    · norm_num
    · simp only [phiTop, Pi.add_apply, id]; ring
  have hbot : HasDerivAt phiBottom (1.392 + 0.5121 * (2 * y) + 0.03944 * (3 * y ^ 2)) y := by
    have h1 := (hasDerivAt_id y).const_mul 1.392
    have h2 := ((hasDerivAt_pow 2 y).const_mul 0.5121)
    have h3 := ((hasDerivAt_pow 3 y).const_mul 0.03944)
    have := ((h1.add h2).add h3).const_add 1
    refine (this.congr_deriv ?_).congr_of_eventuallyEq (Filter.Eventually.of_forall fun x => ?_)
    · norm_num
    · simp only [phiBottom, Pi.add_apply, id]; ring
  subst hy
  have hT := htop.comp s hinner
  have hB := hbot.comp s hinner
  have hN := (hasDerivAt_id s).mul hT
  have hD := hN.div hB (phiBottom_pos hy0).ne'
  refine hD.congr_deriv ?_
  simp only [Function.comp, Pi.mul_apply, id]
  congr 1
  generalize hy : k * s ^ 6 = y
  have h6 : s * (k * (6 * s ^ 5)) = 6 * y := by rw [← hy]; ring
  linear_combination ((1.320 + 0.441 * (2 * y) + 0.02656 * (3 * y ^ 2)) * phiBottom y -
    phiTop y * (1.392 + 0.5121 * (2 * y) + 0.03944 * (3 * y ^ 2))) * h6

theorem hFun_hasDerivAt (k s : ℝ) (hk : 0 ≤ k) :
    ∃ d, HasDerivAt (hFun k) d s ∧ 0 < d := by
  have hy0 : 0 ≤ k * s ^ 6 := by positivity
  refine ⟨_, hFun_deriv k s hk rfl, div_pos ?_ (pow_pos (phiBottom_pos hy0) 2)⟩
  generalize k * s ^ 6 = y at hy0
  unfold phiTop phiBottom
  ring_nf
  positivity

theorem hFun_strictMono {k : ℝ} (hk : 0 ≤ k) : StrictMono (hFun k) := by
  apply strictMono_of_deriv_pos
  intro s
  obtain ⟨d, hd, hp⟩ := hFun_hasDerivAt k s hk
  rwa [hd.deriv]

theorem hFun_continuous {k : ℝ} (hk : 0 ≤ k) : Continuous (hFun k) :=
  continuous_iff_continuousAt.2 fun s => by
    obtain ⟨d, hd, _⟩ := hFun_hasDerivAt k s hk
    exact hd.continuousAt

end

end Popsynth
