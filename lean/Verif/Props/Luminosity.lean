import Verif.Lemmas.Luminosity
import Verif.Props.PowerLaw

/-!
# Luminosity functions are normalized densities and their draws follow them (C50)
-/

set_option autoImplicit false
set_option linter.unusedSectionVars false

namespace Popsynth

open MeasureTheory Set intervalIntegral Spec ProbabilityTheory

noncomputable section

namespace Spec

/-- `phi` is a normalized density on `s`: there it is a non-negative number, and it integrates
to one. -/
structure DensityOn (phi : ℝ → Option ℝ) (s : Set ℝ) : Prop where
  nonneg : ∀ x ∈ s, ∃ v ≥ 0, phi x = some v
  integrable : IntegrableOn (fun x => (phi x).getD 0) s
  one : ∫ x in s, (phi x).getD 0 = 1

/-- The mass of `phi` on `s` up to `t`. -/
def massUpTo (phi : ℝ → Option ℝ) (s : Set ℝ) (t : ℝ) : ℝ :=
  ∫ x in s ∩ Iic t, (phi x).getD 0

end Spec

/-! ### Pareto -/

theorem paretoPhi_eq {lmin alpha x : ℝ} (hl : 0 < lmin) (hx : lmin ≤ x) :
    paretoPhi .float lmin alpha x = some (alpha * lmin ^ alpha * x ^ (-(alpha + 1))) := by
  have hx0 : 0 < x := hl.trans_le hx
  unfold paretoPhi
  simp only [if_pos hx, npPow_pos hl, npPow_pos hx0, Option.bind_eq_bind, Option.bind_some,
    npDiv_ne (Real.rpow_pos_of_pos hx0 (alpha + 1)).ne', Option.pure_def, NpDtype.store]
  rw [Real.rpow_neg hx0.le, ← div_eq_mul_inv]

theorem pareto_massUpTo {lmin alpha t : ℝ} (hl : 0 < lmin) (ha : 0 < alpha) (ht : lmin ≤ t) :
    massUpTo (paretoPhi .float lmin alpha) (Ici lmin) t =
      1 - Real.exp (-(alpha * Real.log (t / lmin))) := by
  have ht0 : 0 < t := hl.trans_le ht
  have hs : Ici lmin ∩ Iic t = Icc lmin t := rfl
  unfold massUpTo
  rw [hs, setIntegral_congr_fun (g := fun x => alpha * lmin ^ alpha * x ^ (-(alpha + 1)))
    measurableSet_Icc (fun x hx => by simp only [paretoPhi_eq hl hx.1, Option.getD_some]),
    integral_Icc_eq_integral_Ioc, ← integral_of_le ht, intervalIntegral.integral_const_mul]
  have e := plMass_eq (a := -(alpha + 1)) hl ht0 (by intro e; linarith)
  unfold plMass at e
  rw [e, show -(alpha + 1) + 1 = -alpha by ring]
  have hp : 0 < lmin ^ alpha := Real.rpow_pos_of_pos hl _
  have hq : 0 < t ^ alpha := Real.rpow_pos_of_pos ht0 _
  have : Real.exp (-(alpha * Real.log (t / lmin))) = lmin ^ alpha / t ^ alpha := by
    rw [← Real.div_rpow hl.le ht0.le, Real.rpow_def_of_pos (div_pos hl ht0),
      Real.log_div ht0.ne' hl.ne', Real.log_div hl.ne' ht0.ne']
    congr 1; ring
  rw [this, Real.rpow_neg ht0.le, Real.rpow_neg hl.le]
  field_simp
  ring

/-- **C50**, Pareto: for a positive minimum and a positive index the function is a normalized
density on the luminosities from the minimum on, and zero below. -/
theorem C50_pareto_partial {lmin alpha : ℝ} (hl : 0 < lmin) (ha : 0 < alpha) :
    DensityOn (paretoPhi .float lmin alpha) (Ici lmin) ∧
    ∀ x < lmin, paretoPhi .float lmin alpha x = some 0 := by
  have hp : 0 < lmin ^ alpha := Real.rpow_pos_of_pos hl _
  have heq : EqOn (fun x => alpha * lmin ^ alpha * x ^ (-(alpha + 1)))
      (fun x => (paretoPhi .float lmin alpha x).getD 0) (Ici lmin) := fun x hx => by
    simp only [paretoPhi_eq hl hx, Option.getD_some]
  have hlt : -(alpha + 1) < -1 := by linarith
  refine ⟨⟨fun x hx => ⟨_, ?_, paretoPhi_eq hl hx⟩, ?_, ?_⟩, fun x hx => ?_⟩
  · exact mul_nonneg (mul_pos ha hp).le (Real.rpow_nonneg (hl.le.trans hx) _)
  · rw [integrableOn_Ici_iff_integrableOn_Ioi]
    exact IntegrableOn.congr_fun ((integrableOn_Ioi_rpow_of_lt hlt hl).const_mul _)
      (fun x hx => heq (le_of_lt (mem_Ioi.1 hx))) measurableSet_Ioi
  · rw [← setIntegral_congr_fun measurableSet_Ici heq, integral_Ici_eq_integral_Ioi,
      MeasureTheory.integral_const_mul, integral_Ioi_rpow_of_lt hlt hl,
      show -(alpha + 1) + 1 = -alpha by ring, Real.rpow_neg hl.le]
    field_simp
  · unfold paretoPhi
    rw [if_neg (not_le.2 hx)]
    rfl

/-- **C50**, Pareto: draws are at least the minimum and follow the density. -/
theorem C50_pareto_draw_partial {lmin alpha : ℝ} (hl : 0 < lmin) (ha : 0 < alpha) :
    ∃ S : ℝ → ℝ, (∀ u, paretoDraw lmin alpha u = .ok (S u)) ∧
      (∀ u ∈ Ico (0 : ℝ) 1, S u ∈ Ici lmin) ∧
      ∀ t ∈ Ici lmin, volume {u : ℝ | u ∈ Ico (0 : ℝ) 1 ∧ S u ≤ t} =
        ENNReal.ofReal (massUpTo (paretoPhi .float lmin alpha) (Ici lmin) t) := by
  refine ⟨fun u => Real.exp (-Real.log (1 - u) / alpha) * lmin, ?_, ?_, ?_⟩
  · intro u
    unfold paretoDraw npPareto
    rw [if_pos ha]
    simp only [bind, Except.bind, pure, Except.pure, sub_add_cancel]
  · intro u hu
    have h1 : Real.log (1 - u) ≤ 0 := Real.log_nonpos (by linarith [hu.2]) (by linarith [hu.1])
    have h2 : 0 ≤ -Real.log (1 - u) / alpha := div_nonneg (by linarith) ha.le
    have := Real.one_le_exp h2
    rw [mem_Ici]
    nlinarith
  · intro t ht
    have ht0 : 0 < t := hl.trans_le ht
    have hlog : 0 ≤ Real.log (t / lmin) := Real.log_nonneg ((one_le_div hl).2 ht)
    rw [pareto_massUpTo hl ha ht]
    have hc1 : Real.exp (-(alpha * Real.log (t / lmin))) ≤ 1 := by
      rw [Real.exp_le_one_iff]; linarith [mul_nonneg ha.le hlog]
    have hc0 := Real.exp_pos (-(alpha * Real.log (t / lmin)))
    rw [← volume_uniform_le (by linarith) (by linarith)]
    congr 1
    ext u
    simp only [mem_ofPred_eq]
    refine and_congr_right fun hu => ?_
    have hu1 : 0 < 1 - u := by linarith [hu.2]
    rw [← le_div_iff₀ hl, ← Real.le_log_iff_exp_le (div_pos ht0 hl), div_le_iff₀ ha]
    constructor
    · intro h
      have : -(alpha * Real.log (t / lmin)) ≤ Real.log (1 - u) := by linarith
      have := (Real.le_log_iff_exp_le hu1).1 this
      linarith
    · intro h
      have : Real.exp (-(alpha * Real.log (t / lmin))) ≤ 1 - u := by linarith
      have := (Real.le_log_iff_exp_le hu1).2 this
      linarith

/-- **C50 is violated** by negative and vanishing Pareto indices, which the parameter accepts:
the function is negative everywhere on its support, or vanishes, and no luminosity can be
drawn. -/
theorem C50_violated_pareto_index {lmin alpha : ℝ} (hl : 0 < lmin) (ha : alpha ≤ 0) :
    (∀ x ∈ Ici lmin, ∃ v, paretoPhi .float lmin alpha x = some v ∧ v ≤ 0 ∧ (alpha < 0 → v < 0)) ∧
    (∀ u, paretoDraw lmin alpha u = .error .value) ∧
    ¬ DensityOn (paretoPhi .float lmin alpha) (Ici lmin) := by
  have hp : 0 < lmin ^ alpha := Real.rpow_pos_of_pos hl _
  have key : ∀ x ∈ Ici lmin, ∃ v, paretoPhi .float lmin alpha x = some v ∧ v ≤ 0 ∧
      (alpha < 0 → v < 0) := by
    intro x hx
    have hq : 0 < x ^ (-(alpha + 1)) := Real.rpow_pos_of_pos (hl.trans_le hx) _
    refine ⟨_, paretoPhi_eq hl hx, ?_, fun h => ?_⟩
    · exact mul_nonpos_of_nonpos_of_nonneg (mul_nonpos_of_nonpos_of_nonneg ha hp.le) hq.le
    · exact mul_neg_of_neg_of_pos (mul_neg_of_neg_of_pos h hp) hq
  refine ⟨key, fun u => ?_, fun h => ?_⟩
  · unfold paretoDraw npPareto
    rw [if_neg (not_lt.2 ha)]
    rfl
  · have : ∫ x in Ici lmin, (paretoPhi .float lmin alpha x).getD 0 ≤ 0 := by
      refine setIntegral_nonpos measurableSet_Ici fun x hx => ?_
      obtain ⟨v, e, hv, _⟩ := key x hx
      rw [e]; exact hv
    rw [h.one] at this
    linarith

/-- **C50 is violated** for arrays of integers: the Pareto density at 2, 3, 4, … is computed as
zero although it is positive. -/
theorem C50_violated_pareto_int (n : ℕ) (hn : 2 ≤ n) :
    paretoPhi .int 1 1 n = some 0 ∧ ∃ v > 0, paretoPhi .float 1 1 n = some v := by
  have h1 : (1 : ℝ) ≤ n := by exact_mod_cast (by omega : 1 ≤ n)
  have h2 : (2 : ℝ) ≤ n := by exact_mod_cast hn
  have hn0 : (0 : ℝ) < n := by linarith
  constructor
  · unfold paretoPhi
    simp only [if_pos h1, npPow_pos one_pos, npPow_pos hn0, Option.bind_eq_bind, Option.bind_some,
      npDiv_ne (Real.rpow_pos_of_pos hn0 ((1 : ℝ) + 1)).ne', Option.pure_def, NpDtype.store,
      Real.one_rpow, mul_one]
    have e : (n : ℝ) ^ ((1 : ℝ) + 1) = (n : ℝ) ^ 2 := by
      rw [show (1 : ℝ) + 1 = (2 : ℕ) by norm_num, Real.rpow_natCast]
    have hpos : (0 : ℝ) < (n : ℝ) ^ 2 := by positivity
    rw [e, if_pos (by positivity)]
    have f : ⌊(1 : ℝ) / (n : ℝ) ^ 2⌋ = 0 := by
      rw [Int.floor_eq_iff]
      refine ⟨by push_cast; positivity, ?_⟩
      rw [div_lt_iff₀ hpos]
      push_cast
      nlinarith
    rw [f]; simp
  · exact ⟨_, by positivity, paretoPhi_eq one_pos h1⟩

example : paretoPhi .float 1 1 2 = some (1 / 4) := by
  rw [paretoPhi_eq one_pos (by norm_num), Real.one_rpow, show -((1 : ℝ) + 1) = -(2 : ℕ) by norm_num,
    Real.rpow_neg (by norm_num), Real.rpow_natCast]
  norm_num

/-! ### Schechter -/

theorem sfGamma_pos {a : ℝ} (ha : 0 < a) : sfGamma a = some (Real.Gamma a) := by
  unfold sfGamma
  rw [if_neg]
  rintro ⟨n, e⟩
  have : (0 : ℝ) ≤ n := n.cast_nonneg
  linarith

theorem schechterPhi_eq {lmin alpha x : ℝ} (hl : 0 < lmin) (ha : -1 < alpha) (hx : 0 < x) :
    schechterPhi lmin alpha x =
      some (x ^ alpha * Real.exp (-x / lmin) / (lmin ^ (1 + alpha) * Real.Gamma (1 + alpha))) := by
  have h1 : 0 < 1 + alpha := by linarith
  have h2 : lmin ^ (1 + alpha) * Real.Gamma (1 + alpha) ≠ 0 :=
    (mul_pos (Real.rpow_pos_of_pos hl _) (Real.Gamma_pos_of_pos h1)).ne'
  unfold schechterPhi
  simp only [npPow_pos hx, npDiv_ne hl.ne', npPow_pos hl, sfGamma_pos h1, Option.bind_eq_bind,
    Option.bind_some, npDiv_ne h2]

/-- The part of the Schechter function without its constant. -/
theorem schechter_kernel {lmin alpha : ℝ} (hl : 0 < lmin) (x : ℝ) (hx : 0 < x) :
    x ^ alpha * Real.exp (-x / lmin) =
      lmin ^ alpha * ((x / lmin) ^ ((1 + alpha) - 1) * Real.exp (-(x / lmin))) := by
  rw [add_sub_cancel_left, Real.div_rpow hx.le hl.le, neg_div]
  have : lmin ^ alpha ≠ 0 := (Real.rpow_pos_of_pos hl _).ne'
  field_simp

theorem schechter_massUpTo {lmin alpha t : ℝ} (hl : 0 < lmin) (ha : -1 < alpha) (ht : 0 < t) :
    massUpTo (schechterPhi lmin alpha) (Ioi 0) t =
      gammaInc (1 + alpha) (t / lmin) / Real.Gamma (1 + alpha) := by
  have h1 : 0 < 1 + alpha := by linarith
  have hs : Ioi 0 ∩ Iic t = Ioc 0 t := rfl
  unfold massUpTo
  rw [hs, setIntegral_congr_fun (g := fun x => 1 / (lmin ^ (1 + alpha) * Real.Gamma (1 + alpha)) *
      (lmin ^ alpha * ((x / lmin) ^ ((1 + alpha) - 1) * Real.exp (-(x / lmin)))))
    measurableSet_Ioc (fun x hx => ?_), ← integral_of_le ht.le,
    intervalIntegral.integral_const_mul, intervalIntegral.integral_const_mul]
  · have e := intervalIntegral.integral_comp_div (a := 0) (b := t)
      (f := fun s : ℝ => s ^ ((1 + alpha) - 1) * Real.exp (-s)) hl.ne'
    simp only [zero_div, smul_eq_mul] at e
    rw [e]
    unfold gammaInc
    have hg : Real.Gamma (1 + alpha) ≠ 0 := (Real.Gamma_pos_of_pos h1).ne'
    have hp : lmin ^ alpha ≠ 0 := (Real.rpow_pos_of_pos hl _).ne'
    rw [Real.rpow_add hl, Real.rpow_one]
    field_simp
  · simp only [schechterPhi_eq hl ha hx.1, Option.getD_some]
    rw [← schechter_kernel hl x hx.1]
    ring

/-- **C50**, Schechter: for a positive scale and an index above -1 the function is a normalized
density on the positive luminosities. -/
theorem C50_schechter_partial {lmin alpha : ℝ} (hl : 0 < lmin) (ha : -1 < alpha) :
    DensityOn (schechterPhi lmin alpha) (Ioi 0) := by
  have h1 : 0 < 1 + alpha := by linarith
  have hg := Real.Gamma_pos_of_pos h1
  have hp : 0 < lmin ^ (1 + alpha) := Real.rpow_pos_of_pos hl _
  have hint := Real.integral_rpow_mul_exp_neg_mul_Ioi h1 (one_div_pos.2 hl)
  have heq : EqOn (fun x => 1 / (lmin ^ (1 + alpha) * Real.Gamma (1 + alpha)) *
      (x ^ (1 + alpha - 1) * Real.exp (-(1 / lmin * x))))
      (fun x => (schechterPhi lmin alpha x).getD 0) (Ioi 0) := fun x hx => by
    simp only [schechterPhi_eq hl ha hx, Option.getD_some]
    rw [add_sub_cancel_left, show -(1 / lmin * x) = -x / lmin by ring]
    ring
  refine ⟨fun x hx => ⟨_, ?_, schechterPhi_eq hl ha hx⟩, ?_, ?_⟩
  · exact div_nonneg (mul_nonneg (Real.rpow_nonneg (le_of_lt hx) _) (Real.exp_pos _).le)
      (mul_pos hp hg).le
  · have : IntegrableOn (fun x : ℝ => x ^ (1 + alpha - 1) * Real.exp (-(1 / lmin * x))) (Ioi 0) := by
      by_contra hn
      rw [integral_undef hn] at hint
      have : 0 < (1 / (1 / lmin)) ^ (1 + alpha) * Real.Gamma (1 + alpha) := by
        rw [one_div_one_div]; exact mul_pos hp hg
      linarith
    exact IntegrableOn.congr_fun (this.const_mul _) heq measurableSet_Ioi
  · rw [← setIntegral_congr_fun measurableSet_Ioi heq, MeasureTheory.integral_const_mul, hint,
      one_div_one_div]
    field_simp

/-- **C50**, Schechter: with the inverse of the regularized incomplete gamma function, draws
from positive uniform numbers are non-negative and follow the density; the uniform number zero
gives an infinite luminosity. -/
theorem C50_schechter_draw_partial {inv : ℝ → ℝ → Option ℝ} (hinv : IsGammaincinv inv)
    {lmin alpha : ℝ} (hl : 0 < lmin) (ha : -1 < alpha) :
    ∃ S : ℝ → ℝ, (∀ u ∈ Ioo (0 : ℝ) 1, schechterDraw inv lmin alpha u = some (S u) ∧ 0 < S u) ∧
      schechterDraw inv lmin alpha 0 = none ∧
      ∀ t > 0, volume {u : ℝ | u ∈ Ioo (0 : ℝ) 1 ∧ S u ≤ t} =
        ENNReal.ofReal (massUpTo (schechterPhi lmin alpha) (Ioi 0) t) := by
  have h1 : 0 < 1 + alpha := by linarith
  have hg := Real.Gamma_pos_of_pos h1
  have hx : ∀ u ∈ Ioo (0 : ℝ) 1, ∃ x ≥ 0, inv (1 + alpha) (1 - u) = some x ∧
      gammaInc (1 + alpha) x = (1 - u) * Real.Gamma (1 + alpha) := fun u hu =>
    hinv.inverse _ h1 _ ⟨by linarith [hu.2], by linarith [hu.1]⟩
  choose! X hX0 hXi hXg using hx
  refine ⟨fun u => lmin * X u, fun u hu => ⟨?_, ?_⟩, ?_, fun t ht => ?_⟩
  · unfold schechterDraw
    rw [hXi u hu]
    rfl
  · refine mul_pos hl (lt_of_le_of_ne (hX0 u hu) fun e => ?_)
    have := hXg u hu
    rw [← e] at this
    unfold gammaInc at this
    rw [integral_same] at this
    exact (mul_pos (by linarith [hu.2] : (0 : ℝ) < 1 - u) hg).ne this
  · unfold schechterDraw
    rw [sub_zero, hinv.one _ h1]
    rfl
  · have htl : 0 ≤ t / lmin := (div_pos ht hl).le
    rw [schechter_massUpTo hl ha ht, ← volume_uniform_ge
      (div_nonneg (gammaInc_nonneg h1 htl) hg.le) ((div_le_one hg).2 (gammaInc_le h1 htl))]
    congr 1
    ext u
    simp only [mem_ofPred_eq]
    refine and_congr_right fun hu => ?_
    rw [mul_comm lmin, ← le_div_iff₀ hl,
      ← (gammaInc_strictMonoOn h1).le_iff_le (mem_Ici.2 (hX0 u hu)) (mem_Ici.2 htl), hXg u hu,
      le_div_iff₀ hg]

/-- **C50 is violated** by Schechter indices of at most -1, which the parameter accepts: at -1
the function is not a number, and at -3/2 it is negative everywhere. -/
theorem C50_violated_schechter {lmin : ℝ} (hl : 0 < lmin) :
    (∀ x > 0, schechterPhi lmin (-1) x = none) ∧
    (∀ x > 0, ∃ v < 0, schechterPhi lmin (-3 / 2) x = some v) ∧
    ¬ DensityOn (schechterPhi lmin (-3 / 2)) (Ioi 0) := by
  have hg : Real.Gamma (1 + -3 / 2) < 0 := by
    have h := Real.Gamma_add_one (s := -1 / 2) (by norm_num)
    have h2 : 0 < Real.Gamma (-1 / 2 + 1) := Real.Gamma_pos_of_pos (by norm_num)
    rw [show (1 + -3 / 2 : ℝ) = -1 / 2 by norm_num]
    nlinarith
  have key : ∀ x > 0, ∃ v < 0, schechterPhi lmin (-3 / 2) x = some v := by
    intro x hx
    have hp : ∀ a : ℝ, 0 < lmin ^ a := fun a => Real.rpow_pos_of_pos hl _
    have hs : sfGamma (1 + -3 / 2) = some (Real.Gamma (1 + -3 / 2)) := by
      unfold sfGamma
      rw [if_neg]
      rintro ⟨n, e⟩
      have : ((2 * n : ℕ) : ℝ) = (1 : ℕ) := by push_cast; linarith
      have := Nat.cast_injective this
      omega
    refine ⟨x ^ (-3 / 2 : ℝ) * Real.exp (-x / lmin) /
      (lmin ^ (1 + -3 / 2 : ℝ) * Real.Gamma (1 + -3 / 2)), ?_, ?_⟩
    · exact div_neg_of_pos_of_neg (mul_pos (Real.rpow_pos_of_pos hx _) (Real.exp_pos _))
        (mul_neg_of_pos_of_neg (hp _) hg)
    · unfold schechterPhi
      simp only [npPow_pos hx, npDiv_ne hl.ne', npPow_pos hl, hs, Option.bind_eq_bind,
        Option.bind_some]
      rw [npDiv_ne (mul_neg_of_pos_of_neg (hp _) hg).ne]
  refine ⟨fun x hx => ?_, key, fun h => ?_⟩
  · have hs : sfGamma (1 + -1) = none := by
      unfold sfGamma
      rw [if_pos ⟨0, by norm_num⟩]
    unfold schechterPhi
    simp only [npPow_pos hx, npDiv_ne hl.ne', npPow_pos hl, hs, Option.bind_eq_bind,
      Option.bind_some, Option.bind_none]
  · obtain ⟨v, hv, e⟩ := key 1 one_pos
    obtain ⟨w, hw, e'⟩ := h.nonneg 1 (mem_Ioi.2 one_pos)
    rw [e] at e'
    cases e'
    exact absurd hw (not_le.2 hv)

/-- With index 0 the Schechter function is an exponential density. -/
example : schechterPhi 2 0 4 = some (Real.exp (-2) / 2) := by
  rw [schechterPhi_eq (by norm_num) (by norm_num) (by norm_num)]
  norm_num [Real.Gamma_one]

/-! ### Log-normal -/

theorem logNormalPhi_eq {mu tau x : ℝ} (ht : 0 < tau) (hx : 0 < x) :
    logNormalPhi mu tau x = some (lnFormula 1 mu tau x) := by
  have h2 : 0 < √(2 * Real.pi) := Real.sqrt_pos.2 (by positivity)
  unfold logNormalPhi npLog lnFormula
  simp only [if_pos hx, npDiv_ne (mul_pos (mul_pos ht hx) h2).ne',
    npDiv_ne (show 2 * tau ^ 2 ≠ 0 by positivity), Option.bind_eq_bind, Option.bind_some,
    Option.pure_def, div_one]

theorem log10NormalPhi_eq {mu tau x : ℝ} (ht : 0 < tau) (hx : 0 < x) :
    log10NormalPhi mu tau x = some (lnFormula (Real.log 10) mu tau x) := by
  have h2 : 0 < √(2 * Real.pi) := Real.sqrt_pos.2 (by positivity)
  unfold log10NormalPhi npLog10 lnFormula Real.logb
  simp only [if_pos hx, npDiv_ne (mul_pos (mul_pos ht hx) h2).ne',
    npDiv_ne (show 2 * tau ^ 2 ≠ 0 by positivity), Option.bind_eq_bind, Option.bind_some,
    Option.pure_def]

theorem lnFormula_nonneg {k mu tau x : ℝ} (ht : 0 < tau) (hx : 0 < x) :
    0 ≤ lnFormula k mu tau x := by
  unfold lnFormula
  positivity

/-- **C50**, log-normal: for a positive width the function is a normalized density on the
positive luminosities, and draws are positive and follow it. -/
theorem C50_logNormal_partial {mu tau : ℝ} (ht : 0 < tau) :
    DensityOn (logNormalPhi mu tau) (Ioi 0) ∧
    ∃ S : ℝ → ℝ, (∀ z, logNormalDraw mu tau z = .ok (S z) ∧ 0 < S z) ∧
      ∀ t > 0, gaussianReal 0 1 {z | S z ≤ t} =
        ENNReal.ofReal (massUpTo (logNormalPhi mu tau) (Ioi 0) t) := by
  have heq : EqOn (lnFormula 1 mu tau) (fun x => (logNormalPhi mu tau x).getD 0) (Ioi 0) :=
    fun x hx => by simp only [logNormalPhi_eq ht hx, Option.getD_some]
  obtain ⟨hi, ho⟩ := lnFormula_univ (mu := mu) one_pos ht
  refine ⟨⟨fun x hx => ⟨_, lnFormula_nonneg ht hx, logNormalPhi_eq ht hx⟩,
    hi.congr_fun heq measurableSet_Ioi, ?_⟩, fun z => Real.exp (mu + tau * z),
    fun z => ⟨?_, Real.exp_pos _⟩, fun t h0 => ?_⟩
  · rw [← setIntegral_congr_fun measurableSet_Ioi heq, ho]
  · unfold logNormalDraw; rw [if_neg (not_lt.2 ht.le)]
  · have := lnFormula_law (mu := mu) one_pos ht h0
    simp only [one_mul, div_one] at this
    rw [this]
    unfold massUpTo
    rw [show Ioi 0 ∩ Iic t = Ioc 0 t from rfl]
    rw [setIntegral_congr_fun measurableSet_Ioc fun x hx => heq hx.1]

/-- **C50 is violated** by a width of zero, which the parameter accepts: nothing is a number. -/
theorem C50_violated_width (mu x : ℝ) :
    logNormalPhi mu 0 x = none ∧ log10NormalPhi mu 0 x = none := by
  have : ∀ y : ℝ, npDiv 1 (0 * x * y) = none := by
    intro y; unfold npDiv; rw [if_pos (by ring)]
  constructor
  · unfold logNormalPhi; rw [this]; rfl
  · unfold log10NormalPhi; rw [this]; rfl

/-- **C50**, log10-normal: the function is non-negative, draws are positive, and they follow the
function divided by the logarithm of ten.  Missing: the function itself is not normalized, see
`C50_violated_log10`. -/
theorem C50_log10Normal_partial {mu tau : ℝ} (ht : 0 < tau) :
    (∀ x > 0, ∃ v ≥ 0, log10NormalPhi mu tau x = some v) ∧
    ∃ S : ℝ → ℝ, (∀ z, log10NormalDraw mu tau z = .ok (S z) ∧ 0 < S z) ∧
      ∀ t > 0, gaussianReal 0 1 {z | S z ≤ t} =
        ENNReal.ofReal (1 / Real.log 10 * massUpTo (log10NormalPhi mu tau) (Ioi 0) t) := by
  have h10 : 0 < Real.log 10 := Real.log_pos (by norm_num)
  refine ⟨fun x hx => ⟨_, lnFormula_nonneg ht hx, log10NormalPhi_eq ht hx⟩,
    fun z => (10 : ℝ) ^ (mu + tau * z), fun z => ⟨?_, Real.rpow_pos_of_pos (by norm_num) _⟩,
    fun t h0 => ?_⟩
  · unfold log10NormalDraw; rw [if_neg (not_lt.2 ht.le)]
  · have := lnFormula_law (mu := mu) h10 ht h0
    unfold massUpTo
    rw [show Ioi 0 ∩ Iic t = Ioc 0 t from rfl,
      setIntegral_congr_fun (g := lnFormula (Real.log 10) mu tau) measurableSet_Ioc fun x hx => by
        simp only [log10NormalPhi_eq ht hx.1, Option.getD_some], ← this]
    simp only [Real.rpow_def_of_pos (show (0 : ℝ) < 10 by norm_num)]

/-- **C50 is violated** by every log10-normal luminosity function: it integrates to the
logarithm of ten, about 2.3, instead of one. -/
theorem C50_violated_log10 {mu tau : ℝ} (ht : 0 < tau) :
    ∫ x in Ioi 0, (log10NormalPhi mu tau x).getD 0 = Real.log 10 ∧ 2 < Real.log 10 ∧
    ¬ DensityOn (log10NormalPhi mu tau) (Ioi 0) := by
  have h10 : 0 < Real.log 10 := Real.log_pos (by norm_num)
  have h2 : 2 < Real.log 10 := by
    have h8 : Real.log 8 = 3 * Real.log 2 := by
      rw [show (8 : ℝ) = 2 ^ 3 by norm_num, Real.log_pow]; norm_num
    have := Real.log_lt_log (show (0 : ℝ) < 8 by norm_num) (show (8 : ℝ) < 10 by norm_num)
    have := Real.log_two_gt_d9
    linarith
  have e : ∫ x in Ioi 0, (log10NormalPhi mu tau x).getD 0 = Real.log 10 := by
    rw [← (lnFormula_univ (mu := mu) h10 ht).2]
    exact setIntegral_congr_fun measurableSet_Ioi fun x hx => by
      simp only [log10NormalPhi_eq ht hx, Option.getD_some]
  refine ⟨e, h2, fun h => ?_⟩
  rw [h.one] at e
  linarith

/-! ### Log-uniform -/

theorem logUniPhi_eq {lmin lmax x : ℝ} (hl : 0 < lmin) (hh : lmin < lmax) (hx : 0 < x) :
    logUniPhi lmin lmax x = some (1 / Real.log (lmax / lmin) * x ^ (-1 : ℝ)) := by
  have hq : 1 < lmax / lmin := (one_lt_div hl).2 hh
  unfold logUniPhi npLog
  simp only [npDiv_ne hl.ne', if_pos (zero_lt_one.trans hq), Option.bind_eq_bind,
    Option.bind_some, npDiv_ne (mul_pos hx (Real.log_pos hq)).ne', Real.rpow_neg_one,
    Option.some.injEq]
  have := (Real.log_pos hq).ne'
  field_simp

theorem logUni_massUpTo {lmin lmax t : ℝ} (hl : 0 < lmin) (hh : lmin < lmax)
    (ht : t ∈ Icc lmin lmax) :
    massUpTo (logUniPhi lmin lmax) (Icc lmin lmax) t =
      plMass lmin (-1) t / plMass lmin (-1) lmax := by
  unfold massUpTo
  have hs : Icc lmin lmax ∩ Iic t = Icc lmin t := by
    ext x; simp only [mem_inter_iff, mem_Icc, mem_Iic]
    exact ⟨fun h => ⟨h.1.1, h.2⟩, fun h => ⟨⟨h.1, h.2.trans ht.2⟩, h.2⟩⟩
  rw [hs, setIntegral_congr_fun (g := fun x => 1 / Real.log (lmax / lmin) * x ^ (-1 : ℝ))
    measurableSet_Icc fun x hx => by
      simp only [logUniPhi_eq hl hh (hl.trans_le hx.1), Option.getD_some],
    integral_Icc_eq_integral_Ioc, ← integral_of_le ht.1, intervalIntegral.integral_const_mul,
    plMass_log hl (hl.trans hh), one_div_mul_eq_div]
  rfl

/-- **C50**, log-uniform: for positive increasing limits the function is a normalized density
between the limits, and draws lie there and follow it. -/
theorem C50_logUniform_partial {lmin lmax : ℝ} (hl : 0 < lmin) (hh : lmin < lmax) :
    DensityOn (logUniPhi lmin lmax) (Icc lmin lmax) ∧
    ∃ S : ℝ → ℝ, (∀ u, logUniDraw lmin lmax u = .ok (S u)) ∧
      (∀ u ∈ Ico (0 : ℝ) 1, S u ∈ Icc lmin lmax) ∧
      ∀ t ∈ Icc lmin lmax, volume {u : ℝ | u ∈ Ico (0 : ℝ) 1 ∧ S u ≤ t} =
        ENNReal.ofReal (massUpTo (logUniPhi lmin lmax) (Icc lmin lmax) t) := by
  have hm : 0 < lmax := hl.trans hh
  have hq : 1 < lmax / lmin := (one_lt_div hl).2 hh
  have hlog := Real.log_pos hq
  have hpos := plMass_pos (a := -1) hl hh
  have hld := Real.log_div hm.ne' hl.ne'
  have heq : EqOn (fun x => 1 / Real.log (lmax / lmin) * x ^ (-1 : ℝ))
      (fun x => (logUniPhi lmin lmax x).getD 0) (Icc lmin lmax) := fun x hx => by
    simp only [logUniPhi_eq hl hh (hl.trans_le hx.1), Option.getD_some]
  refine ⟨⟨fun x hx => ⟨_, ?_, logUniPhi_eq hl hh (hl.trans_le hx.1)⟩, ?_, ?_⟩,
    fun u => Real.exp (Real.log lmin + u * (Real.log lmax - Real.log lmin)), ?_, ?_, ?_⟩
  · exact mul_nonneg (one_div_pos.2 hlog).le (Real.rpow_nonneg (hl.le.trans hx.1) _)
  · refine IntegrableOn.congr_fun ?_ heq measurableSet_Icc
    rw [integrableOn_Icc_iff_integrableOn_Ioc]
    exact ((intervalIntegrable_iff_integrableOn_Ioc_of_le hh.le).1
      (intervalIntegrable_pl hl hm)).const_mul _
  · have := logUni_massUpTo hl hh (t := lmax) ⟨hh.le, le_refl _⟩
    unfold massUpTo at this
    rw [inter_eq_left.2 (fun x hx => hx.2), div_self hpos.ne'] at this
    exact this
  · intro u
    unfold logUniDraw
    rw [if_pos ⟨hl, hh⟩]
  all_goals
    have hS : ∀ u ∈ Icc (0 : ℝ) 1,
        Real.exp (Real.log lmin + u * (Real.log lmax - Real.log lmin)) ∈ Icc lmin lmax ∧
        plMass lmin (-1) (Real.exp (Real.log lmin + u * (Real.log lmax - Real.log lmin))) =
          u * plMass lmin (-1) lmax := by
      intro u hu
      have hd : 0 < Real.log lmax - Real.log lmin := by rw [← hld]; exact hlog
      refine ⟨⟨?_, ?_⟩, ?_⟩
      · rw [← Real.log_le_iff_le_exp hl]
        linarith [mul_nonneg hu.1 hd.le]
      · rw [← Real.le_log_iff_exp_le hm]
        nlinarith [hu.2]
      · rw [plMass_log hl (Real.exp_pos _), plMass_log hl hm, Real.log_div (Real.exp_pos _).ne' hl.ne',
          Real.log_exp, hld]
        ring
    obtain ⟨_, _, _, _, h5⟩ := inverse_transform hh hpos
      ((plMass_strictMonoOn lmin (-1) hl).mono Icc_subset_Ici_self) (plMass_self lmin (-1)) rfl hS
  · exact fun u hu => (hS u ⟨hu.1, hu.2.le⟩).1
  · intro t ht
    rw [logUni_massUpTo hl hh ht]
    exact h5 t ht

/-- **C50 is violated** by limits in the wrong order, which the parameters accept: the function
is negative; and the function does not vanish outside its limits. -/
theorem C50_violated_logUniform {lmin lmax : ℝ} (hl : 0 < lmax) (hh : lmax < lmin) :
    (∀ x > 0, ∃ v < 0, logUniPhi lmin lmax x = some v) ∧
    (∀ x > 0, ∃ v > 0, logUniPhi lmax lmin x = some v) := by
  have hm : 0 < lmin := hl.trans hh
  constructor
  · intro x hx
    have hq : lmax / lmin < 1 := (div_lt_one hm).2 hh
    have hq0 : 0 < lmax / lmin := div_pos hl hm
    have hn : x * Real.log (lmax / lmin) < 0 := mul_neg_of_pos_of_neg hx (Real.log_neg hq0 hq)
    refine ⟨1 / (x * Real.log (lmax / lmin)), one_div_neg.2 hn, ?_⟩
    unfold logUniPhi npLog
    simp only [npDiv_ne hm.ne', if_pos hq0, Option.bind_eq_bind, Option.bind_some, npDiv_ne hn.ne]
  · intro x hx
    refine ⟨_, ?_, logUniPhi_eq hl hh hx⟩
    exact mul_pos (one_div_pos.2 (Real.log_pos ((one_lt_div hl).2 hh))) (Real.rpow_pos_of_pos hx _)

/-! ### The broken power law and a single luminosity -/

/-- **C50**, broken power law: the function is a normalized density between the limits, and
every draw lies there. -/
theorem C50_bpl_partial {lmin lbreak lmax alpha beta : ℝ}
    (h : BplParams lmin lbreak lmax alpha beta) :
    DensityOn (bplPhi .float lmin lbreak lmax alpha beta) (Icc lmin lmax) ∧
    ∀ (us : List ℝ) (coins : List Bool), (∀ u ∈ us, u ∈ Icc (0 : ℝ) 1) →
      ∃ out : List ℝ, sampleBpl us coins lmin lbreak lmax alpha beta = .ok (out.map some) ∧
        ∀ x ∈ out, x ∈ Icc lmin lmax := by
  have hle : lmin ≤ lmax := (h.lower.trans h.upper).le
  have he : ∀ x, bplPhi .float lmin lbreak lmax alpha beta x =
      some (bplDens lmin lbreak lmax alpha beta x) := fun x => by rw [C47_phi h, bplAt_eq h]
  refine ⟨⟨fun x _ => ⟨_, bplDens_nonneg h x, he x⟩, ?_, ?_⟩, fun us coins hu => ?_⟩
  · simp only [he, Option.getD_some]
    exact (bplDens_density h).integrable.integrableOn
  · simp only [he, Option.getD_some]
    rw [integral_Icc_eq_integral_Ioc, ← integral_of_le hle, (bplDens_interval h).2]
  · obtain ⟨_, _, _, _, out, e, hlen, ho⟩ := C48_inverse h us coins hu
    refine ⟨out, e, fun x hx => ?_⟩
    obtain ⟨i, hi⟩ := List.getElem?_of_mem hx
    have hlt : i < out.length := (List.getElem?_eq_some_iff.1 hi).1
    rw [hlen, lt_min_iff] at hlt
    have := ho i _ x _ (List.getElem?_eq_getElem hlt.1) (List.getElem?_eq_getElem hlt.2) hi
    split at this
    · exact ⟨this.1.1, this.1.2.trans h.upper.le⟩
    · exact ⟨h.lower.le.trans this.1.1, this.1.2⟩

/-- **C50**, a single luminosity: all draws are that luminosity, and the function is the
probability of each luminosity. -/
theorem C50_delta (lp : ℝ) :
    (∀ size, (deltaDraw lp size).length = size ∧ ∀ x ∈ deltaDraw lp size, x = lp) ∧
    ∀ x, Measure.dirac lp {x} = ENNReal.ofReal (deltaPhi lp x) := by
  refine ⟨fun size => ⟨List.length_replicate .., fun x hx => List.eq_of_mem_replicate hx⟩,
    fun x => ?_⟩
  rw [Measure.dirac_apply' _ (measurableSet_singleton x)]
  unfold deltaPhi
  by_cases e : x = lp
  · subst e; simp
  · rw [if_neg e, indicator_of_notMem (fun c => e (mem_singleton_iff.1 c).symm)]; simp

/-- Concrete parameters for all of these. -/
example : DensityOn (paretoPhi .float 3 (3 / 2)) (Ici 3) ∧
    DensityOn (schechterPhi 5 (-1 / 2)) (Ioi 0) ∧ DensityOn (logNormalPhi (-2) 3) (Ioi 0) ∧
    DensityOn (logUniPhi 1 100) (Icc 1 100) ∧
    DensityOn (bplPhi .float 1 10 100 (-1.5) (-3)) (Icc 1 100) :=
  ⟨(C50_pareto_partial (by norm_num) (by norm_num)).1,
    C50_schechter_partial (by norm_num) (by norm_num), (C50_logNormal_partial (by norm_num)).1,
    (C50_logUniform_partial (by norm_num) (by norm_num)).1,
    (C50_bpl_partial (by constructor <;> norm_num)).1⟩

end

end Popsynth
