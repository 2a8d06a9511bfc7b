import Verif.Lemmas.PowerLaw

/-!
# Power laws: densities and sampling (C47, C48, C49)
-/

set_option autoImplicit false
set_option linter.unusedSectionVars false

namespace Popsynth

open MeasureTheory Set intervalIntegral Spec

noncomputable section

namespace Spec

/-- Positive, increasing limits and exponents other than -1. -/
structure BplParams (x0 x1 x2 a1 a2 : ℝ) : Prop where
  pos : 0 < x0
  lower : x0 < x1
  upper : x1 < x2
  ne1 : a1 ≠ -1
  ne2 : a2 ≠ -1

/-- `p` is a broken power law between the limits: proportional to `x ^ a1` below and to
`x ^ a2` above the break, zero outside. -/
structure IsBrokenPowerLaw (p : ℝ → ℝ) (x0 x1 x2 a1 a2 : ℝ) : Prop where
  below : ∃ k > 0, ∀ x ∈ Ioo x0 x1, p x = k * x ^ a1
  above : ∃ k > 0, ∀ x ∈ Ioo x1 x2, p x = k * x ^ a2
  outside : ∀ x, x ≤ x0 ∨ x2 ≤ x → p x = 0

/-- `p` is a probability density. -/
structure IsDensity (p : ℝ → ℝ) : Prop where
  nonneg : ∀ x, 0 ≤ p x
  integrable : Integrable p
  one : ∫ x, p x = 1

end Spec

variable {x0 x1 x2 a1 a2 : ℝ}

/-- The masses of the two pieces before normalization. -/
def bplMass1 (x0 x1 a1 : ℝ) : ℝ := plMass x0 a1 x1
def bplMass2 (x1 x2 a1 a2 : ℝ) : ℝ := x1 ^ (a1 - a2) * plMass x1 a2 x2

/-- The density `bpl` computes. -/
def bplDens (x0 x1 x2 a1 a2 x : ℝ) : ℝ :=
  (if x1 ≤ x ∧ x < x2 then x ^ a2 * x1 ^ (a1 - a2)
    else if x0 < x ∧ x < x1 then x ^ a1 else 0) *
  (1 / (bplMass1 x0 x1 a1 + bplMass2 x1 x2 a1 a2))

namespace Spec.BplParams

theorem pos1 (h : BplParams x0 x1 x2 a1 a2) : 0 < x1 := h.pos.trans h.lower
theorem pos2 (h : BplParams x0 x1 x2 a1 a2) : 0 < x2 := h.pos1.trans h.upper

theorem mass1 (h : BplParams x0 x1 x2 a1 a2) : 0 < bplMass1 x0 x1 a1 := plMass_pos h.pos h.lower

theorem mass2 (h : BplParams x0 x1 x2 a1 a2) : 0 < bplMass2 x1 x2 a1 a2 :=
  mul_pos (Real.rpow_pos_of_pos h.pos1 _) (plMass_pos h.pos1 h.upper)

theorem total (h : BplParams x0 x1 x2 a1 a2) :
    0 < bplMass1 x0 x1 a1 + bplMass2 x1 x2 a1 a2 := add_pos h.mass1 h.mass2

theorem ne1' (h : BplParams x0 x1 x2 a1 a2) : a1 + 1 ≠ 0 := fun e => h.ne1 (by linarith)
theorem ne2' (h : BplParams x0 x1 x2 a1 a2) : a2 + 1 ≠ 0 := fun e => h.ne2 (by linarith)

end Spec.BplParams

/-- What `integrate_pl` computes. -/
theorem integratePl_eq (h : BplParams x0 x1 x2 a1 a2) :
    integratePl x0 x1 x2 a1 a2 = some
      (bplMass1 x0 x1 a1 / (bplMass1 x0 x1 a1 + bplMass2 x1 x2 a1 a2),
       bplMass2 x1 x2 a1 a2 / (bplMass1 x0 x1 a1 + bplMass2 x1 x2 a1 a2),
       bplMass1 x0 x1 a1 + bplMass2 x1 x2 a1 a2) := by
  have e1 : (x1 ^ (a1 + 1) - x0 ^ (a1 + 1)) / (a1 + 1) = bplMass1 x0 x1 a1 :=
    (plMass_eq h.pos h.pos1 h.ne1).symm
  have e2 : x1 ^ (a1 - a2) * (x2 ^ (a2 + 1) - x1 ^ (a2 + 1)) / (a2 + 1) = bplMass2 x1 x2 a1 a2 := by
    unfold bplMass2
    rw [plMass_eq h.pos1 h.pos2 h.ne2, mul_div_assoc]
  unfold integratePl
  simp only [npPow_pos h.pos, npPow_pos h.pos1, npPow_pos h.pos2, npDiv_ne h.ne1', npDiv_ne h.ne2',
    e1, e2, npDiv_ne h.total.ne', Option.bind_eq_bind, Option.bind_some, Option.pure_def]

theorem bplAt_eq (h : BplParams x0 x1 x2 a1 a2) (x : ℝ) :
    bplAt .float x0 x1 x2 a1 a2 x = some (bplDens x0 x1 x2 a1 a2 x) := by
  unfold bplAt bplDens
  simp only [integratePl_eq h, npDiv_ne h.total.ne', Option.bind_eq_bind, Option.bind_some,
    Option.pure_def]
  by_cases c1 : x1 ≤ x ∧ x < x2
  · simp only [if_pos c1, npPow_pos (h.pos1.trans_le c1.1), npPow_pos h.pos1, Option.bind_some,
      NpDtype.store]
  · simp only [if_neg c1]
    by_cases c2 : x0 < x ∧ x < x1
    · simp only [if_pos c2, npPow_pos (h.pos.trans c2.1), Option.bind_some, NpDtype.store]
    · simp only [if_neg c2]

/-! ### The density -/

theorem bplDens_below (h : BplParams x0 x1 x2 a1 a2) {x : ℝ} (hx : x ∈ Ioc x0 x1) :
    bplDens x0 x1 x2 a1 a2 x = x ^ a1 * (1 / (bplMass1 x0 x1 a1 + bplMass2 x1 x2 a1 a2)) := by
  unfold bplDens
  rcases eq_or_lt_of_le hx.2 with e | e
  · subst e
    rw [if_pos ⟨le_refl _, h.upper⟩, ← Real.rpow_add h.pos1]
    congr 2; ring
  · rw [if_neg (fun c => absurd e (not_lt.2 c.1)), if_pos ⟨hx.1, e⟩]

theorem bplDens_above {x : ℝ} (hx : x ∈ Ico x1 x2) :
    bplDens x0 x1 x2 a1 a2 x =
      x ^ a2 * x1 ^ (a1 - a2) * (1 / (bplMass1 x0 x1 a1 + bplMass2 x1 x2 a1 a2)) := by
  unfold bplDens
  rw [if_pos ⟨hx.1, hx.2⟩]

theorem bplDens_outside (h : BplParams x0 x1 x2 a1 a2) {x : ℝ} (hx : x ≤ x0 ∨ x2 ≤ x) :
    bplDens x0 x1 x2 a1 a2 x = 0 := by
  unfold bplDens
  rw [if_neg, if_neg, zero_mul]
  · rintro ⟨c1, c2⟩
    rcases hx with hx | hx
    · linarith
    · linarith [h.upper]
  · rintro ⟨c1, c2⟩
    rcases hx with hx | hx
    · linarith [h.lower]
    · linarith

theorem bplDens_pos (h : BplParams x0 x1 x2 a1 a2) {x : ℝ} (hx : x ∈ Ioo x0 x2) :
    0 < bplDens x0 x1 x2 a1 a2 x := by
  have hk : 0 < 1 / (bplMass1 x0 x1 a1 + bplMass2 x1 x2 a1 a2) := one_div_pos.2 h.total
  by_cases c : x ≤ x1
  · rw [bplDens_below h ⟨hx.1, c⟩]
    exact mul_pos (Real.rpow_pos_of_pos (h.pos.trans hx.1) _) hk
  · rw [bplDens_above ⟨(not_le.1 c).le, hx.2⟩]
    exact mul_pos (mul_pos (Real.rpow_pos_of_pos (h.pos.trans hx.1) _)
      (Real.rpow_pos_of_pos h.pos1 _)) hk

theorem bplDens_nonneg (h : BplParams x0 x1 x2 a1 a2) (x : ℝ) :
    0 ≤ bplDens x0 x1 x2 a1 a2 x := by
  by_cases c : x ∈ Ioo x0 x2
  · exact (bplDens_pos h c).le
  · rw [bplDens_outside h]
    simp only [mem_Ioo, not_and_or, not_lt] at c
    exact c

theorem bplDens_continuousAt (h : BplParams x0 x1 x2 a1 a2) :
    ContinuousAt (bplDens x0 x1 x2 a1 a2) x1 := by
  rw [continuousAt_iff_continuous_left_right]
  constructor
  · have h1 : ContinuousWithinAt
        (fun x : ℝ => x ^ a1 * (1 / (bplMass1 x0 x1 a1 + bplMass2 x1 x2 a1 a2))) (Iic x1) x1 :=
      ((Real.continuousAt_rpow_const x1 a1 (.inl h.pos1.ne')).mul continuousAt_const).continuousWithinAt
    refine h1.congr_of_eventuallyEq ?_ (bplDens_below h ⟨h.lower, le_refl _⟩)
    have : Ioc x0 x1 ∈ nhdsWithin x1 (Iic x1) := Ioc_mem_nhdsLE h.lower
    filter_upwards [this] with x hx
    exact bplDens_below h hx
  · have h1 : ContinuousWithinAt (fun x : ℝ => x ^ a2 * x1 ^ (a1 - a2) *
        (1 / (bplMass1 x0 x1 a1 + bplMass2 x1 x2 a1 a2))) (Ici x1) x1 :=
      (((Real.continuousAt_rpow_const x1 a2 (.inl h.pos1.ne')).mul
        continuousAt_const).mul continuousAt_const).continuousWithinAt
    refine h1.congr_of_eventuallyEq ?_ (bplDens_above ⟨le_refl _, h.upper⟩)
    have : Ico x1 x2 ∈ nhdsWithin x1 (Ici x1) := Ico_mem_nhdsGE h.upper
    filter_upwards [this] with x hx
    exact bplDens_above hx

/-- The mass below a point of the lower piece. -/
theorem bplDens_mass_below (h : BplParams x0 x1 x2 a1 a2) {t : ℝ} (ht : t ∈ Icc x0 x1) :
    IntervalIntegrable (bplDens x0 x1 x2 a1 a2) volume x0 t ∧
    ∫ x in x0..t, bplDens x0 x1 x2 a1 a2 x =
      plMass x0 a1 t / (bplMass1 x0 x1 a1 + bplMass2 x1 x2 a1 a2) := by
  have e : EqOn (fun x : ℝ => x ^ a1 * (1 / (bplMass1 x0 x1 a1 + bplMass2 x1 x2 a1 a2)))
      (bplDens x0 x1 x2 a1 a2) (Ioo x0 t) := fun x hx =>
    (bplDens_below h ⟨hx.1, hx.2.le.trans ht.2⟩).symm
  constructor
  · have hi : IntervalIntegrable
        (fun x : ℝ => x ^ a1 * (1 / (bplMass1 x0 x1 a1 + bplMass2 x1 x2 a1 a2))) volume x0 t :=
      (intervalIntegrable_pl h.pos (h.pos.trans_le ht.1)).mul_const _
    exact hi.congr_uIoo (by rw [uIoo_of_le ht.1]; exact e)
  · rw [← integral_congr_Ioo_of_le ht.1 e, intervalIntegral.integral_mul_const, mul_one_div]
    rfl

/-- The mass of the upper piece below a point. -/
theorem bplDens_mass_above (h : BplParams x0 x1 x2 a1 a2) {t : ℝ} (ht : t ∈ Icc x1 x2) :
    IntervalIntegrable (bplDens x0 x1 x2 a1 a2) volume x1 t ∧
    ∫ x in x1..t, bplDens x0 x1 x2 a1 a2 x =
      x1 ^ (a1 - a2) * plMass x1 a2 t / (bplMass1 x0 x1 a1 + bplMass2 x1 x2 a1 a2) := by
  have e : EqOn (fun x : ℝ => x ^ a2 * x1 ^ (a1 - a2) *
      (1 / (bplMass1 x0 x1 a1 + bplMass2 x1 x2 a1 a2)))
      (bplDens x0 x1 x2 a1 a2) (Ioo x1 t) := fun x hx =>
    (bplDens_above ⟨hx.1.le, hx.2.trans_le ht.2⟩).symm
  constructor
  · have hi : IntervalIntegrable (fun x : ℝ => x ^ a2 * x1 ^ (a1 - a2) *
        (1 / (bplMass1 x0 x1 a1 + bplMass2 x1 x2 a1 a2))) volume x1 t :=
      ((intervalIntegrable_pl h.pos1 (h.pos1.trans_le ht.1)).mul_const _).mul_const _
    exact hi.congr_uIoo (by rw [uIoo_of_le ht.1]; exact e)
  · rw [← integral_congr_Ioo_of_le ht.1 e, intervalIntegral.integral_mul_const,
      intervalIntegral.integral_mul_const, mul_one_div, mul_comm (x1 ^ (a1 - a2))]
    rfl

theorem bplDens_interval (h : BplParams x0 x1 x2 a1 a2) :
    IntervalIntegrable (bplDens x0 x1 x2 a1 a2) volume x0 x2 ∧
    ∫ x in x0..x2, bplDens x0 x1 x2 a1 a2 x = 1 := by
  obtain ⟨i1, e1⟩ := bplDens_mass_below h (t := x1) ⟨h.lower.le, le_refl _⟩
  obtain ⟨i2, e2⟩ := bplDens_mass_above h (t := x2) ⟨h.upper.le, le_refl _⟩
  refine ⟨i1.trans i2, ?_⟩
  rw [← integral_add_adjacent_intervals i1 i2, e1, e2, ← add_div]
  exact div_self h.total.ne'

theorem bplDens_density (h : BplParams x0 x1 x2 a1 a2) :
    IsDensity (bplDens x0 x1 x2 a1 a2) := by
  obtain ⟨i, e⟩ := bplDens_interval h
  have hle : x0 ≤ x2 := (h.lower.trans h.upper).le
  have hz : ∀ x, x ∉ Ioc x0 x2 → bplDens x0 x1 x2 a1 a2 x = 0 := by
    intro x hx
    apply bplDens_outside h
    simp only [mem_Ioc, not_and_or, not_lt, not_le] at hx
    exact hx.imp id le_of_lt
  refine ⟨bplDens_nonneg h, ?_, ?_⟩
  · have := (intervalIntegrable_iff_integrableOn_Ioc_of_le hle).1 i
    rw [← integrable_indicator_iff measurableSet_Ioc] at this
    have e : indicator (Ioc x0 x2) (bplDens x0 x1 x2 a1 a2) = bplDens x0 x1 x2 a1 a2 := by
      funext x
      by_cases hx : x ∈ Ioc x0 x2
      · rw [indicator_of_mem hx]
      · rw [indicator_of_notMem hx, hz x hx]
    rwa [e] at this
  · rw [← setIntegral_eq_integral_of_forall_compl_eq_zero hz, ← integral_of_le hle, e]

/-- The cumulative distribution of the density. -/
theorem bplDens_Iic (h : BplParams x0 x1 x2 a1 a2) (t : ℝ) (ht : x0 ≤ t) :
    ∫ x in Iic t, bplDens x0 x1 x2 a1 a2 x = ∫ x in x0..t, bplDens x0 x1 x2 a1 a2 x := by
  have hd := (bplDens_density h).integrable
  have h0 : ∫ x in Iic x0, bplDens x0 x1 x2 a1 a2 x = 0 := by
    refine setIntegral_eq_zero_of_forall_eq_zero fun x hx => bplDens_outside h (.inl hx)
  have := integral_Iic_sub_Iic (f := bplDens x0 x1 x2 a1 a2) (μ := volume) (a := x0) (b := t)
    hd.integrableOn hd.integrableOn
  rw [h0, sub_zero] at this
  exact this

/-! ### C47 -/

/-- **C47**: `bpl` is a probability density: non-negative, continuous at the break, a broken
power law between the limits and zero outside, and it integrates to one; inside the limits it
is positive. -/
theorem C47_density (h : BplParams x0 x1 x2 a1 a2) :
    ∃ p : ℝ → ℝ, (∀ x, bplAt .float x0 x1 x2 a1 a2 x = some (p x)) ∧ IsDensity p ∧
      IsBrokenPowerLaw p x0 x1 x2 a1 a2 ∧ ContinuousAt p x1 ∧ ∀ x ∈ Ioo x0 x2, 0 < p x := by
  have hk : 0 < 1 / (bplMass1 x0 x1 a1 + bplMass2 x1 x2 a1 a2) := one_div_pos.2 h.total
  refine ⟨_, bplAt_eq h, bplDens_density h, ⟨⟨_, hk, ?_⟩,
    ⟨x1 ^ (a1 - a2) * (1 / (bplMass1 x0 x1 a1 + bplMass2 x1 x2 a1 a2)), ?_, ?_⟩, ?_⟩,
    bplDens_continuousAt h, fun x hx => bplDens_pos h hx⟩
  · intro x hx
    rw [bplDens_below h ⟨hx.1, hx.2.le⟩, mul_comm]
  · exact mul_pos (Real.rpow_pos_of_pos h.pos1 _) hk
  · intro x hx
    rw [bplDens_above ⟨hx.1.le, hx.2⟩]
    ring
  · exact fun x hx => bplDens_outside h hx

/-- **C47** (arrays): on an array of floats, `bpl` gives one value for each element, and there is one
probability density, a broken power law with these limits and indices, that it takes at all elements of
all arrays. -/
theorem C47_array (h : BplParams x0 x1 x2 a1 a2) :
    ∃ p : ℝ → ℝ, IsDensity p ∧ IsBrokenPowerLaw p x0 x1 x2 a1 a2 ∧ ∀ xs : List ℝ,
      (bpl .float x0 x1 x2 a1 a2 xs).length = xs.length ∧
      ∀ (i : Nat) (x : ℝ), xs[i]? = some x → (bpl .float x0 x1 x2 a1 a2 xs)[i]? = some (some (p x)) := by
  obtain ⟨p, h1, h2, h3, -⟩ := C47_density h
  refine ⟨p, h2, h3, fun xs => ⟨by simp [bpl], fun i x hx => ?_⟩⟩
  simp [bpl, hx, h1]

example : ∃ p : ℝ → ℝ, IsBrokenPowerLaw p 1 10 100 (-1 / 2) (-2) ∧
    (bpl .float 1 10 100 (-1 / 2) (-2) [20, 5])[1]? = some (some (p 5)) := by
  obtain ⟨p, -, h, hx⟩ := C47_array (x0 := 1) (x1 := 10) (x2 := 100) (a1 := -1 / 2) (a2 := -2)
    (by constructor <;> norm_num)
  exact ⟨p, h, (hx _).2 1 5 rfl⟩

/-- **C47**: the weights are positive and sum to one, and they are the probabilities of the two
pieces under the density. -/
theorem C47_weights (h : BplParams x0 x1 x2 a1 a2) :
    ∃ w1 w2 c, integratePl x0 x1 x2 a1 a2 = some (w1, w2, c) ∧ 0 < w1 ∧ 0 < w2 ∧ w1 + w2 = 1 ∧
      0 < c ∧
      w1 = ∫ x in x0..x1, (bplAt .float x0 x1 x2 a1 a2 x).getD 0 ∧
      w2 = ∫ x in x1..x2, (bplAt .float x0 x1 x2 a1 a2 x).getD 0 := by
  refine ⟨_, _, _, integratePl_eq h, div_pos h.mass1 h.total, div_pos h.mass2 h.total, ?_,
    h.total, ?_, ?_⟩
  · rw [← add_div]; exact div_self h.total.ne'
  · simp only [bplAt_eq h, Option.getD_some]
    rw [(bplDens_mass_below h ⟨h.lower.le, le_refl _⟩).2]
    rfl
  · simp only [bplAt_eq h, Option.getD_some]
    rw [(bplDens_mass_above h ⟨h.upper.le, le_refl _⟩).2]
    rfl

/-- **C47**: `phi` divides by the integral once more; as that is one, it is the same density. -/
theorem C47_phi (h : BplParams x0 x1 x2 a1 a2) (x : ℝ) :
    bplPhi .float x0 x1 x2 a1 a2 x = bplAt .float x0 x1 x2 a1 a2 x := by
  unfold bplPhi
  simp only [bplAt_eq h, Option.getD_some, (bplDens_interval h).2, Option.bind_eq_bind,
    Option.bind_some, npDiv_ne one_ne_zero, div_one]

/-- **C47 is violated** for arrays of integers: the values are stored in an array of integers,
so the density at 2 of the power law `x ^ (-2)` between 1 and 4, which is positive, is computed
as zero. -/
theorem C47_violated_int :
    BplParams 1 3 4 (-2) (-2) ∧ bplPhi .int 1 3 4 (-2) (-2) 2 = some 0 ∧
    ∃ v > 0, bplPhi .float 1 3 4 (-2) (-2) 2 = some v := by
  have h : BplParams 1 3 4 (-2) (-2) := by constructor <;> norm_num
  refine ⟨h, ?_, _, bplDens_pos h (x := 2) ⟨by norm_num, by norm_num⟩, ?_⟩
  · unfold bplPhi
    simp only [bplAt_eq h, Option.getD_some, (bplDens_interval h).2]
    unfold bplAt
    have c1 : ¬ ((3 : ℝ) ≤ 2 ∧ (2 : ℝ) < 4) := by norm_num
    have c2 : (1 : ℝ) < 2 ∧ (2 : ℝ) < 3 := by norm_num
    have e : (2 : ℝ) ^ (-2 : ℝ) = 1 / 4 := by
      rw [Real.rpow_neg (by norm_num)]
      norm_num
    have f : ⌊(1 / 4 : ℝ)⌋ = 0 := by
      rw [Int.floor_eq_iff]; norm_num
    simp only [integratePl_eq h, npDiv_ne h.total.ne', if_neg c1, if_pos c2,
      npPow_pos (show (0 : ℝ) < 2 by norm_num), e, NpDtype.store, Option.bind_eq_bind,
      Option.bind_some, Option.pure_def, npDiv_ne one_ne_zero]
    rw [if_pos (by norm_num), f]
    simp
  · rw [C47_phi h, bplAt_eq h]

/-! ### C48 -/

theorem pieceSample_eq {lo hi a u : ℝ} (hl : 0 < lo) (hh : lo < hi) (ha : a ≠ -1)
    (hu : u ∈ Icc (0 : ℝ) 1) :
    pieceSample lo hi a u =
      some ((u * (hi ^ (a + 1) - lo ^ (a + 1)) + lo ^ (a + 1)) ^ (1 / (1 + a))) := by
  have h1 : 1 + a ≠ 0 := fun e => ha (by linarith)
  unfold pieceSample
  simp only [npPow_pos hl, npPow_pos (hl.trans hh), npDiv_ne h1, Option.bind_eq_bind,
    Option.bind_some, npPow_pos (piece_inverse hl hh ha hu).1]

/-- The sampler of a piece inverts the cumulative mass of the power law of that piece. -/
theorem piece_spec {lo hi a : ℝ} (hl : 0 < lo) (hh : lo < hi) (ha : a ≠ -1) :
    ∃ S : ℝ → ℝ, (∀ u ∈ Icc (0 : ℝ) 1, pieceSample lo hi a u = some (S u)) ∧
      (∀ u ∈ Icc (0 : ℝ) 1, S u ∈ Icc lo hi ∧ plMass lo a (S u) = u * plMass lo a hi) ∧
      StrictMonoOn S (Icc 0 1) ∧ S 0 = lo ∧ S 1 = hi ∧
      ∀ t ∈ Icc lo hi, volume {u : ℝ | u ∈ Ico (0 : ℝ) 1 ∧ S u ≤ t} =
        ENNReal.ofReal (plMass lo a t / plMass lo a hi) := by
  have hS : ∀ u ∈ Icc (0 : ℝ) 1,
      (u * (hi ^ (a + 1) - lo ^ (a + 1)) + lo ^ (a + 1)) ^ (1 / (1 + a)) ∈ Icc lo hi ∧
      plMass lo a ((u * (hi ^ (a + 1) - lo ^ (a + 1)) + lo ^ (a + 1)) ^ (1 / (1 + a))) =
        u * plMass lo a hi := fun u hu => (piece_inverse hl hh ha hu).2
  obtain ⟨h1, h2, h3, _, h5⟩ := inverse_transform hh (plMass_pos (a := a) hl hh)
    ((plMass_strictMonoOn lo a hl).mono Icc_subset_Ici_self) (plMass_self lo a) rfl hS
  exact ⟨fun u => (u * (hi ^ (a + 1) - lo ^ (a + 1)) + lo ^ (a + 1)) ^ (1 / (1 + a)),
    fun u hu => pieceSample_eq hl hh ha hu, hS, h1, h2, h3, h5⟩

/-- **C48**: each uniform number is turned into a value of the piece chosen by its coin, such
that the cumulative probability of the density, restricted to that piece, at the value is the
uniform number. -/
theorem C48_inverse (h : BplParams x0 x1 x2 a1 a2) (us : List ℝ) (coins : List Bool)
    (hu : ∀ u ∈ us, u ∈ Icc (0 : ℝ) 1) :
    ∃ w1 w2 c, integratePl x0 x1 x2 a1 a2 = some (w1, w2, c) ∧
    ∃ out : List ℝ, sampleBpl us coins x0 x1 x2 a1 a2 = .ok (out.map some) ∧
      out.length = min us.length coins.length ∧
      ∀ (i : Nat) (u x : ℝ) (b : Bool), us[i]? = some u → coins[i]? = some b → out[i]? = some x →
        if b then x ∈ Icc x0 x1 ∧
          ∫ s in x0..x, (bplAt .float x0 x1 x2 a1 a2 s).getD 0 = u * w1
        else x ∈ Icc x1 x2 ∧
          ∫ s in x1..x, (bplAt .float x0 x1 x2 a1 a2 s).getD 0 = u * w2 := by
  obtain ⟨S1, p1, q1, _⟩ := piece_spec h.pos h.lower h.ne1
  obtain ⟨S2, p2, q2, _⟩ := piece_spec h.pos1 h.upper h.ne2
  have hw := integratePl_eq h
  refine ⟨_, _, _, hw, List.zipWith (fun u (c : Bool) => if c then S1 u else S2 u) us coins,
    ?_, by simp, ?_⟩
  · unfold sampleBpl
    rw [hw]
    have hw1 : 0 ≤ bplMass1 x0 x1 a1 / (bplMass1 x0 x1 a1 + bplMass2 x1 x2 a1 a2) ∧
        bplMass1 x0 x1 a1 / (bplMass1 x0 x1 a1 + bplMass2 x1 x2 a1 a2) ≤ 1 :=
      ⟨(div_pos h.mass1 h.total).le, by rw [div_le_one h.total]; linarith [h.mass2]⟩
    simp only [if_pos hw1]
    congr 1
    rw [List.map_zipWith]
    clear hw hw1
    induction us generalizing coins with
    | nil => rfl
    | cons u us ih =>
      cases coins with
      | nil => rfl
      | cons b coins =>
        simp only [List.zipWith_cons_cons]
        rw [ih _ fun u hm => hu u (List.mem_cons_of_mem _ hm)]
        congr 1
        have hu0 := hu u (List.mem_cons_self ..)
        cases b
        · simp only [Bool.false_eq_true, if_false]; exact p2 u hu0
        · simp only [if_true]; exact p1 u hu0
  · intro i u x b h1 h2 h3
    rw [List.getElem?_zipWith, h1, h2] at h3
    simp only [Option.some.injEq] at h3
    have hu0 := hu u (List.mem_of_getElem? h1)
    simp only [bplAt_eq h, Option.getD_some]
    cases b
    · simp only [Bool.false_eq_true, if_false] at h3 ⊢
      obtain ⟨r1, r2⟩ := q2 u hu0
      subst h3
      refine ⟨r1, ?_⟩
      rw [(bplDens_mass_above h r1).2, r2]
      unfold bplMass2
      ring
    · simp only [if_true] at h3 ⊢
      obtain ⟨r1, r2⟩ := q1 u hu0
      subst h3
      refine ⟨r1, ?_⟩
      rw [(bplDens_mass_below h r1).2, r2]
      unfold bplMass1
      ring

/-- **C48**: a coin with probability `w1` (what the Bernoulli trials are given) followed by the
inverse transform of a uniform number has the distribution of the density: the probability of a
sample up to `t` is the integral of the density up to `t`, for every `t`. -/
theorem C48_law (h : BplParams x0 x1 x2 a1 a2) :
    ∃ w1 w2 c, integratePl x0 x1 x2 a1 a2 = some (w1, w2, c) ∧
    ∃ S : Bool → ℝ → ℝ,
      (∀ b, ∀ u ∈ Ico (0 : ℝ) 1, sampleBpl [u] [b] x0 x1 x2 a1 a2 = .ok [some (S b u)]) ∧
      ∀ t : ℝ, w1 * (volume {u : ℝ | u ∈ Ico (0 : ℝ) 1 ∧ S true u ≤ t}).toReal +
          w2 * (volume {u : ℝ | u ∈ Ico (0 : ℝ) 1 ∧ S false u ≤ t}).toReal =
        ∫ x in Iic t, (bplAt .float x0 x1 x2 a1 a2 x).getD 0 := by
  obtain ⟨S1, p1, q1, _, _, _, v1⟩ := piece_spec h.pos h.lower h.ne1
  obtain ⟨S2, p2, q2, m2, z2, _, v2⟩ := piece_spec h.pos1 h.upper h.ne2
  have hw := integratePl_eq h
  refine ⟨_, _, _, hw, fun b => if b then S1 else S2, ?_, ?_⟩
  · intro b u hu
    have hw1 : 0 ≤ bplMass1 x0 x1 a1 / (bplMass1 x0 x1 a1 + bplMass2 x1 x2 a1 a2) ∧
        bplMass1 x0 x1 a1 / (bplMass1 x0 x1 a1 + bplMass2 x1 x2 a1 a2) ≤ 1 :=
      ⟨(div_pos h.mass1 h.total).le, by rw [div_le_one h.total]; linarith [h.mass2]⟩
    unfold sampleBpl
    rw [hw]
    simp only [if_pos hw1, List.zipWith_cons_cons, List.zipWith_nil_left]
    cases b
    · simp only [Bool.false_eq_true, if_false]; rw [p2 u ⟨hu.1, hu.2.le⟩]
    · simp only [if_true]; rw [p1 u ⟨hu.1, hu.2.le⟩]
  · intro t
    simp only [bplAt_eq h, Option.getD_some, if_true, Bool.false_eq_true, if_false]
    have hm1 := h.mass1
    have hm2 := h.mass2
    have ht := h.total
    have all : ∀ S : ℝ → ℝ, (∀ u ∈ Ico (0 : ℝ) 1, S u ≤ t) →
        (volume {u : ℝ | u ∈ Ico (0 : ℝ) 1 ∧ S u ≤ t}).toReal = 1 := by
      intro S hS
      have : {u : ℝ | u ∈ Ico (0 : ℝ) 1 ∧ S u ≤ t} = Ico 0 1 := by
        ext u; exact ⟨fun h => h.1, fun h => ⟨h, hS u h⟩⟩
      rw [this, Real.volume_Ico]; simp
    have none' : ∀ S : ℝ → ℝ, (∀ u ∈ Ico (0 : ℝ) 1, t < S u) →
        (volume {u : ℝ | u ∈ Ico (0 : ℝ) 1 ∧ S u ≤ t}).toReal = 0 := by
      intro S hS
      have : {u : ℝ | u ∈ Ico (0 : ℝ) 1 ∧ S u ≤ t} = ∅ := by
        ext u; exact ⟨fun h => absurd h.2 (not_le.2 (hS u h.1)), fun h => h.elim⟩
      rw [this]; simp
    have r1 : ∀ u ∈ Ico (0 : ℝ) 1, S1 u ∈ Icc x0 x1 := fun u hu => (q1 u ⟨hu.1, hu.2.le⟩).1
    have r2 : ∀ u ∈ Ico (0 : ℝ) 1, S2 u ∈ Icc x1 x2 := fun u hu => (q2 u ⟨hu.1, hu.2.le⟩).1
    rcases lt_or_ge t x0 with c0 | c0
    · rw [none' S1 fun u hu => c0.trans_le (r1 u hu).1,
        none' S2 fun u hu => (c0.trans h.lower).trans_le (r2 u hu).1]
      rw [setIntegral_eq_zero_of_forall_eq_zero fun x hx =>
        bplDens_outside h (.inl ((mem_Iic.1 hx).trans c0.le))]
      simp
    · rw [bplDens_Iic h t c0]
      rcases lt_or_ge t x1 with c1 | c1
      · rw [v1 t ⟨c0, c1.le⟩, none' S2 fun u hu => c1.trans_le (r2 u hu).1,
          ENNReal.toReal_ofReal]
        · rw [(bplDens_mass_below h ⟨c0, c1.le⟩).2]
          unfold bplMass1 at hm1 ⊢
          field_simp
          ring
        · refine div_nonneg ?_ hm1.le
          rw [← plMass_self x0 a1]
          exact (plMass_strictMonoOn x0 a1 h.pos).monotoneOn (mem_Ici.2 (le_refl _)) (mem_Ici.2 c0) c0
      · rw [all S1 fun u hu => (r1 u hu).2.trans c1]
        obtain ⟨i1, e1⟩ := bplDens_mass_below h (t := x1) ⟨h.lower.le, le_refl _⟩
        rcases lt_or_ge t x2 with c2 | c2
        · obtain ⟨i2, e2⟩ := bplDens_mass_above h (t := t) ⟨c1, c2.le⟩
          rw [v2 t ⟨c1, c2.le⟩, ENNReal.toReal_ofReal,
            ← integral_add_adjacent_intervals i1 i2, e1, e2]
          · have hp : plMass x1 a2 x2 ≠ 0 := (plMass_pos h.pos1 h.upper).ne'
            have hq : (x1 : ℝ) ^ (a1 - a2) ≠ 0 := (Real.rpow_pos_of_pos h.pos1 _).ne'
            unfold bplMass1 bplMass2 at *
            field_simp
          · refine div_nonneg ?_ (plMass_pos h.pos1 h.upper).le
            rw [← plMass_self x1 a2]
            exact (plMass_strictMonoOn x1 a2 h.pos1).monotoneOn (mem_Ici.2 (le_refl _)) (mem_Ici.2 c1) c1
        · rw [all S2 fun u hu => (r2 u hu).2.trans c2]
          have hz : ∫ x in x2..t, bplDens x0 x1 x2 a1 a2 x = 0 := by
            rw [integral_of_le c2]
            exact setIntegral_eq_zero_of_forall_eq_zero fun x hx =>
              bplDens_outside h (.inr (mem_Ioc.1 hx).1.le)
          rw [← integral_add_adjacent_intervals (bplDens_interval h).1
            (bplDens_density h).integrable.intervalIntegrable, (bplDens_interval h).2, hz,
            mul_one, mul_one, ← add_div, div_self ht.ne', add_zero]

/-- **C48 is violated** for exponents of -1, which the parameters accept: the weights are not
numbers, and the Bernoulli trials refuse them. -/
theorem C48_violated_minusOne (us : List ℝ) (coins : List Bool) (x0 x1 x2 a : ℝ) (h0 : 0 < x0)
    (h1 : 0 < x1) (h2 : 0 < x2) :
    sampleBpl us coins x0 x1 x2 (-1) a = .error .value ∧
    sampleBpl us coins x0 x1 x2 a (-1) = .error .value ∧
    ∀ t x, bplAt t x0 x1 x2 (-1) a x = none ∧ bplAt t x0 x1 x2 a (-1) x = none := by
  have e1 : integratePl x0 x1 x2 (-1) a = none := by
    unfold integratePl
    simp only [npPow_pos h0, npPow_pos h1, Option.bind_eq_bind, Option.bind_some]
    unfold npDiv
    rw [if_pos (by norm_num)]
    rfl
  have e2 : integratePl x0 x1 x2 a (-1) = none := by
    unfold integratePl
    simp only [npPow_pos h0, npPow_pos h1, npPow_pos h2, Option.bind_eq_bind, Option.bind_some]
    have : ∀ y : ℝ, npDiv y (-1 + 1) = none := by
      intro y; unfold npDiv; rw [if_pos (by norm_num)]
    simp only [this]
    cases npDiv (x1 ^ (a + 1) - x0 ^ (a + 1)) (a + 1) <;> rfl
  refine ⟨?_, ?_, fun t x => ⟨?_, ?_⟩⟩
  · unfold sampleBpl; rw [e1]
  · unfold sampleBpl; rw [e2]
  · unfold bplAt; rw [e1]; rfl
  · unfold bplAt; rw [e2]; rfl

/-- A concrete case: parameters of a steepening power law are in the range of C47 and C48. -/
example : BplParams 1 10 100 (-1.5) (-3) ∧
    ∃ w1 w2 c, integratePl 1 10 100 (-1.5) (-3) = some (w1, w2, c) ∧ 0 < w1 ∧ 0 < w2 ∧
      w1 + w2 = 1 := by
  have h : BplParams 1 10 100 (-1.5) (-3) := by constructor <;> norm_num
  obtain ⟨w1, w2, c, e, p1, p2, s, _⟩ := C47_weights h
  exact ⟨h, w1, w2, c, e, p1, p2, s⟩

/-- A flat power law between 1 and 2 joined to a rising one up to 3: the weights are 4/9 and
5/9. -/
example : integratePl 1 2 3 0 1 = some (4 / 9, 5 / 9, 9 / 4) := by
  have h : BplParams 1 2 3 0 1 := by constructor <;> norm_num
  have m1 : bplMass1 1 2 0 = 1 := by
    unfold bplMass1; rw [plMass_eq (by norm_num) (by norm_num) (by norm_num)]; norm_num
  have m2 : bplMass2 2 3 0 1 = 5 / 4 := by
    unfold bplMass2; rw [plMass_eq (by norm_num) (by norm_num) (by norm_num)]
    have e : (0 : ℝ) - 1 = -1 := by norm_num
    have e2 : (1 : ℝ) + 1 = (2 : ℕ) := by norm_num
    rw [e, Real.rpow_neg_one, e2, Real.rpow_natCast, Real.rpow_natCast]; norm_num
  rw [integratePl_eq h, m1, m2]; norm_num

/-! ### C49 -/

/-- **C49**: for every exponent, -1 included, the sampler increases strictly from `xmin` at
u = 0 to `xmax` at u = 1, takes every value between, and the fraction of the mass of
`x ^ alpha` below the sample is the uniform number; so the uniform numbers with a sample up to
`t` have the probability of `[xmin, t]` under the power law. -/
theorem C49_inverse {xmin xmax : ℝ} (alpha : ℝ) (hl : 0 < xmin) (hh : xmin < xmax) :
    ∃ S : ℝ → ℝ, (∀ u ∈ Icc (0 : ℝ) 1, plawSample xmin xmax alpha u = some (S u)) ∧
      StrictMonoOn S (Icc 0 1) ∧ S 0 = xmin ∧ S 1 = xmax ∧ S '' Icc 0 1 = Icc xmin xmax ∧
      (∀ u ∈ Icc (0 : ℝ) 1,
        (∫ s in xmin..S u, s ^ alpha) / (∫ s in xmin..xmax, s ^ alpha) = u) ∧
      ∀ t ∈ Icc xmin xmax, volume {u : ℝ | u ∈ Ico (0 : ℝ) 1 ∧ S u ≤ t} =
        ENNReal.ofReal ((∫ s in xmin..t, s ^ alpha) / (∫ s in xmin..xmax, s ^ alpha)) := by
  have hpos := plMass_pos (a := alpha) hl hh
  obtain ⟨S, hs, hS⟩ : ∃ S : ℝ → ℝ,
      (∀ u ∈ Icc (0 : ℝ) 1, plawSample xmin xmax alpha u = some (S u)) ∧
      ∀ u ∈ Icc (0 : ℝ) 1, S u ∈ Icc xmin xmax ∧
        plMass xmin alpha (S u) = u * plMass xmin alpha xmax := by
    by_cases ha : alpha = -1
    · subst ha
      have hq : 1 < xmax / xmin := (one_lt_div hl).2 hh
      have hlog : 0 < Real.log (xmax / xmin) := Real.log_pos hq
      refine ⟨fun u => xmin * Real.exp (u / (1 / Real.log (xmax / xmin))), ?_, ?_⟩
      · intro u _
        unfold plawSample
        rw [if_neg (by simp)]
        simp only [npDiv_ne hl.ne', npDiv_ne hlog.ne', Option.bind_eq_bind, Option.bind_some,
          Option.pure_def, if_neg (not_le.2 (zero_lt_one.trans hq)),
          npDiv_ne (one_div_pos.2 hlog).ne']
      · intro u hu
        have he : u / (1 / Real.log (xmax / xmin)) = u * Real.log (xmax / xmin) := by
          field_simp
        simp only [he]
        have hge : 0 ≤ u * Real.log (xmax / xmin) := mul_nonneg hu.1 hlog.le
        have hle : u * Real.log (xmax / xmin) ≤ Real.log (xmax / xmin) :=
          mul_le_of_le_one_left hlog.le hu.2
        have hx : Real.exp (Real.log (xmax / xmin)) = xmax / xmin :=
          Real.exp_log (zero_lt_one.trans hq)
        refine ⟨⟨?_, ?_⟩, ?_⟩
        · have := Real.one_le_exp hge
          nlinarith
        · have := Real.exp_le_exp.2 hle
          rw [hx] at this
          have := mul_le_mul_of_nonneg_left this hl.le
          rwa [mul_div_cancel₀ _ hl.ne'] at this
        · rw [plMass_log hl (mul_pos hl (Real.exp_pos _)), plMass_log hl (hl.trans hh),
            mul_div_cancel_left₀ _ hl.ne', Real.log_exp]
    · have h1 : alpha + 1 ≠ 0 := fun e => ha (by linarith)
      refine ⟨fun u => (u * (xmax ^ (alpha + 1) - xmin ^ (alpha + 1)) + xmin ^ (alpha + 1)) ^
          (1 / (1 + alpha)), ?_, fun u hu => (piece_inverse hl hh ha hu).2⟩
      intro u hu
      have hp := (piece_inverse hl hh ha hu).1
      unfold plawSample
      rw [if_pos ha]
      rw [mul_comm u] at hp
      simp only [npPow_pos hl, npPow_pos (hl.trans hh), npDiv_ne h1, Option.bind_eq_bind,
        Option.bind_some, npPow_pos hp]
      rw [mul_comm u, add_comm 1 alpha]
  obtain ⟨h1, h2, h3, h4, h5⟩ := inverse_transform hh hpos
    ((plMass_strictMonoOn xmin alpha hl).mono Icc_subset_Ici_self) (plMass_self xmin alpha) rfl hS
  refine ⟨S, hs, h1, h2, h3, ?_, ?_, h5⟩
  · apply Subset.antisymm
    · rintro _ ⟨u, hu, rfl⟩; exact (hS u hu).1
    · intro t ht
      have hm := (plMass_strictMonoOn xmin alpha hl).monotoneOn
      have ge0 : 0 ≤ plMass xmin alpha t := by
        rw [← plMass_self xmin alpha]
        exact hm (mem_Ici.2 (le_refl _)) (mem_Ici.2 ht.1) ht.1
      have le1 : plMass xmin alpha t ≤ plMass xmin alpha xmax :=
        hm (mem_Ici.2 ht.1) (mem_Ici.2 hh.le) ht.2
      have hu : plMass xmin alpha t / plMass xmin alpha xmax ∈ Icc (0 : ℝ) 1 :=
        ⟨div_nonneg ge0 hpos.le, (div_le_one hpos).2 le1⟩
      refine ⟨_, hu, ?_⟩
      have := (hS _ hu).2
      rw [div_mul_cancel₀ _ hpos.ne'] at this
      exact (plMass_strictMonoOn xmin alpha hl).injOn (mem_Ici.2 (hS _ hu).1.1) (mem_Ici.2 ht.1) this
  · intro u hu
    have := (hS u hu).2
    unfold plMass at this hpos
    rw [this, mul_div_cancel_right₀ _ hpos.ne']

/-- With exponent -1 the middle of the uniform numbers goes to the geometric mean. -/
example : plawSample 1 4 (-1) (1 / 2) = some 2 := by
  have h4 : Real.log 4 = 2 * Real.log 2 := by
    rw [show (4 : ℝ) = 2 ^ 2 by norm_num, Real.log_pow]; norm_num
  have h2 : 0 < Real.log 2 := Real.log_pos (by norm_num)
  have h44 : Real.log 4 ≠ 0 := by rw [h4]; positivity
  unfold plawSample
  rw [if_neg (by simp)]
  have hr : (1 : ℝ) / Real.log 4 ≠ 0 := one_div_ne_zero h44
  simp only [npDiv_ne one_ne_zero, div_one, Option.bind_eq_bind, Option.bind_some,
    npDiv_ne h44, npDiv_ne hr, Option.pure_def, Option.some.injEq]
  rw [if_neg (by norm_num), show (1 / 2 : ℝ) / (1 / Real.log 4) = Real.log 2 by
    rw [h4]; field_simp, Real.exp_log (by norm_num), one_mul]

/-- With a flat density the sample is linear in the uniform number. -/
example : plawSample 2 6 0 (1 / 4) = some 3 := by
  unfold plawSample
  rw [if_pos (by norm_num)]
  simp only [npPow_pos (show (0 : ℝ) < 2 by norm_num), npPow_pos (show (0 : ℝ) < 6 by norm_num),
    Option.bind_eq_bind, Option.bind_some, npDiv_ne (show (0 : ℝ) + 1 ≠ 0 by norm_num)]
  norm_num [npPow]

end

end Popsynth
