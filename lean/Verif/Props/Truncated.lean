import Verif.Model.Truncated
import Verif.Props.Luminosity
import Verif.Lemmas.Survey

/-!
# Truncated samplers stay inside their limits (C51)
-/

set_option autoImplicit false
set_option linter.unusedSectionVars false

namespace Popsynth

open Set Spec

noncomputable section

namespace Spec

/-- What is known about standard truncated normal numbers: there are as many as asked for, and
they are between the limits. -/
structure IsStdTrunc (std : StdTrunc) : Prop where
  length : ∀ a b size, (std a b size).length = size
  between : ∀ a b size, a < b → ∀ z ∈ std a b size, z ∈ Icc a b

/-- The sampler works whatever the truncated normal numbers are, with values in `s`, and every
value of `s` can be drawn. -/
structure CoversExactly (sampler : StdTrunc → Nat → Except Err (List ℝ)) (s : Set ℝ) : Prop where
  works : ∀ std, IsStdTrunc std → ∀ size, ∃ vs, sampler std size = .ok vs ∧ vs.length = size ∧
    ∀ v ∈ vs, v ∈ s
  all : ∀ v ∈ s, ∃ std, IsStdTrunc std ∧ ∀ size, sampler std size = .ok (List.replicate size v)

end Spec

/-! ### Lemmas -/

theorem assertInside_ok {lower upper : ℝ} {vs ws : List ℝ} :
    assertInside lower upper vs = .ok ws ↔ ws = vs ∧ ∀ v ∈ vs, v ∈ Icc lower upper := by
  unfold assertInside
  split
  · split
    · rename_i h1 h2
      constructor
      · intro h; cases h; exact ⟨rfl, fun v hv => ⟨h1 v hv, h2 v hv⟩⟩
      · rintro ⟨rfl, _⟩; rfl
    · rename_i h
      constructor
      · intro h; cases h
      · exact fun ⟨_, h'⟩ => absurd (fun v hv => (h' v hv).2) h
  · rename_i h
    constructor
    · intro h; cases h
    · exact fun ⟨_, h'⟩ => absurd (fun v hv => (h' v hv).1) h

/-- Constant standard numbers, valid wherever the constant is between the limits; the lower
limit elsewhere. -/
def constStd (z : ℝ) : StdTrunc := fun a b size =>
  open Classical in List.replicate size (if z ∈ Icc a b then z else a)

theorem constStd_valid (z : ℝ) : IsStdTrunc (constStd z) := by
  refine ⟨fun a b size => ?_, fun a b size hab y hy => ?_⟩
  · unfold constStd; simp
  · unfold constStd at hy
    have := List.eq_of_mem_replicate hy
    split at this
    · rw [this]; assumption
    · rw [this]; exact ⟨le_refl _, hab.le⟩

theorem constStd_mem {z a b : ℝ} (h : z ∈ Icc a b) (size : Nat) :
    constStd z a b size = List.replicate size z := by
  unfold constStd; rw [if_pos h]

theorem standardize_mem {mu tau a b z : ℝ} (ht : 0 < tau)
    (hz : z ∈ Icc ((a - mu) / tau) ((b - mu) / tau)) : mu + tau * z ∈ Icc a b := by
  obtain ⟨h1, h2⟩ := hz
  rw [div_le_iff₀ ht] at h1
  rw [le_div_iff₀ ht] at h2
  constructor <;> nlinarith

theorem standardize_mem' {mu tau a b x : ℝ} (ht : 0 < tau) (hx : x ∈ Icc a b) :
    (x - mu) / tau ∈ Icc ((a - mu) / tau) ((b - mu) / tau) :=
  ⟨(div_le_div_iff_of_pos_right ht).2 (by linarith [hx.1]),
    (div_le_div_iff_of_pos_right ht).2 (by linarith [hx.2])⟩

theorem standardize_lt {mu tau a b : ℝ} (ht : 0 < tau) :
    (a - mu) / tau < (b - mu) / tau ↔ a < b := by
  rw [div_lt_div_iff_of_pos_right ht]
  constructor <;> intro h <;> linarith

theorem truncRvs_eq {std : StdTrunc} {mu tau a b : ℝ} {size : Nat} (ht : 0 < tau) (hab : a < b) :
    truncRvs std ((a - mu) / tau) ((b - mu) / tau) mu tau size =
      .ok ((std ((a - mu) / tau) ((b - mu) / tau) size).map fun z => mu + tau * z) := by
  unfold truncRvs; rw [if_pos ((standardize_lt ht).2 hab)]

theorem truncRvs_const {mu tau a b x : ℝ} (ht : 0 < tau) (hab : a < b) (hx : x ∈ Icc a b)
    (size : Nat) :
    truncRvs (constStd ((x - mu) / tau)) ((a - mu) / tau) ((b - mu) / tau) mu tau size =
      .ok (List.replicate size x) := by
  rw [truncRvs_eq ht hab, constStd_mem (standardize_mem' ht hx), List.map_replicate,
    mul_div_cancel₀ _ ht.ne', add_sub_cancel]

/-- The common part of the log-normal samplers covers exactly the powers between the exponents,
if those are inside the limits. -/
theorem truncLog_covers {power : ℝ → ℝ} {mu tau lower upper a b : ℝ} (ht : 0 < tau) (hab : a < b)
    (hin : ∀ x ∈ Icc a b, power x ∈ Icc lower upper) :
    CoversExactly (fun std size => truncLog power std mu tau lower upper a b size)
      (power '' Icc a b) := by
  constructor
  · intro std hs size
    have hm : ∀ x ∈ (std ((a - mu) / tau) ((b - mu) / tau) size).map fun z => mu + tau * z,
        x ∈ Icc a b := by
      intro x hx
      obtain ⟨z, hz, rfl⟩ := List.mem_map.1 hx
      exact standardize_mem ht (hs.between _ _ _ ((standardize_lt ht).2 hab) z hz)
    refine ⟨((std ((a - mu) / tau) ((b - mu) / tau) size).map fun z => mu + tau * z).map power,
      ?_, ?_, ?_⟩
    · unfold truncLog
      rw [if_neg ht.ne', truncRvs_eq ht hab]
      simp only [bind, Except.bind]
      rw [assertInside_ok]
      refine ⟨rfl, fun v hv => ?_⟩
      obtain ⟨x, hx, rfl⟩ := List.mem_map.1 hv
      exact hin x (hm x hx)
    · simp [hs.length]
    · intro v hv
      obtain ⟨x, hx, rfl⟩ := List.mem_map.1 hv
      exact ⟨x, hm x hx, rfl⟩
  · rintro _ ⟨x, hx, rfl⟩
    refine ⟨_, constStd_valid ((x - mu) / tau), fun size => ?_⟩
    show truncLog power _ mu tau lower upper a b size = _
    unfold truncLog
    rw [if_neg ht.ne', truncRvs_const ht hab hx]
    simp only [bind, Except.bind, List.map_replicate]
    rw [assertInside_ok]
    refine ⟨rfl, fun v hv => ?_⟩
    rw [List.eq_of_mem_replicate hv]
    exact hin x hx

/-! ### C51 -/

theorem truncLog_inside {power : ℝ → ℝ} {std : StdTrunc} {mu tau lower upper a b : ℝ} {size : Nat}
    {vs : List ℝ} (hs : IsStdTrunc std)
    (h : truncLog power std mu tau lower upper a b size = .ok vs) :
    vs.length = size ∧ ∀ v ∈ vs, v ∈ Icc lower upper := by
  unfold truncLog at h
  split at h
  · split at h
    · obtain ⟨rfl, h'⟩ := assertInside_ok.1 h
      exact ⟨by simp, h'⟩
    · cases h
  · obtain ⟨xs, h1, h2⟩ := (except_bind_ok_iff _ _ _).1 h
    obtain ⟨rfl, h'⟩ := assertInside_ok.1 h2
    refine ⟨?_, h'⟩
    unfold truncRvs at h1
    split at h1
    · cases h1; simp [hs.length]
    · cases h1

/-- **C51**: whatever the parameters, also those out of the range of a truncation, the three
samplers only ever return as many values as asked for, all of them in [lower, upper]; in any
other case they raise. -/
theorem C51_inside {std : StdTrunc} (hs : IsStdTrunc std) (q mu tau lower upper : ℝ) (size : Nat)
    (vs : List ℝ)
    (h : truncNormal std mu tau lower upper size = .ok vs ∨
      truncLogNormal std q mu tau lower upper size = .ok vs ∨
      truncLog10Normal std q mu tau lower upper size = .ok vs) :
    vs.length = size ∧ ∀ v ∈ vs, v ∈ Icc lower upper := by
  rcases h with h | h | h
  · unfold truncNormal at h
    split at h
    · cases h
    · obtain ⟨xs, h1, h2⟩ := (except_bind_ok_iff _ _ _).1 h
      obtain ⟨rfl, h'⟩ := assertInside_ok.1 h2
      refine ⟨?_, h'⟩
      unfold truncRvs at h1
      split at h1
      · cases h1; simp [hs.length]
      · cases h1
  · unfold truncLogNormal at h
    split at h
    · exact truncLog_inside hs h
    · cases h
  · unfold truncLog10Normal at h
    split at h
    · exact truncLog_inside hs h
    · cases h

/-- **C51**: for a positive width and increasing limits the truncated normal sampler never
fails an assertion, and the values it can draw are exactly [lower, upper]. -/
theorem C51_normal {mu tau lower upper : ℝ} (ht : 0 < tau) (hlu : lower < upper) :
    CoversExactly (fun std size => truncNormal std mu tau lower upper size) (Icc lower upper) := by
  have e : ∀ std size, truncNormal std mu tau lower upper size =
      truncLog id std mu tau lower upper lower upper size := by
    intro std size
    unfold truncNormal truncLog
    rw [if_neg ht.ne', if_neg ht.ne']
    simp only [List.map_id]
  have := truncLog_covers (power := id) (mu := mu) (lower := lower) (upper := upper) ht hlu
    (fun x hx => hx)
  rw [image_id] at this
  simpa only [e] using this

theorem lowerExponent_pos {q mu tau lower : ℝ} (h : 0 < lower) :
    lowerExponent q mu tau lower = some (Real.log lower) := by
  unfold lowerExponent npLog
  rw [if_neg h.ne', if_pos h]

/-- **C51**: for a positive width and positive increasing limits the truncated log-normal sampler
never fails an assertion, and the values it can draw are exactly [lower, upper].  Missing: a
lower limit of zero, see `C51_violated_zero`. -/
theorem C51_logNormal_partial {q mu tau lower upper : ℝ} (ht : 0 < tau) (hl : 0 < lower)
    (hlu : lower < upper) :
    CoversExactly (fun std size => truncLogNormal std q mu tau lower upper size)
      (Icc lower upper) := by
  have hu : 0 < upper := hl.trans hlu
  have hab : Real.log lower < Real.log upper := Real.log_lt_log hl hlu
  have e : ∀ std size, truncLogNormal std q mu tau lower upper size =
      truncLog Real.exp std mu tau lower upper (Real.log lower) (Real.log upper) size := by
    intro std size
    unfold truncLogNormal
    rw [lowerExponent_pos hl]
    unfold npLog
    rw [if_pos hu]
  have himg : Real.exp '' Icc (Real.log lower) (Real.log upper) = Icc lower upper := by
    ext v
    constructor
    · rintro ⟨x, ⟨h1, h2⟩, rfl⟩
      exact ⟨(Real.log_le_iff_le_exp hl).1 h1, (Real.le_log_iff_exp_le hu).1 h2⟩
    · rintro ⟨h1, h2⟩
      have hv : 0 < v := hl.trans_le h1
      exact ⟨Real.log v, ⟨Real.log_le_log hl h1, Real.log_le_log hv h2⟩, Real.exp_log hv⟩
  have := truncLog_covers (power := Real.exp) (mu := mu) (lower := lower) (upper := upper) ht hab
    (fun x hx => himg ▸ mem_image_of_mem _ hx)
  rw [himg] at this
  simpa only [e] using this

/-- **C51 is violated** by a lower limit of zero: the sampler cuts the distribution off at its
1e-5 quantile, so no value between zero and that is ever drawn. -/
theorem C51_violated_zero {q mu tau upper : ℝ} (ht : 0 < tau) :
    ∀ std, IsStdTrunc std → ∀ size vs, truncLogNormal std q mu tau 0 upper size = .ok vs →
      ∀ v ∈ vs, Real.exp (mu + tau * q) ≤ v := by
  intro std hs size vs h v hv
  have ea : lowerExponent q mu tau 0 = some (mu + tau * q) := by
    unfold lowerExponent ppfLow
    rw [if_pos rfl, if_neg ht.ne']
  unfold truncLogNormal at h
  rw [ea] at h
  split at h
  · rename_i a b e1 e2
    cases e1
    unfold truncLog at h
    rw [if_neg ht.ne'] at h
    obtain ⟨xs, h1, h2⟩ := (except_bind_ok_iff _ _ _).1 h
    obtain ⟨rfl, _⟩ := assertInside_ok.1 h2
    unfold truncRvs at h1
    split at h1
    · rename_i hlt
      cases h1
      obtain ⟨x, hx, rfl⟩ := List.mem_map.1 hv
      obtain ⟨z, hz, rfl⟩ := List.mem_map.1 hx
      exact Real.exp_le_exp.2 (standardize_mem ht (hs.between _ _ _ hlt z hz)).1
    · cases h1
  · cases h

/-- **C51**, width zero (an admissible value): the log-normal sampler returns the location, if
its value is strictly between the limits, and refuses otherwise, also on a limit; the normal
sampler always refuses. -/
theorem C51_zero_width {q mu lower upper : ℝ} (hl : 0 < lower) (hlu : lower < upper)
    (std : StdTrunc) (size : Nat) :
    (Real.exp mu ∈ Ioo lower upper →
      truncLogNormal std q mu 0 lower upper size = .ok (List.replicate size (Real.exp mu))) ∧
    (Real.exp mu ∉ Ioo lower upper →
      truncLogNormal std q mu 0 lower upper size = .error .value) ∧
    truncNormal std mu 0 lower upper size = .error .value := by
  have hu : 0 < upper := hl.trans hlu
  have e : truncLogNormal std q mu 0 lower upper size =
      truncLog Real.exp std mu 0 lower upper (Real.log lower) (Real.log upper) size := by
    unfold truncLogNormal
    rw [lowerExponent_pos hl]
    unfold npLog
    rw [if_pos hu]
  have hiff : (Real.log lower < mu ∧ mu < Real.log upper) ↔ Real.exp mu ∈ Ioo lower upper := by
    rw [Real.log_lt_iff_lt_exp hl, Real.lt_log_iff_exp_lt hu, mem_Ioo]
  refine ⟨fun h => ?_, fun h => ?_, ?_⟩
  · rw [e]
    unfold truncLog
    rw [if_pos rfl, if_pos (hiff.2 h), List.map_replicate]
    refine assertInside_ok.2 ⟨rfl, fun v hv => ?_⟩
    rw [List.eq_of_mem_replicate hv]
    exact ⟨h.1.le, h.2.le⟩
  · rw [e]
    unfold truncLog
    rw [if_pos rfl, if_neg (fun hc => h (hiff.1 hc))]
  · unfold truncNormal
    rw [if_pos rfl]

/-- A consequence: with a lower limit of zero the values drawn are not all of [0, upper]. -/
theorem C51_violated_zero_covers {q mu tau upper : ℝ} (ht : 0 < tau)
    (hu : Real.exp (mu + tau * q) ≤ upper) :
    ¬ CoversExactly (fun std size => truncLogNormal std q mu tau 0 upper size) (Icc 0 upper) := by
  intro h
  have hp := Real.exp_pos (mu + tau * q)
  obtain ⟨std, hs, he⟩ := h.all (Real.exp (mu + tau * q) / 2) ⟨by positivity, by linarith⟩
  have := C51_violated_zero ht std hs 1 _ (he 1) _ (List.mem_singleton.2 rfl)
  linarith

/-! ### The sampler with base ten -/

theorem ten_pow_log {lower : ℝ} (h : 0 < lower) :
    (10 : ℝ) ^ Real.log lower = lower ^ Real.log 10 := by
  rw [Real.rpow_def_of_pos (by norm_num), Real.rpow_def_of_pos h, mul_comm]

theorem ten_pow_logb {upper : ℝ} (h : 0 < upper) : (10 : ℝ) ^ Real.logb 10 upper = upper :=
  Real.rpow_logb (by norm_num) (by norm_num) h

theorem one_lt_log_ten : 1 < Real.log 10 := by
  have := (C50_violated_log10 (mu := 0) (tau := 1) one_pos).2.1
  linarith

theorem truncLog10_eq {std : StdTrunc} {q mu tau lower upper : ℝ} {size : Nat} (hl : 0 < lower)
    (hu : 0 < upper) :
    truncLog10Normal std q mu tau lower upper size =
      truncLog (fun x => (10 : ℝ) ^ x) std mu tau lower upper (Real.log lower)
        (Real.logb 10 upper) size := by
  unfold truncLog10Normal
  rw [lowerExponent_pos hl]
  unfold npLog10
  rw [if_pos hu]

theorem ten_image {lower upper : ℝ} (hl : 0 < lower) (hu : 0 < upper) :
    (fun x => (10 : ℝ) ^ x) '' Icc (Real.log lower) (Real.logb 10 upper) =
      Icc (lower ^ Real.log 10) upper := by
  ext v
  constructor
  · rintro ⟨x, ⟨h1, h2⟩, rfl⟩
    constructor
    · rw [← ten_pow_log hl]
      exact Real.rpow_le_rpow_of_exponent_le (by norm_num) h1
    · show (10 : ℝ) ^ x ≤ upper
      rw [← ten_pow_logb hu]
      exact Real.rpow_le_rpow_of_exponent_le (by norm_num) h2
  · rintro ⟨h1, h2⟩
    have hv : 0 < v := (Real.rpow_pos_of_pos hl _).trans_le h1
    refine ⟨Real.logb 10 v, ⟨?_, ?_⟩, ten_pow_logb hv⟩
    · rw [← ten_pow_log hl] at h1
      rw [Real.le_logb_iff_rpow_le (by norm_num) hv]
      exact h1
    · exact Real.logb_le_logb_of_le (by norm_num) hv h2

/-- **C51**, base ten: for a lower limit of at least one, the sampler covers exactly the values
from `lower ^ log 10` (about the power 2.3) to `upper`; with a lower limit of one that is all of
[lower, upper].  Missing: every other lower limit, where that interval is too small
(`C51_violated_log10_above`), empty (`C51_violated_log10_empty`) or too large
(`C51_violated_log10_below`). -/
theorem C51_log10_partial {q mu tau lower upper : ℝ} (ht : 0 < tau) (hl : 1 ≤ lower)
    (hlu : lower ^ Real.log 10 < upper) :
    CoversExactly (fun std size => truncLog10Normal std q mu tau lower upper size)
      (Icc (lower ^ Real.log 10) upper) := by
  have hl0 : 0 < lower := one_pos.trans_le hl
  have hp : lower ≤ lower ^ Real.log 10 := by
    have := Real.rpow_le_rpow_of_exponent_le hl one_lt_log_ten.le
    rwa [Real.rpow_one] at this
  have hu : 0 < upper := hl0.trans_le (hp.trans hlu.le)
  have hab : Real.log lower < Real.logb 10 upper := by
    rw [Real.lt_logb_iff_rpow_lt (by norm_num) hu, ten_pow_log hl0]
    exact hlu
  have := truncLog_covers (power := fun x => (10 : ℝ) ^ x) (mu := mu) (lower := lower)
    (upper := upper) ht hab
    (fun x hx => by
      have := mem_image_of_mem (fun x => (10 : ℝ) ^ x) hx
      rw [ten_image hl0 hu] at this
      exact ⟨hp.trans this.1, this.2⟩)
  rw [ten_image hl0 hu] at this
  simpa only [truncLog10_eq hl0 hu] using this

/-- **C51 is violated** by the sampler with base ten for every lower limit above one: values
between `lower` and `lower ^ log 10` are never drawn. -/
theorem C51_violated_log10_above {q mu tau lower upper : ℝ} (ht : 0 < tau) (hl : 1 < lower)
    (hlu : lower ^ Real.log 10 < upper) :
    lower < lower ^ Real.log 10 ∧
    ¬ CoversExactly (fun std size => truncLog10Normal std q mu tau lower upper size)
      (Icc lower upper) := by
  have hp : lower < lower ^ Real.log 10 := by
    have := Real.rpow_lt_rpow_of_exponent_lt hl one_lt_log_ten
    rwa [Real.rpow_one] at this
  refine ⟨hp, fun h => ?_⟩
  obtain ⟨std, hs, he⟩ := h.all lower ⟨le_refl _, (hp.trans hlu).le⟩
  obtain ⟨vs, hv, _, hin⟩ := (C51_log10_partial (q := q) (mu := mu) ht hl.le hlu).works std hs 1
  have h2 : truncLog10Normal std q mu tau lower upper 1 = .ok [lower] := he 1
  rw [hv] at h2
  cases h2
  have := (hin lower (List.mem_singleton.2 rfl)).1
  linarith

/-- **C51 is violated**: with limits 10 and 100 the sampler with base ten refuses, whatever
location, width and random numbers. -/
theorem C51_violated_log10_empty {q mu tau : ℝ} (ht : 0 < tau) (std : StdTrunc) (size : Nat) :
    truncLog10Normal std q mu tau 10 100 size = .error .value := by
  rw [truncLog10_eq (by norm_num) (by norm_num)]
  unfold truncLog
  rw [if_neg ht.ne']
  have h2 : Real.logb 10 100 = 2 := by
    rw [show (100 : ℝ) = 10 ^ (2 : ℝ) by norm_num]
    exact Real.logb_rpow (by norm_num) (by norm_num)
  have h3 := (C50_violated_log10 (mu := 0) (tau := 1) one_pos).2.1
  unfold truncRvs
  rw [if_neg]
  · rfl
  · rw [standardize_lt ht, h2]
    exact not_lt.2 h3.le

/-- **C51 is violated** by the sampler with base ten for every lower limit below one: admissible
random numbers lead to a value below the limit, and the sampler fails its own assertion. -/
theorem C51_violated_log10_below {q mu tau lower upper : ℝ} (ht : 0 < tau) (hl : 0 < lower)
    (h1 : lower < 1) (hlu : lower < upper) :
    ∃ std, IsStdTrunc std ∧ ∀ size > 0,
      truncLog10Normal std q mu tau lower upper size = .error .assertion := by
  have hu := hl.trans hlu
  have hp : lower ^ Real.log 10 < lower := by
    have := Real.rpow_lt_rpow_of_exponent_gt hl h1 one_lt_log_ten
    rwa [Real.rpow_one] at this
  have hab : Real.log lower < Real.logb 10 upper := by
    rw [Real.lt_logb_iff_rpow_lt (by norm_num) hu, ten_pow_log hl]
    exact hp.trans hlu
  refine ⟨_, constStd_valid ((Real.log lower - mu) / tau), fun size hs => ?_⟩
  rw [truncLog10_eq hl hu]
  unfold truncLog
  rw [if_neg ht.ne', truncRvs_const ht hab ⟨le_refl _, hab.le⟩]
  simp only [bind, Except.bind, List.map_replicate]
  unfold assertInside
  rw [if_neg]
  intro h
  have := h ((10 : ℝ) ^ Real.log lower) (List.mem_replicate.2 ⟨by omega, rfl⟩)
  rw [ten_pow_log hl] at this
  linarith

/-- Width zero: location 0 between 1/2 and 3 gives ones; on the upper limit it is refused. -/
example (q : ℝ) (std : StdTrunc) : truncLogNormal std q 0 0 (1 / 2) 3 2 = .ok [1, 1] ∧
    truncLogNormal std q 0 0 (1 / 2) 1 2 = .error .value := by
  refine ⟨?_, (C51_zero_width (by norm_num) (by norm_num) std 2).2.1 (by norm_num)⟩
  have := (C51_zero_width (q := q) (mu := 0) (lower := 1 / 2) (upper := 3) (by norm_num)
    (by norm_num) std 2).1 (by norm_num)
  simpa [List.replicate] using this

/-- Concrete cases: a truncated normal sampler over [-1, 2], a log-normal one over [1/2, 3] and
one with base ten from 1 to 1000. -/
example (q : ℝ) :
    CoversExactly (fun std size => truncNormal std 5 2 (-1) 2 size) (Icc (-1) 2) ∧
    CoversExactly (fun std size => truncLogNormal std q 0 1 (1 / 2) 3 size) (Icc (1 / 2) 3) ∧
    CoversExactly (fun std size => truncLog10Normal std q 0 1 1 1000 size) (Icc 1 1000) := by
  refine ⟨C51_normal (by norm_num) (by norm_num),
    C51_logNormal_partial (by norm_num) (by norm_num) (by norm_num), ?_⟩
  have := C51_log10_partial (q := q) (mu := 0) (tau := 1) (lower := 1) (upper := 1000) one_pos
    (le_refl _) (by rw [Real.one_rpow]; norm_num)
  rwa [Real.one_rpow] at this

end

end Popsynth
