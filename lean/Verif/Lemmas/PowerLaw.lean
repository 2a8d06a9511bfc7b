import Verif.Model.PowerLaw
import Mathlib.Analysis.SpecialFunctions.Integrals.Basic
import Mathlib.MeasureTheory.Measure.Lebesgue.Basic
import Mathlib.Tactic.Linarith
import Mathlib.Tactic.Ring
import Mathlib.Tactic.FieldSimp
import Mathlib.Tactic.Positivity

/-! Helper lemmas about power laws and inverse transform sampling. -/

set_option autoImplicit false
set_option linter.unusedSectionVars false

namespace Popsynth

open MeasureTheory Set intervalIntegral

noncomputable section

namespace Spec

/-- The mass of `s ^ a` between `lo` and `x`. -/
def plMass (lo a x : ℝ) : ℝ := ∫ s in lo..x, s ^ a

end Spec

open Spec

theorem zero_notMem_uIcc {a b : ℝ} (ha : 0 < a) (hb : 0 < b) : (0 : ℝ) ∉ uIcc a b := by
  rw [mem_uIcc]
  rintro (⟨h, _⟩ | ⟨h, _⟩) <;> linarith

theorem plMass_eq {lo a x : ℝ} (hl : 0 < lo) (hx : 0 < x) (ha : a ≠ -1) :
    plMass lo a x = (x ^ (a + 1) - lo ^ (a + 1)) / (a + 1) :=
  integral_rpow (Or.inr ⟨ha, zero_notMem_uIcc hl hx⟩)

theorem plMass_log {lo x : ℝ} (hl : 0 < lo) (hx : 0 < x) :
    plMass lo (-1) x = Real.log (x / lo) := by
  unfold plMass
  have : ∀ s : ℝ, s ^ (-1 : ℝ) = s⁻¹ := fun s => Real.rpow_neg_one s
  simp only [this]
  exact integral_inv (zero_notMem_uIcc hl hx)

theorem intervalIntegrable_pl {a x y : ℝ} (hx : 0 < x) (hy : 0 < y) :
    IntervalIntegrable (fun s : ℝ => s ^ a) volume x y :=
  intervalIntegrable_rpow (Or.inr (zero_notMem_uIcc hx hy))

theorem plMass_pos {lo a x : ℝ} (hl : 0 < lo) (hx : lo < x) : 0 < plMass lo a x := by
  refine intervalIntegral_pos_of_pos_on (intervalIntegrable_pl hl (hl.trans hx)) ?_ hx
  intro s hs
  exact Real.rpow_pos_of_pos (hl.trans hs.1) a

theorem plMass_strictMonoOn (lo a : ℝ) (hl : 0 < lo) :
    StrictMonoOn (plMass lo a) (Ici lo) := by
  intro x hx y hy hxy
  have hx' : 0 < x := hl.trans_le hx
  have h1 := integral_add_adjacent_intervals (intervalIntegrable_pl (a := a) hl hx')
    (intervalIntegrable_pl (a := a) hx' (hx'.trans hxy))
  have h2 := plMass_pos (a := a) hx' hxy
  unfold plMass at *
  linarith

theorem plMass_self (lo a : ℝ) : plMass lo a lo = 0 := by
  unfold plMass; exact integral_same

/-- Inverse transform sampling: if `S` inverts the strictly increasing cumulative mass `F` on
`[a, b]`, then `S` increases strictly from `a` to `b` and hits everything between, and the
uniform numbers with `S u ≤ t` are those below the fraction of the mass below `t`. -/
theorem inverse_transform {a b T : ℝ} {S F : ℝ → ℝ} (hab : a < b) (hT : 0 < T)
    (hF : StrictMonoOn F (Icc a b)) (hFa : F a = 0) (hFb : F b = T)
    (hS : ∀ u ∈ Icc (0 : ℝ) 1, S u ∈ Icc a b ∧ F (S u) = u * T) :
    StrictMonoOn S (Icc 0 1) ∧ S 0 = a ∧ S 1 = b ∧
    (∀ t ∈ Icc a b, ∀ u ∈ Icc (0 : ℝ) 1, S u ≤ t ↔ u ≤ F t / T) ∧
    ∀ t ∈ Icc a b, volume {u : ℝ | u ∈ Ico (0 : ℝ) 1 ∧ S u ≤ t} = ENNReal.ofReal (F t / T) := by
  have ha : a ∈ Icc a b := ⟨le_refl _, hab.le⟩
  have hb : b ∈ Icc a b := ⟨hab.le, le_refl _⟩
  have hiff : ∀ t ∈ Icc a b, ∀ u ∈ Icc (0 : ℝ) 1, S u ≤ t ↔ u ≤ F t / T := by
    intro t ht u hu
    obtain ⟨h1, h2⟩ := hS u hu
    rw [← hF.le_iff_le h1 ht, h2, le_div_iff₀ hT]
  refine ⟨?_, ?_, ?_, hiff, ?_⟩
  · intro u hu v hv huv
    obtain ⟨h1, h2⟩ := hS u hu
    obtain ⟨h3, h4⟩ := hS v hv
    rw [← hF.lt_iff_lt h1 h3, h2, h4]
    exact mul_lt_mul_of_pos_right huv hT
  · obtain ⟨h1, h2⟩ := hS 0 ⟨le_refl _, zero_le_one⟩
    exact hF.injOn h1 ha (by rw [h2, hFa, zero_mul])
  · obtain ⟨h1, h2⟩ := hS 1 ⟨zero_le_one, le_refl _⟩
    exact hF.injOn h1 hb (by rw [h2, hFb, one_mul])
  · intro t ht
    have h0 : 0 ≤ F t / T := by
      apply div_nonneg _ hT.le
      rw [← hFa]
      exact hF.monotoneOn ha ht ht.1
    have h1 : F t / T ≤ 1 := by
      rw [div_le_one hT, ← hFb]
      exact hF.monotoneOn ht hb ht.2
    apply le_antisymm
    · calc volume {u : ℝ | u ∈ Ico (0 : ℝ) 1 ∧ S u ≤ t} ≤ volume (Icc 0 (F t / T)) := by
            apply measure_mono
            rintro u ⟨hu, hs⟩
            exact ⟨hu.1, (hiff t ht u ⟨hu.1, hu.2.le⟩).1 hs⟩
        _ = ENNReal.ofReal (F t / T) := by rw [Real.volume_Icc, sub_zero]
    · calc ENNReal.ofReal (F t / T) = volume (Ico 0 (F t / T)) := by
            rw [Real.volume_Ico, sub_zero]
        _ ≤ volume {u : ℝ | u ∈ Ico (0 : ℝ) 1 ∧ S u ≤ t} := by
            apply measure_mono
            rintro u ⟨hu1, hu2⟩
            exact ⟨⟨hu1, hu2.trans_le h1⟩, (hiff t ht u ⟨hu1, hu2.le.trans h1⟩).2 hu2.le⟩

theorem npPow_pos {x y : ℝ} (hx : 0 < x) : npPow x y = some (x ^ y) := by
  unfold npPow; rw [if_pos hx]

theorem npDiv_ne {x y : ℝ} (hy : y ≠ 0) : npDiv x y = some (x / y) := by
  unfold npDiv; rw [if_neg hy]

/-- One power-law piece: the inverse of its cumulative mass. -/
theorem piece_inverse {lo hi a u : ℝ} (hl : 0 < lo) (hh : lo < hi) (ha : a ≠ -1)
    (hu : u ∈ Icc (0 : ℝ) 1) :
    0 < u * (hi ^ (a + 1) - lo ^ (a + 1)) + lo ^ (a + 1) ∧
    (u * (hi ^ (a + 1) - lo ^ (a + 1)) + lo ^ (a + 1)) ^ (1 / (1 + a)) ∈ Icc lo hi ∧
    plMass lo a ((u * (hi ^ (a + 1) - lo ^ (a + 1)) + lo ^ (a + 1)) ^ (1 / (1 + a))) =
      u * plMass lo a hi := by
  have hb : 0 < a + 1 ∨ a + 1 < 0 := by
    rcases lt_trichotomy (a + 1) 0 with h | h | h
    · exact .inr h
    · exact absurd (by linarith) ha
    · exact .inl h
  have ha1 : a + 1 ≠ 0 := by rcases hb with h | h <;> linarith [h.ne]
  have ha1' : (1 : ℝ) + a ≠ 0 := by rwa [add_comm]
  have hhi : 0 < hi := hl.trans hh
  have hlp : 0 < lo ^ (a + 1) := Real.rpow_pos_of_pos hl _
  have hhp : 0 < hi ^ (a + 1) := Real.rpow_pos_of_pos hhi _
  set w := u * (hi ^ (a + 1) - lo ^ (a + 1)) + lo ^ (a + 1) with hw
  have hwe : w = u * hi ^ (a + 1) + (1 - u) * lo ^ (a + 1) := by rw [hw]; ring
  have hwpos : 0 < w := by
    rw [hwe]
    rcases eq_or_lt_of_le hu.1 with h | h
    · rw [← h]; simpa using hlp
    · have := mul_pos h hhp
      have := mul_nonneg (sub_nonneg.2 hu.2) hlp.le
      linarith
  have hinv : ∀ z : ℝ, 0 < z → (z ^ (a + 1)) ^ (1 / (1 + a)) = z := by
    intro z hz
    rw [← Real.rpow_mul hz.le, show (a + 1) * (1 / (1 + a)) = 1 by field_simp; ring,
      Real.rpow_one]
  have hmem : w ^ (1 / (1 + a)) ∈ Icc lo hi := by
    rcases hb with h | h
    · have hmono : lo ^ (a + 1) ≤ hi ^ (a + 1) := Real.rpow_le_rpow hl.le hh.le h.le
      have h1 : lo ^ (a + 1) ≤ w := by
        rw [hw]; have := mul_nonneg hu.1 (sub_nonneg.2 hmono); linarith
      have h2 : w ≤ hi ^ (a + 1) := by
        rw [hwe]
        have := mul_nonneg (sub_nonneg.2 hu.2) (sub_nonneg.2 hmono); nlinarith
      have he : 0 ≤ 1 / (1 + a) := by
        apply one_div_nonneg.2; linarith
      constructor
      · have := Real.rpow_le_rpow hlp.le h1 he
        rwa [hinv lo hl] at this
      · have := Real.rpow_le_rpow hwpos.le h2 he
        rwa [hinv hi hhi] at this
    · have hmono : hi ^ (a + 1) ≤ lo ^ (a + 1) :=
        Real.rpow_le_rpow_of_nonpos hl hh.le h.le
      have h1 : w ≤ lo ^ (a + 1) := by
        rw [hw]; have := mul_nonneg hu.1 (sub_nonneg.2 hmono); nlinarith
      have h2 : hi ^ (a + 1) ≤ w := by
        rw [hwe]
        have := mul_nonneg (sub_nonneg.2 hu.2) (sub_nonneg.2 hmono); nlinarith
      have he : 1 / (1 + a) ≤ 0 := by
        apply one_div_nonpos.2; linarith
      constructor
      · have := Real.rpow_le_rpow_of_nonpos hwpos h1 he
        rwa [hinv lo hl] at this
      · have := Real.rpow_le_rpow_of_nonpos hhp h2 he
        rwa [hinv hi hhi] at this
  refine ⟨hwpos, hmem, ?_⟩
  have hspos : 0 < w ^ (1 / (1 + a)) := Real.rpow_pos_of_pos hwpos _
  rw [plMass_eq hl hspos ha, plMass_eq hl hhi ha, ← Real.rpow_mul hwpos.le,
    show 1 / (1 + a) * (a + 1) = 1 by field_simp; ring, Real.rpow_one, hw]
  field_simp
  ring

end

end Popsynth
