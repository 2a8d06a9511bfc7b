import Verif.Lemmas.LawReject
import Mathlib.Probability.ProductMeasure

/-!
# A random number generator for which the assumptions on numpy hold

The generator state is an infinite sequence of independent numbers, uniform on `[0, 1]`.
-/

set_option autoImplicit false
set_option linter.unusedSectionVars false

open MeasureTheory Filter

namespace Popsynth
namespace Stream

/-- Put a number before a sequence. -/
def cons {α : Type} (p : α × (ℕ → α)) : ℕ → α
  | 0 => p.1
  | n + 1 => p.2 n

/-- Take the first number off a sequence. -/
def next {α : Type} (g : ℕ → α) : α × (ℕ → α) := (g 0, fun n => g (n + 1))

theorem cons_next {α : Type} (g : ℕ → α) : cons (next g) = g := by
  funext n; cases n <;> rfl

variable {α : Type} [MeasurableSpace α]

theorem measurable_cons : Measurable (cons (α := α)) := by
  refine measurable_pi_lambda _ fun n => ?_
  cases n with
  | zero => exact measurable_fst
  | succ n => exact (measurable_pi_apply n).comp measurable_snd

theorem measurable_next : Measurable (next (α := α)) :=
  (measurable_pi_apply 0).prodMk (measurable_pi_lambda _ fun n => measurable_pi_apply (n + 1))

/-- Independent numbers with law `μ`. -/
noncomputable def law (μ : Measure α) [IsProbabilityMeasure μ] : Measure (ℕ → α) :=
  Measure.infinitePi fun _ => μ

instance (μ : Measure α) [IsProbabilityMeasure μ] : IsProbabilityMeasure (law μ) := by
  unfold law; infer_instance

theorem cons_preserves (μ : Measure α) [IsProbabilityMeasure μ] :
    MeasurePreserving cons (μ.prod (law μ)) (law μ) := by
  refine ⟨measurable_cons, ?_⟩
  refine Measure.eq_infinitePi _ fun s t ht => ?_
  classical
  let s' : Finset ℕ := s.preimage Nat.succ (fun _ _ _ _ h => Nat.succ.inj h)
  have hmem : ∀ n, n ∈ s' ↔ n + 1 ∈ s := fun n => Finset.mem_preimage
  have hms : MeasurableSet (Set.pi (↑s) t) := MeasurableSet.pi s.countable_toSet fun i hi => ht i
  have e : cons ⁻¹' (Set.pi (↑s) t) =
      (if 0 ∈ s then t 0 else Set.univ) ×ˢ (Set.pi (↑s') fun n => t (n + 1)) := by
    ext p
    simp only [Set.mem_preimage, Set.mem_pi, Finset.mem_coe, Set.mem_prod, hmem]
    constructor
    · intro h
      refine ⟨?_, fun n hn => h (n + 1) hn⟩
      split
      · rename_i h0; exact h 0 h0
      · trivial
    · rintro ⟨h0, h⟩ n hn
      cases n with
      | zero => rw [if_pos hn] at h0; exact h0
      | succ n => exact h n hn
  rw [Measure.map_apply measurable_cons hms, e, Measure.prod_prod, law,
    Measure.infinitePi_pi (fun _ => μ) (fun n _ => ht (n + 1))]
  have e2 : ∏ i ∈ s', μ (t (i + 1)) = ∏ i ∈ s.erase 0, μ (t i) := by
    refine Finset.prod_bij (fun n _ => n + 1) ?_ ?_ ?_ ?_
    · intro n hn; simp [(hmem n).1 hn]
    · intro a _ b _ h; exact Nat.succ.inj h
    · intro b hb
      rw [Finset.mem_erase] at hb
      obtain ⟨n, rfl⟩ : ∃ n, b = n + 1 := ⟨b - 1, by omega⟩
      exact ⟨n, (hmem n).2 hb.2, rfl⟩
    · intro n _; rfl
  rw [e2]
  by_cases h0 : 0 ∈ s
  · rw [if_pos h0, Finset.mul_prod_erase s (fun i => μ (t i)) h0]
  · rw [if_neg h0, measure_univ, one_mul, Finset.erase_eq_of_notMem h0]

theorem next_preserves (μ : Measure α) [IsProbabilityMeasure μ] :
    MeasurePreserving next (law μ) (μ.prod (law μ)) := by
  refine ⟨measurable_next, ?_⟩
  have h := (cons_preserves μ).map_eq
  conv_lhs => rw [← h]
  rw [Measure.map_map measurable_next measurable_cons]
  have : next ∘ cons = (id : α × (ℕ → α) → α × (ℕ → α)) := by
    funext p; rfl
  rw [this, Measure.map_id]

instance : IsProbabilityMeasure (Spec.uniformLaw 1) := uniformLaw_prob one_pos

/-- Scaling a uniform number. -/
theorem scale_uniform {h : ℝ} (hh : 0 < h) :
    MeasurePreserving (fun u => h * u) (Spec.uniformLaw 1) (Spec.uniformLaw h) := by
  refine ⟨measurable_const_mul h, ?_⟩
  ext X hX
  have hm : MeasurableSet ((fun u => h * u) ⁻¹' X) := measurable_const_mul h hX
  rw [Measure.map_apply (measurable_const_mul h) hX]
  simp only [Spec.uniformLaw, Measure.smul_apply, smul_eq_mul, Measure.restrict_apply hX,
    Measure.restrict_apply hm, ENNReal.ofReal_one, inv_one, one_mul]
  have e : (fun u => h * u) ⁻¹' X ∩ Set.Icc 0 1 = (fun u => h * u) ⁻¹' (X ∩ Set.Icc 0 h) := by
    ext u
    simp only [Set.mem_inter_iff, Set.mem_preimage, Set.mem_Icc, and_congr_right_iff]
    intro _
    constructor
    · rintro ⟨a, b⟩; exact ⟨by positivity, by nlinarith⟩
    · rintro ⟨a, b⟩
      exact ⟨by by_contra hn; push Not at hn; nlinarith, by by_contra hn; push Not at hn; nlinarith⟩
  rw [e, Real.volume_preimage_mul_left hh.ne', abs_of_pos (inv_pos.2 hh),
    ENNReal.ofReal_inv_of_pos hh]

/-- `np.random.uniform(0, h)`: `h` times the next number. -/
noncomputable def uniform (h : ℝ) (g : ℕ → ℝ) : Except Err ℝ × (ℕ → ℝ) :=
  (.ok (h * (next g).1), (next g).2)

/-- This generator is fair. -/
theorem fair : Spec.FairUniform (law (Spec.uniformLaw 1)) uniform := by
  intro h hh
  refine ⟨fun g => (h * (next g).1, (next g).2), ?_, fun g => rfl⟩
  have h1 : MeasurePreserving (Prod.map (fun u => h * u) (id : (ℕ → ℝ) → ℕ → ℝ))
      ((Spec.uniformLaw 1).prod (law (Spec.uniformLaw 1)))
      ((Spec.uniformLaw h).prod (law (Spec.uniformLaw 1))) :=
    have := uniformLaw_prob hh
    (scale_uniform hh).prod (MeasurePreserving.id _)
  exact h1.comp (next_preserves _)

end Stream
end Popsynth
