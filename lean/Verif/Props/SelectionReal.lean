import Verif.Props.Selection
import Mathlib.Analysis.SpecialFunctions.Log.Base
import Mathlib.Analysis.SpecialFunctions.Exp
import Mathlib.Analysis.SpecialFunctions.Sigmoid

/-!
# C10, C11: the numeric content of the spatial and soft selections over ℝ
-/

namespace Popsynth
open Spec

/-- `sf.expit(x) = 1/(1+exp(-x))`. -/
noncomputable def expit (x : ℝ) : ℝ := 1 / (1 + Real.exp (-x))

/-- The probability of generic_selectors.py:330-332 (and flux_selectors.py:35-42):
`expit(strength * (log10 v - log10 boundary))`. -/
noncomputable def softLogProb (k b v : ℝ) : ℝ := expit (k * (Real.logb 10 v - Real.logb 10 b))

/-- The probability of generic_selectors.py:324-326 (`use_log=False`). -/
noncomputable def softLinProb (k b v : ℝ) : ℝ := expit (k * (v - b))

/-- The selection environment with the real formulas. -/
noncomputable def realEnv {G : Type} (bern : ℝ → G → Bool × G) : SelEnv ℝ G where
  bern := bern
  validProb := fun p => by classical exact decide (0 ≤ p ∧ p ≤ 1)
  softLog := softLogProb
  softLin := softLinProb
  neg := fun x => -x

theorem expit_strictMono : StrictMono expit := by
  intro x y h
  unfold expit
  apply one_div_lt_one_div_of_lt
  · positivity
  · have := Real.exp_lt_exp.2 (neg_lt_neg h); linarith

theorem expit_mem (x : ℝ) : 0 < expit x ∧ expit x < 1 := by
  unfold expit
  have := Real.exp_pos (-x)
  constructor
  · positivity
  · rw [div_lt_one (by positivity)]; linarith

/-- **C10 (|b| form).** Over the reals and for the non-negative limits the
parameter accepts, `b ≥ l or b ≤ -l` is exactly `|b| ≥ l`. -/
theorem C10_galactic_abs (l v : ℝ) : (l ≤ v ∨ v ≤ -l) ↔ l ≤ |v| := by
  rw [le_abs]
  constructor
  · rintro (h | h)
    · exact Or.inl h
    · exact Or.inr (by linarith)
  · rintro (h | h)
    · exact Or.inl h
    · exact Or.inr (by linarith)

/-- **C10 (galactic plane, real numbers).** The drawn mask keeps exactly the
objects with `|b| ≥ b_limit`. -/
theorem C10_galactic_real {G : Type} (bern : ℝ → G → Bool × G) (pb : Bool)
    (s : SelSt ℝ G) (n : Nat) (sp : SpatialView ℝ) (l : ℝ)
    (hk : s.sel.kind = .galactic) (hs : s.sel.data.spatial = some sp)
    (hl : outcome (paramGet (declBLimit 90 : ParamDecl ℝ) "b_limit" s.sel.params) = .ok l) :
    ∃ s' m, selDraw (realEnv bern) (1/2) 90 pb n s = .ok () s' ∧ s'.sel.selection = some m ∧
      SelectsExactly m sp.galB (fun v => l ≤ |v|) ∧ s'.rng = s.rng := by
  obtain ⟨s', m, h1, h2, ⟨h3, h4⟩, h5⟩ :=
    C10_galactic (realEnv bern) (1/2) 90 pb s n sp l hk hs hl
  refine ⟨s', m, h1, h2, ⟨h3, ?_⟩, h5⟩
  intro i i1 i2
  rw [h4 i i1 i2]
  exact C10_galactic_abs l _

/-- **C11 (soft selection: probability).** For positive values and boundary the
log-logistic selection probability lies strictly between 0 and 1, equals one
half at the boundary, and for positive strength strictly increases with the
value. -/
theorem C11_softLog (k b : ℝ) (hk : 0 < k) :
    (∀ v, 0 < softLogProb k b v ∧ softLogProb k b v < 1) ∧
    softLogProb k b b = 1 / 2 ∧
    (∀ v w, 0 < v → v < w → softLogProb k b v < softLogProb k b w) ∧
    (∀ v, 0 < b → 0 < v → (1 / 2 ≤ softLogProb k b v ↔ b ≤ v)) := by
  have hhalf : softLogProb k b b = 1 / 2 := by
    unfold softLogProb expit; norm_num
  have hmono : ∀ v w, 0 < v → v < w → softLogProb k b v < softLogProb k b w := by
    intro v w hv hvw
    unfold softLogProb
    apply expit_strictMono
    have := Real.logb_lt_logb (b := 10) (by norm_num) hv hvw
    nlinarith
  refine ⟨fun v => expit_mem _, hhalf, hmono, ?_⟩
  intro v hb hv
  rw [← hhalf]
  constructor
  · intro h
    by_contra hc
    exact absurd (hmono v b hv (not_le.1 hc)) (not_lt.2 h)
  · intro h
    rcases h.lt_or_eq with h | rfl
    · exact (hmono b v hb h).le
    · exact le_rfl

/-- **C11 (linear variant).** The same for `use_log=False`. -/
theorem C11_softLin (k b : ℝ) (hk : 0 < k) :
    (∀ v, 0 < softLinProb k b v ∧ softLinProb k b v < 1) ∧
    softLinProb k b b = 1 / 2 ∧ StrictMono (softLinProb k b) := by
  refine ⟨fun v => expit_mem _, by unfold softLinProb expit; norm_num, ?_⟩
  intro v w h
  exact expit_strictMono (by nlinarith)

/-- **C11 (strength zero).** With the boundary value of the strength parameter
every object has probability one half, whatever its value. -/
theorem C11_soft_strength_zero (b v : ℝ) : softLogProb 0 b v = 1 / 2 := by
  unfold softLogProb expit; norm_num

/-- **C11 (hard limit).** As the strength grows the soft selection tends to the
hard `LowerBound` selection: probability → 1 above, → 0 below the boundary. -/
theorem C11_soft_tends_to_hard (b v : ℝ) (hb : 0 < b) (hv : 0 < v) :
    (b < v → Filter.Tendsto (fun k => softLogProb k b v) Filter.atTop (nhds 1)) ∧
    (v < b → Filter.Tendsto (fun k => softLogProb k b v) Filter.atTop (nhds 0)) := by
  have e : ∀ x, expit x = Real.sigmoid x := by
    intro x; unfold expit Real.sigmoid; rw [one_div]
  simp only [softLogProb, e]
  constructor
  · intro h
    have hl : 0 < Real.logb 10 v - Real.logb 10 b :=
      sub_pos.2 (Real.logb_lt_logb (by norm_num) hb h)
    exact Real.tendsto_sigmoid_atTop.comp (Filter.tendsto_id.atTop_mul_const hl)
  · intro h
    have hl : Real.logb 10 v - Real.logb 10 b < 0 :=
      sub_neg.2 (Real.logb_lt_logb (by norm_num) hv h)
    exact Real.tendsto_sigmoid_atBot.comp (Filter.tendsto_id.atTop_mul_const_of_neg hl)

-- non-vacuity of C10_galactic_real / C11
example : outcome (paramGet (declBLimit 90 : ParamDecl ℝ) "b_limit" { storage := [("b_limit", some 20)] })
    = .ok 20 := by
  rfl
example : (1:ℝ) / 2 ≤ softLogProb 5 2 3 :=
  ((C11_softLog 5 2 (by norm_num)).2.2.2 3 (by norm_num) (by norm_num)).2 (by norm_num)

end Popsynth
