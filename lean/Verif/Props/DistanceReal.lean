import Verif.Lemmas.Distance
import Verif.Model.SpatialClasses
import Verif.Props.Distance
import Mathlib.MeasureTheory.Measure.Lebesgue.Basic
import Mathlib.MeasureTheory.Measure.Lebesgue.Integral
import Mathlib.Analysis.SpecialFunctions.Trigonometric.Basic
import Mathlib.Tactic.Linarith
import Mathlib.Tactic.Ring
import Mathlib.Tactic.FieldSimp
import Mathlib.Tactic.Positivity

/-!
# Rejection sampling (C45) and normalization (C28)
-/

set_option autoImplicit false
set_option linter.unusedSectionVars false

namespace Popsynth
variable {F G : Type}

/-! ### C45 -/

/-- `rejection_sample(size, ymax, xmax, func)`, rejection_sample.py:6-36, for a pure
function. -/
def rejectionSample (env : DistEnv F G) (size : Nat) (ymax xmax : F) (func : F → F) :
    Py (SpSt F G) (List F) :=
  rejectMany env ymax (pure xmax) (fun r => pure (func r)) size

/-- The random state before trial number `k` of one object. -/
def Spec.trialState (nx : F → G → G) (ymax xmax : F) : Nat → G → G
  | 0, g => g
  | k + 1, g => Spec.trialState nx ymax xmax k (nx xmax (nx ymax g))

/-- C45: whenever rejection sampling returns, it returns `size` distances in
`[0, r_max]`, each of positive density, each accepted by a height in `[0, ymax]`
below the density. -/
theorem C45_returns_only_accepted [Preorder F] [Zero F] (env : DistEnv F G)
    (hlt : ∀ a b, env.lt a b = true ↔ a < b)
    (huni : ∀ h g v g', env.uniform h g = (.ok v, g') → 0 ≤ v ∧ v ≤ h)
    (size : Nat) (ymax xmax : F) (func : F → F) (s s' : SpSt F G) (rs : List F)
    (h : rejectionSample env size ymax xmax func s = .ok rs s') :
    rs.length = size ∧
      ∀ r ∈ rs, 0 ≤ r ∧ r ≤ xmax ∧ 0 < func r ∧ ∃ y, 0 ≤ y ∧ y ≤ ymax ∧ y < func r := by
  obtain ⟨_, hl, ha⟩ := rejectMany_spec (P := fun _ => True) (rm := xmax) (g := func)
    (fun o a o' _ e => by cases e; exact ⟨rfl, trivial⟩)
    (fun o r d o' _ e => by cases e; exact ⟨rfl, trivial⟩) trivial h
  refine ⟨hl, fun r hr => ?_⟩
  obtain ⟨⟨g, g', hu⟩, y, ⟨k, k', hy⟩, hlt'⟩ := ha r hr
  obtain ⟨h1, h2⟩ := huni _ _ _ _ hu
  obtain ⟨h3, h4⟩ := huni _ _ _ _ hy
  have h5 := (hlt _ _).1 hlt'
  exact ⟨h1, h2, lt_of_le_of_lt h3 h5, y, h3, h4, h5⟩

/-- C45: the distance returned for an object is the one of the first accepted trial;
the loop returns within its budget iff there is one, and consumes exactly the trials
up to it. -/
theorem C45_first_accepted (env : DistEnv F G) (u : F → G → F) (nx : F → G → G)
    (hu : ∀ h g, env.uniform h g = (.ok (u h g), nx h g)) (ymax xmax : F) (func : F → F)
    (k : Nat) (s s' : SpSt F G) (r : F) :
    rejectOne env ymax (pure xmax) (fun r => pure (func r)) k s = .ok r s' ↔
    ∃ j, j < k ∧
      (∀ i, i < j → env.lt (u ymax (Spec.trialState nx ymax xmax i s.rng))
        (func (u xmax (nx ymax (Spec.trialState nx ymax xmax i s.rng)))) = false) ∧
      env.lt (u ymax (Spec.trialState nx ymax xmax j s.rng))
        (func (u xmax (nx ymax (Spec.trialState nx ymax xmax j s.rng)))) = true ∧
      r = u xmax (nx ymax (Spec.trialState nx ymax xmax j s.rng)) ∧
      s' = { s with rng := Spec.trialState nx ymax xmax (j + 1) s.rng } := by
  induction k generalizing s with
  | zero => simp [rejectOne]
  | succ k ih =>
    have e1 : ∀ (hi : F) (t : SpSt F G),
        drawUniform env hi t = .ok (u hi t.rng) { t with rng := nx hi t.rng } := by
      intro hi t; unfold drawUniform; rw [hu]
    have step : rejectOne env ymax (pure xmax) (fun r => pure (func r)) (k + 1) s =
        if env.lt (u ymax s.rng) (func (u xmax (nx ymax s.rng))) then
          .ok (u xmax (nx ymax s.rng)) { s with rng := nx xmax (nx ymax s.rng) }
        else rejectOne env ymax (pure xmax) (fun r => pure (func r)) k
          { s with rng := nx xmax (nx ymax s.rng) } := by
      simp only [rejectOne]
      rw [bind_of_ok (e1 ymax s)]
      rw [bind_of_ok (show onParams (pure xmax : Py (Obj F) F) _ = .ok xmax _ from rfl)]
      rw [bind_of_ok (e1 xmax _)]
      rw [bind_of_ok (show onParams (pure _ : Py (Obj F) F) _ = .ok _ _ from rfl)]
      split <;> rfl
    rw [step]
    by_cases hc : env.lt (u ymax s.rng) (func (u xmax (nx ymax s.rng))) = true
    · rw [if_pos hc]
      constructor
      · intro h
        cases h
        exact ⟨0, by omega, by intro i hi; omega, hc, rfl, rfl⟩
      · rintro ⟨j, hj, hrej, hacc, rfl, rfl⟩
        cases j with
        | zero => rfl
        | succ j =>
          have := hrej 0 (by omega)
          simp only [Spec.trialState] at this
          rw [hc] at this; cases this
    · rw [if_neg hc, ih]
      constructor
      · rintro ⟨j, hj, hrej, hacc, hr, hs⟩
        refine ⟨j + 1, by omega, ?_, hacc, hr, hs⟩
        intro i hi
        cases i with
        | zero => simpa [Spec.trialState] using hc
        | succ i => exact hrej i (by omega)
      · rintro ⟨j, hj, hrej, hacc, hr, hs⟩
        cases j with
        | zero => exact absurd hacc hc
        | succ j =>
          exact ⟨j, by omega, fun i hi => hrej (i + 1) (by omega), hacc, hr, hs⟩

/-- C45: without a distance of positive density rejection sampling never returns
(however large the budget), it loops forever. -/
theorem C45_no_density_never_returns [Preorder F] [Zero F] (env : DistEnv F G)
    (hlt : ∀ a b, env.lt a b = true ↔ a < b)
    (huni : ∀ h g v g', env.uniform h g = (.ok v, g') → 0 ≤ v ∧ v ≤ h)
    (size : Nat) (ymax xmax : F) (func : F → F) (s : SpSt F G)
    (hf : ∀ r, 0 ≤ r → r ≤ xmax → ¬ 0 < func r) (hs : 0 < size) :
    ∀ rs s', rejectionSample env size ymax xmax func s ≠ .ok rs s' := by
  intro rs s' h
  obtain ⟨hl, ha⟩ := C45_returns_only_accepted env hlt huni size ymax xmax func s s' rs h
  cases rs with
  | nil => simp at hl; omega
  | cons r rs =>
    obtain ⟨h1, h2, h3, _⟩ := ha r (by simp)
    exact hf r h1 h2 h3

section
open DistanceExample

example : ∀ a b : ℚ, env.lt a b = true ↔ a < b := by intro a b; simp [DistanceExample.env]

example : ∃ rs s', rejectionSample env 2 6 10 (fun r => r) start = .ok rs s' ∧ rs = [5, 10/3] :=
  ⟨_, _, ok_of_outcome (a := [5, 10/3]) (by decide +kernel), rfl⟩

end

section
variable [OfNat F 0] [OfNat F 1]

/-- C45 for `draw_distance` of every class of the modelled form: the distances are
`size` many, each drawn from `[0, r_max]`, and (unless the normalized density was
compared with) each has a density above some height drawn from `[0, ymax]`. -/
theorem C45_draw_distance (env : DistEnv F G) (c : SpClass F)
    (hrm : c.decl "r_max" = declRMax env)
    (huniq : ∀ a b, (c.decl a).isNorm = true → (c.decl b).isNorm = true → a = b)
    (showProgress normalize : Bool) (size : Nat) (s s' : SpSt F G)
    (hok : ∀ n, s.sp.params.norm = some n → (c.decl n).isNorm = true)
    (h : drawDistance env c.code showProgress size normalize s = .ok () s') :
    ∃ rs rm vs, s'.sp.distances = some rs ∧ rs.length = size ∧
      outcome (paramGet (c.decl "r_max") "r_max" s.sp.params) = .ok rm ∧
      outcome (readAll c.decl c.reads s.sp.params) = .ok vs ∧
      (∀ r ∈ rs, ∃ g g', env.uniform rm g = (.ok r, g')) ∧
      ((normalize = false ∨ showProgress = false) → ∀ r ∈ rs, ∃ ymax y,
        (∃ g g', env.uniform ymax g = (.ok y, g')) ∧ env.lt y (c.dens vs r) = true) := by
  unfold drawDistance at h
  simp only [bind_ok_iff] at h
  obtain ⟨⟨i, old⟩, s1, h1, h⟩ := h
  obtain ⟨rm, s2, h2, ys, s3, h3, rs, s4, h4, _, s5, h5, old', s6, h6, p, s7, h7, _, s8, h8, h9⟩ := h
  obtain ⟨o1, e1, rfl⟩ := onParams_ok h1
  obtain ⟨k1, k1'⟩ := normBlock_rel env c hrm huniq normalize hok e1
  obtain ⟨o2, e2, rfl⟩ := onParams_ok h2
  have k2 := readRMax_keeps env hrm o1
  have e2' : readRMax env o1 = .ok rm o2 := e2
  rw [e2'] at k2
  obtain ⟨o3, e3, rfl⟩ := onParams_ok h3
  have k3 := normArr_keeps env c i (env.grid rm) o2
  have e3' : normArr env c.code i (env.grid rm) o2 = .ok ys o3 := e3
  rw [e3'] at k3
  have hrmv : outcome (paramGet (c.decl "r_max") "r_max" s.sp.params) = .ok rm := by
    rw [outcome_paramGet_rd, ← k1.same "r_max", ← outcome_paramGet_rd, hrm]
    show outcome (readRMax env o1) = _
    rw [e2']; rfl
  obtain ⟨vs, hvs⟩ : ∃ vs, rdAll c.decl c.reads s.sp.params = .ok vs := by
    simp only [normArr, bind_ok_iff] at e3'
    obtain ⟨a, o, ea, _⟩ := e3'
    have := c.onArr_outcome (env.grid rm) o2
    have k12 : RdRel c.decl s.sp.params o2 := k1.trans k2
    rw [ea, rdAll_congr _ _ k12.same] at this
    cases hr : rdAll c.decl c.reads s.sp.params with
    | ok vs => exact ⟨vs, rfl⟩
    | error e => rw [hr] at this; cases this
  have hd : s'.sp.distances = some rs := by
    simp only [modify_apply] at h5; cases h5
    obtain ⟨o6, _, rfl⟩ := onParams_ok h6
    obtain ⟨o7, _, rfl⟩ := onParams_ok h7
    simp only [modify_apply] at h8; cases h8
    obtain ⟨o9, _, rfl⟩ := onParams_ok h9
    rfl
  have kall : RdRel c.decl s.sp.params o3 := (k1.trans k2).trans k3
  -- the invariant during sampling
  have hxm : ∀ o a o', SameRd c.decl s.sp.params o → readRMax env o = .ok a o' →
      a = rm ∧ SameRd c.decl s.sp.params o' := by
    intro o a o' ho he
    have := readRMax_keeps env hrm o
    rw [he] at this
    refine ⟨?_, fun n => (this.same n).trans (ho n)⟩
    have hh : outcome (paramGet (c.decl "r_max") "r_max" o) = .ok a := by
      rw [hrm]; show outcome (readRMax env o) = _; rw [he]; rfl
    rw [outcome_paramGet_rd, ho "r_max", ← outcome_paramGet_rd, hrmv] at hh
    cases hh; rfl
  have hat : ∀ o r d o', SameRd c.decl s.sp.params o → c.code.at' r o = .ok d o' →
      d = c.dens vs r ∧ SameRd c.decl s.sp.params o' := by
    intro o r d o' ho he
    have := c.at_keeps r o
    rw [he] at this
    refine ⟨?_, fun n => (this.same n).trans (ho n)⟩
    have hh := c.at_outcome r o
    rw [he, rdAll_congr _ _ ho, hvs] at hh
    cases hh; rfl
  have hnat : ∀ i, ∀ o r d o', SameRd c.decl s.sp.params o → normAt env c.code i r o = .ok d o' →
      d = (match i with
        | none => c.dens vs r
        | some x => env.div (c.dens vs r) x) ∧ SameRd c.decl s.sp.params o' := by
    intro i o r d o' ho he
    simp only [normAt, bind_ok_iff] at he
    obtain ⟨v, o1, h1, h2⟩ := he
    obtain ⟨rfl, h3⟩ := hat _ _ _ _ ho h1
    cases h2
    exact ⟨rfl, h3⟩
  refine ⟨rs, rm, vs, hd, ?_⟩
  rw [readAll_outcome]
  unfold drawRadii at h4
  by_cases hp : showProgress = true
  · rw [if_pos hp] at h4
    obtain ⟨_, hl, ha⟩ := rejectMany_spec hxm (hnat i) kall.same h4
    refine ⟨hl, hrmv, hvs, fun r hr => (ha r hr).1, ?_⟩
    rintro (hn | hn)
    · have : i = none := by rw [hn] at e1; cases e1; rfl
      subst this
      intro r hr
      obtain ⟨_, y, hy, hlt⟩ := ha r hr
      exact ⟨_, y, hy, hlt⟩
    · rw [hp] at hn; cases hn
  · rw [if_neg hp] at h4
    rw [bind_ok_iff] at h4
    obtain ⟨rm', s3', h3', h4⟩ := h4
    obtain ⟨o4, e4, rfl⟩ := onParams_ok h3'
    obtain ⟨rfl, hsame⟩ := hxm _ _ _ kall.same e4
    obtain ⟨_, hl, ha⟩ := rejectMany_spec (P := SameRd c.decl s.sp.params) (rm := rm') (g := c.dens vs)
      (fun o a o' hP e => by cases e; exact ⟨rfl, hP⟩) hat hsame h4
    refine ⟨hl, hrmv, hvs, fun r hr => (ha r hr).1, fun _ r hr => ?_⟩
    obtain ⟨_, y, hy, hlt⟩ := ha r hr
    exact ⟨_, y, hy, hlt⟩

end

open MeasureTheory Set

/-- C45: for a distance `r`, the heights in `[0, ymax]` that accept it have measure
`min (f r) ymax`, so the acceptance probability of a uniform height is
`min (f r) ymax / ymax`. -/
theorem C45_acceptance_probability (f : ℝ → ℝ) (ymax r : ℝ) (hy : 0 < ymax) (hf : 0 ≤ f r) :
    volume {y | y ∈ Icc 0 ymax ∧ y < f r} / volume (Icc 0 ymax)
      = ENNReal.ofReal (min (f r) ymax / ymax) := by
  have key : volume {y | y ∈ Icc 0 ymax ∧ y < f r} = ENNReal.ofReal (min (f r) ymax) := by
    by_cases h : f r ≤ ymax
    · have : {y | y ∈ Icc 0 ymax ∧ y < f r} = Ico 0 (f r) := by
        ext y; simp only [mem_setOf_eq, mem_Icc, mem_Ico]
        exact ⟨fun ⟨⟨a, _⟩, b⟩ => ⟨a, b⟩, fun ⟨a, b⟩ => ⟨⟨a, by linarith⟩, b⟩⟩
      rw [this, Real.volume_Ico, min_eq_left h, sub_zero]
    · push Not at h
      have : {y | y ∈ Icc 0 ymax ∧ y < f r} = Icc 0 ymax := by
        ext y; simp only [mem_setOf_eq, mem_Icc]
        exact ⟨fun ⟨a, _⟩ => a, fun a => ⟨a, by linarith [a.2]⟩⟩
      rw [this, Real.volume_Icc, min_eq_right h.le, sub_zero]
  rw [key, Real.volume_Icc, sub_zero, ENNReal.ofReal_div_of_pos hy]

/-- C45: accepted pairs with distance in `A` have (two-dimensional) measure
`∫_A min (f r) ymax`; so if `ymax` bounds `f`, accepted distances follow exactly the
density `f` (up to normalization). -/
theorem C45_accepted_law (f : ℝ → ℝ) (hfm : Measurable f) (hf : ∀ r, 0 ≤ f r) (ymax : ℝ)
    (hb : ∀ r, f r ≤ ymax) (A : Set ℝ) (hA : MeasurableSet A) :
    (volume.prod volume) {p : ℝ × ℝ | p.1 ∈ A ∧ p.2 ∈ Icc 0 ymax ∧ p.2 < f p.1}
      = ∫⁻ r in A, ENNReal.ofReal (f r) := by
  have hset : {p : ℝ × ℝ | p.1 ∈ A ∧ p.2 ∈ Icc 0 ymax ∧ p.2 < f p.1}
      = {p : ℝ × ℝ | p.1 ∈ A ∧ p.2 ∈ Ico 0 (f p.1)} := by
    ext p; simp only [mem_setOf_eq, mem_Icc, mem_Ico]
    exact ⟨fun ⟨a, ⟨b, _⟩, c⟩ => ⟨a, b, c⟩, fun ⟨a, b, c⟩ => ⟨a, ⟨b, by linarith [hb p.1]⟩, c⟩⟩
  have hm : MeasurableSet {p : ℝ × ℝ | p.1 ∈ A ∧ p.2 ∈ Ico 0 (f p.1)} :=
    (measurable_fst hA).inter
      ((measurableSet_le measurable_const measurable_snd).inter
        (measurableSet_lt measurable_snd (hfm.comp measurable_fst)))
  rw [hset, Measure.prod_apply hm, ← lintegral_indicator hA]
  apply lintegral_congr
  intro r
  by_cases hr : r ∈ A
  · rw [indicator_of_mem hr]
    have : Prod.mk r ⁻¹' {p : ℝ × ℝ | p.1 ∈ A ∧ p.2 ∈ Ico 0 (f p.1)} = Ico 0 (f r) := by
      ext y; simp [hr]
    rw [this, Real.volume_Ico, sub_zero]
  · rw [indicator_of_notMem hr]
    have : Prod.mk r ⁻¹' {p : ℝ × ℝ | p.1 ∈ A ∧ p.2 ∈ Ico 0 (f p.1)} = ∅ := by
      ext y; simp [hr]
    rw [this, measure_empty]

/-- C45: the acceptance probability is proportional to the density iff `ymax` bounds
it (given one distance of positive density at most `ymax`). -/
theorem C45_proportional_iff_bound (f : ℝ → ℝ) (S : Set ℝ) (ymax : ℝ) (hy : 0 < ymax)
    (r0 : ℝ) (h0 : r0 ∈ S) (hpos : 0 < f r0) (hle : f r0 ≤ ymax) :
    (∃ c, ∀ r ∈ S, min (f r) ymax / ymax = c * f r) ↔ ∀ r ∈ S, f r ≤ ymax := by
  constructor
  · rintro ⟨c, hc⟩ r hr
    have h1 := hc r0 h0
    rw [min_eq_left hle] at h1
    have hc' : c = 1 / ymax := by
      field_simp at h1 ⊢; linarith
    have h2 := hc r hr
    rw [hc'] at h2
    by_contra hn
    push Not at hn
    rw [min_eq_right hn.le] at h2
    field_simp at h2
    linarith
  · intro h
    refine ⟨1 / ymax, fun r hr => ?_⟩
    rw [min_eq_left (h r hr)]; ring

/-- The points of `np.linspace(0, rmax, 500)`. -/
noncomputable def grid500 (rmax : ℝ) : List ℝ := (List.range 500).map fun k : ℕ => (k : ℝ) * rmax / 499

/-- C45 violated in `draw_distance`: the bound is the maximum over 500 grid points,
which a smooth positive density can exceed; here it is twice the bound. -/
theorem C45_violated_grid_maximum (rmax : ℝ) (h : 0 < rmax) :
    ∃ f : ℝ → ℝ, Continuous f ∧ (∀ r, 0 < f r) ∧ (∀ r ∈ grid500 rmax, f r = 1) ∧
      ∃ r, 0 ≤ r ∧ r ≤ rmax ∧ f r = 2 := by
  refine ⟨fun r => 1 + Real.sin (Real.pi * (r * 499 / rmax)) ^ 2, by fun_prop, fun r => by positivity,
    ?_, rmax / 998, by positivity, by rw [div_le_iff₀ (by norm_num)]; linarith, ?_⟩
  · intro r hr
    simp only [grid500, List.mem_map, List.mem_range] at hr
    obtain ⟨k, _, rfl⟩ := hr
    have : Real.pi * ((k : ℝ) * rmax / 499 * 499 / rmax) = k * Real.pi := by
      field_simp
    simp only [this, Real.sin_nat_mul_pi]
    norm_num
  · have : Real.pi * (rmax / 998 * 499 / rmax) = Real.pi / 2 := by
      field_simp; norm_num
    simp only [this, Real.sin_pi_div_two]
    norm_num

example : (grid500 5).length = 500 := by
  unfold grid500; rw [List.length_map, List.length_range]

/-! ### C28 -/

/-- The result of a quadrature rule on a pure integrand. -/
def QuadStrat.eval (f : F → F) : QuadStrat F → F
  | .done v => v
  | .query x k => (k (f x)).eval f

/-- Scaling the integrand scales the result (true for every rule that adds up
weighted function values, and for the exact integral). -/
def Spec.Homogeneous (q : QuadStrat ℝ) : Prop :=
  ∀ (c : ℝ) (f : ℝ → ℝ), q.eval (fun x => c * f x) = c * q.eval f

/-- The composite rule with nodes and weights is homogeneous. -/
def QuadStrat.weighted (acc : ℝ) : List (ℝ × ℝ) → QuadStrat ℝ
  | [] => .done acc
  | (x, w) :: l => .query x fun y => QuadStrat.weighted (acc + w * y) l

theorem Spec.weighted_homogeneous (l : List (ℝ × ℝ)) :
    Spec.Homogeneous (QuadStrat.weighted 0 l) := by
  intro c f
  have : ∀ (l : List (ℝ × ℝ)) (a : ℝ), (QuadStrat.weighted (c * a) l).eval (fun x => c * f x)
      = c * (QuadStrat.weighted a l).eval f := by
    intro l
    induction l with
    | nil => intro a; rfl
    | cons p l ih =>
      intro a
      obtain ⟨x, w⟩ := p
      simp only [QuadStrat.weighted, QuadStrat.eval]
      rw [← ih]
      congr 2; ring
  simpa using this l 0

/-- A class whose density is its normalization parameter `p`, read first, times
something that does not depend on it. -/
structure Spec.Normalized (c : SpClass ℝ) (p : String) where
  others : List String
  shape : List ℝ → ℝ → ℝ
  reads : c.reads = p :: others
  notIn : p ∉ others
  flag : ∀ n, (c.decl n).isNorm = true ↔ n = p
  dens : ∀ v vs r, vs.length = others.length → c.dens (v :: vs) r = v * shape vs r
  rmax : c.decl "r_max" = declRMaxR


theorem QuadStrat.run_returns {σ : Type} {f : F → Py σ F} {g : F → F} {P : σ → Prop}
    (hf : ∀ o r, P o → ∃ o', f r o = .ok (g r) o' ∧ P o') (q : QuadStrat F) (o : σ) (hP : P o) :
    ∃ o', q.run f o = .ok (q.eval g) o' ∧ P o' := by
  induction q generalizing o with
  | done v => exact ⟨o, rfl, hP⟩
  | query x k ih =>
    obtain ⟨o1, h1, p1⟩ := hf o x hP
    obtain ⟨o2, h2, p2⟩ := ih (g x) o1 p1
    exact ⟨o2, by simp only [QuadStrat.run]; rw [bind_of_ok h1]; exact h2, p2⟩

theorem SpClass.at_returns (c : SpClass F) {o : Obj F} {vs : List F}
    (h : rdAll c.decl c.reads o = .ok vs) (r : F) :
    ∃ o', c.code.at' r o = .ok (c.dens vs r) o' ∧ RdRel c.decl o o' := by
  have h1 := c.at_outcome r o
  rw [h] at h1
  have h2 := ok_of_outcome (a := c.dens vs r) h1
  have h3 := c.at_keeps r o
  exact ⟨_, h2, h3⟩

theorem rdAll_length (decl : String → ParamDecl F) (ns : List String) (o : Obj F) (vs : List F)
    (h : rdAll decl ns o = .ok vs) : vs.length = ns.length := by
  induction ns generalizing vs with
  | nil => cases h; rfl
  | cons n ns ih =>
    simp only [rdAll] at h
    cases hr : rd decl n o with
    | none => rw [hr] at h; simp at h
    | some v =>
      rw [hr] at h; simp only at h
      cases h2 : rdAll decl ns o with
      | error e => rw [h2] at h; simp at h
      | ok ws => rw [h2] at h; simp only at h; cases h; simp [ih ws h2]

/-- Changing a parameter that is not read changes nothing. -/
theorem rdAll_set (decl : String → ParamDecl F) (ns : List String) (o : Obj F) (p : String)
    (v : Option F) (h : p ∉ ns) :
    rdAll decl ns { o with storage := o.storage.set p v } = rdAll decl ns o := by
  induction ns with
  | nil => rfl
  | cons n ns ih =>
    simp only [List.mem_cons, not_or] at h
    simp only [rdAll, ih h.2, rd, Dict.get?_set, if_neg h.1]

theorem rdAll_cons_ok (decl : String → ParamDecl F) (n : String) (ns : List String) (o : Obj F)
    (v : F) (vs : List F) (h1 : rd decl n o = some v) (h2 : rdAll decl ns o = .ok vs) :
    rdAll decl (n :: ns) o = .ok (v :: vs) := by
  simp only [rdAll, h1, h2]

section
variable (env : DistEnv ℝ G) {c : SpClass ℝ} {p : String} (N : Spec.Normalized c p)

/-- Normalized classes at readings `p = w`, others `vs`: evaluating the density. -/
theorem Spec.Normalized.at_returns {o : Obj ℝ} {w : ℝ} {vs : List ℝ}
    (h1 : rd c.decl p o = some w) (h2 : rdAll c.decl N.others o = .ok vs) (r : ℝ) :
    ∃ o', c.code.at' r o = .ok (w * N.shape vs r) o' ∧ RdRel c.decl o o' := by
  have h := rdAll_cons_ok c.decl p N.others o w vs h1 h2
  rw [← N.reads] at h
  obtain ⟨o', h3, h4⟩ := c.at_returns h r
  rw [N.dens w vs r (rdAll_length _ _ _ _ h2)] at h3
  exact ⟨o', h3, h4⟩

theorem Spec.Normalized.quad_returns {o : Obj ℝ} {w : ℝ} {vs : List ℝ}
    (h1 : rd c.decl p o = some w) (h2 : rdAll c.decl N.others o = .ok vs) (q : QuadStrat ℝ) :
    ∃ o', q.run c.code.at' o = .ok (q.eval fun r => w * N.shape vs r) o' ∧ RdRel c.decl o o' :=
  QuadStrat.run_returns (P := fun o' => RdRel c.decl o o') (fun o1 r hP => by
    obtain ⟨o2, h3, h4⟩ := N.at_returns (o := o1) (w := w) (vs := vs)
      (by rw [hP.same]; exact h1) (by rw [rdAll_congr _ _ hP.same]; exact h2) r
    exact ⟨o2, h3, hP.trans h4⟩) q o (RdRel.refl o)

theorem Spec.Normalized.quadNorm_returns {o : Obj ℝ} {w : ℝ} {vs : List ℝ} (i : ℝ)
    (h1 : rd c.decl p o = some w) (h2 : rdAll c.decl N.others o = .ok vs) (q : QuadStrat ℝ) :
    ∃ o', q.run (normAt env c.code (some i)) o =
      .ok (q.eval fun r => env.div (w * N.shape vs r) i) o' ∧ RdRel c.decl o o' :=
  QuadStrat.run_returns (P := fun o' => RdRel c.decl o o') (fun o1 r hP => by
    obtain ⟨o2, h3, h4⟩ := N.at_returns (o := o1) (w := w) (vs := vs)
      (by rw [hP.same]; exact h1) (by rw [rdAll_congr _ _ hP.same]; exact h2) r
    refine ⟨o2, ?_, hP.trans h4⟩
    unfold normAt; rw [bind_of_ok h3]; rfl) q o (RdRel.refl o)

theorem readRMax_returns (hrm : c.decl "r_max" = declRMax env) {o : Obj ℝ} {rm : ℝ}
    (h : rd c.decl "r_max" o = some rm) :
    ∃ o', readRMax env o = .ok rm o' ∧ RdRel c.decl o o' := by
  have h1 := outcome_paramGet_rd c.decl "r_max" o
  rw [h, hrm] at h1
  have h2 := ok_of_outcome (a := rm) h1
  exact ⟨_, h2, readRMax_keeps env hrm o⟩

/-- C28: with `normalize=True` the Poisson mean is exactly the value of the
normalization parameter, whatever the other parameters and `r_max` are, for every
class of the normalized form, every homogeneous quadrature rule and every non-zero
integral.  Either the parameter was set (or read) before, or it is untouched and has
default one.  (A third state, in which an assignment was rejected and nothing is
stored, gives `KeyError`: `C28_violated_rejected_assignment`.) -/
theorem C28_expected_count (hdiv : ∀ a b, env.div a b = a / b) (hten : env.ten = 10)
    (hq : ∀ h, Spec.Homogeneous (env.quad h)) (o : Obj ℝ) (v rm : ℝ) (vs : List ℝ)
    (hv : (o.norm = some p ∧ o.storage.get? p = some (some v)) ∨
      (o.norm = none ∧ o.storage.get? p = none ∧ (c.decl p).default = some 1 ∧ v = 1))
    (hvs : outcome (readAll c.decl N.others o) = .ok vs)
    (hrm : outcome (paramGet (c.decl "r_max") "r_max" o) = .ok rm)
    (hI : (env.quad rm).eval (N.shape vs) ≠ 0) :
    ∃ o', expectedCount env c.code true o = .ok v o' := by
  have hdecl : c.decl "r_max" = declRMax env := by rw [N.rmax]; simp [declRMaxR, declRMax, hten]
  have hpr : p ≠ "r_max" := by
    intro e
    have := (N.flag "r_max").2 e.symm
    rw [N.rmax] at this; cases this
  rw [readAll_outcome] at hvs
  have hrm' : rd c.decl "r_max" o = some rm := by
    rw [outcome_paramGet_rd] at hrm
    cases h : rd c.decl "r_max" o with
    | none => rw [h] at hrm; cases hrm
    | some x => rw [h] at hrm; cases hrm; rfl
  have hNv : (env.quad rm).eval (fun r => env.div (v * N.shape vs r)
      ((env.quad rm).eval fun r => 1 * N.shape vs r)) = v := by
    have e1 := hq rm 1 (N.shape vs)
    have e2 := hq rm (v / (1 * (env.quad rm).eval (N.shape vs))) (N.shape vs)
    rw [e1]
    have e3 : (fun r => env.div (v * N.shape vs r) (1 * (env.quad rm).eval (N.shape vs)))
        = fun r => v / (1 * (env.quad rm).eval (N.shape vs)) * N.shape vs r := by
      funext r; rw [hdiv]; ring
    rw [e3, e2]
    field_simp
  unfold expectedCount
  rw [if_pos rfl]
  rcases hv with ⟨hn, hg⟩ | ⟨hn, hg, hd, rfl⟩
  · -- normalization parameter set
    have hpush : pushNorm (some none) o = .ok (some (some v))
        { o with storage := o.storage.set p (some 1) } := by
      unfold pushNorm getNorm setNorm; simp [hn, hg]
    rw [bind_of_ok hpush]
    let o1 : Obj ℝ := { o with storage := o.storage.set p (some 1) }
    have hrm1 : rd c.decl "r_max" o1 = some rm := by
      simp only [o1, rd, Dict.get?_set, if_neg hpr]; exact hrm'
    have hp1 : rd c.decl p o1 = some 1 := by simp [o1, rd]
    have hvs1 : rdAll c.decl N.others o1 = .ok vs := by
      rw [rdAll_set _ _ _ _ _ N.notIn]; exact hvs
    obtain ⟨o2, h2, k2⟩ := readRMax_returns env hdecl hrm1
    rw [bind_of_ok h2]
    obtain ⟨o3, h3, k3⟩ := N.quad_returns (o := o2) (w := 1) (vs := vs)
      (by rw [k2.same]; exact hp1) (by rw [rdAll_congr _ _ k2.same]; exact hvs1) (env.quad rm)
    rw [bind_of_ok h3]
    have k13 : RdRel c.decl o1 o3 := k2.trans k3
    have hok : NormOk c.decl o1 := by
      intro n hn'
      have : some p = some n := by rw [← hn]; exact hn'
      cases this; exact (N.flag p).2 rfl
    have hn3 : o3.norm = some p := by
      obtain ⟨m, hm⟩ := Option.isSome_iff_exists.1 (k13.some (by rw [show o1.norm = some p from hn]; rfl))
      rw [hm, (N.flag m).1 (k13.normOk hok m hm)]
    have hrest : restoreNorm (some (some v)) o3 =
        .ok () { o3 with storage := o3.storage.set p (some v) } := by
      unfold restoreNorm setNorm; simp [hn3]
    rw [bind_of_ok hrest]
    let o4 : Obj ℝ := { o3 with storage := o3.storage.set p (some v) }
    have hrm4 : rd c.decl "r_max" o4 = some rm := by
      have := k13.same "r_max"
      rw [hrm1] at this
      simp only [o4, rd, Dict.get?_set, if_neg hpr]; exact this
    have hp4 : rd c.decl p o4 = some v := by simp [o4, rd]
    have hvs4 : rdAll c.decl N.others o4 = .ok vs := by
      rw [rdAll_set _ _ _ _ _ N.notIn, rdAll_congr _ _ k13.same]; exact hvs1
    obtain ⟨o5, h5, k5⟩ := readRMax_returns env hdecl hrm4
    rw [bind_of_ok h5]
    obtain ⟨o6, h6, k6⟩ := N.quadNorm_returns env (o := o5) (w := v) (vs := vs)
      ((env.quad rm).eval fun r => 1 * N.shape vs r)
      (by rw [k5.same]; exact hp4) (by rw [rdAll_congr _ _ k5.same]; exact hvs4) (env.quad rm)
    rw [hNv] at h6
    exact ⟨o6, h6⟩
  · -- untouched
    have hpush : pushNorm (some none) o = .ok (some none) o := by
      unfold pushNorm; simp [hn]
    rw [bind_of_ok hpush]
    have hp1 : rd c.decl p o = some 1 := by simp [rd, hg, hd]
    obtain ⟨o2, h2, k2⟩ := readRMax_returns env hdecl hrm'
    rw [bind_of_ok h2]
    obtain ⟨o3, h3, k3⟩ := N.quad_returns (o := o2) (w := 1) (vs := vs)
      (by rw [k2.same]; exact hp1) (by rw [rdAll_congr _ _ k2.same]; exact hvs) (env.quad rm)
    rw [bind_of_ok h3]
    rw [bind_of_ok (show restoreNorm (some none) o3 = .ok () o3 from rfl)]
    have k13 : RdRel c.decl o o3 := k2.trans k3
    obtain ⟨o5, h5, k5⟩ := readRMax_returns env hdecl (o := o3) (rm := rm)
      (by rw [k13.same]; exact hrm')
    rw [bind_of_ok h5]
    have k15 := k13.trans k5
    obtain ⟨o6, h6, k6⟩ := N.quadNorm_returns env (o := o5) (w := 1) (vs := vs)
      ((env.quad rm).eval fun r => 1 * N.shape vs r)
      (by rw [k15.same]; exact hp1) (by rw [rdAll_congr _ _ k15.same]; exact hvs) (env.quad rm)
    rw [hNv] at h6
    exact ⟨o6, h6⟩

/-- C28, the part that holds of the second half: the density reported as draw
probability by `draw_distance(normalize=True)` is the shape divided by its integral:
its integral (by the same rule) is one, and it does not depend on the value of the
normalization parameter.  Missing: that the distances are sampled from it, which is
false without progress bar, `C28_violated_silent_sampling`. -/
theorem C28_probability_density_partial (hdiv : ∀ a b, env.div a b = a / b) (hten : env.ten = 10)
    (hq : ∀ h, Spec.Homogeneous (env.quad h)) (showProgress : Bool) (size : Nat)
    (s s' : SpSt ℝ G) (v rm : ℝ) (vs : List ℝ)
    (hn : s.sp.params.norm = some p) (hg : s.sp.params.storage.get? p = some (some v))
    (hvs : outcome (readAll c.decl N.others s.sp.params) = .ok vs)
    (hrm : outcome (paramGet (c.decl "r_max") "r_max" s.sp.params) = .ok rm)
    (hI : (env.quad rm).eval (N.shape vs) ≠ 0)
    (h : drawDistance env c.code showProgress size true s = .ok () s') :
    ∃ (rs : List ℝ) (φ : ℝ → ℝ), s'.sp.distances = some rs ∧ s'.sp.probability = some (rs.map φ) ∧
      (∀ r, φ r = N.shape vs r / (env.quad rm).eval (N.shape vs)) ∧ (env.quad rm).eval φ = 1 := by
  have hdecl : c.decl "r_max" = declRMax env := by rw [N.rmax]; simp [declRMaxR, declRMax, hten]
  have hpr : p ≠ "r_max" := by
    intro e
    have := (N.flag "r_max").2 e.symm
    rw [N.rmax] at this; cases this
  have huniq : ∀ a b, (c.decl a).isNorm = true → (c.decl b).isNorm = true → a = b :=
    fun a b ha hb => ((N.flag a).1 ha).trans ((N.flag b).1 hb).symm
  have hok : NormOk c.decl s.sp.params := by
    intro n hn'
    rw [hn] at hn'; cases hn'; exact (N.flag p).2 rfl
  rw [readAll_outcome] at hvs
  have hrm' : rd c.decl "r_max" s.sp.params = some rm := by
    rw [outcome_paramGet_rd] at hrm
    cases h : rd c.decl "r_max" s.sp.params with
    | none => rw [h] at hrm; cases hrm
    | some x => rw [h] at hrm; cases hrm; rfl
  unfold drawDistance at h
  simp only [bind_ok_iff] at h
  obtain ⟨⟨i, old⟩, s1, h1, h⟩ := h
  obtain ⟨rm', s2, h2, ys, s3, h3, rs, s4, h4, _, s5, h5, old', s6, h6, pr, s7, h7, _, s8, h8, h9⟩ := h
  obtain ⟨o1, e1, rfl⟩ := onParams_ok h1
  obtain ⟨k1, k1'⟩ := normBlock_rel env c hdecl huniq true hok e1
  -- value of the integral
  have hi : i = some ((env.quad rm).eval fun r => 1 * N.shape vs r) := by
    unfold normBlock at e1
    rw [if_pos rfl] at e1
    have hpush : pushNorm none s.sp.params = .ok (some (some v))
        { s.sp.params with storage := s.sp.params.storage.set p (some 1) } := by
      unfold pushNorm getNorm setNorm; simp [hn, hg]
    rw [bind_of_ok hpush] at e1
    have hrm1 : rd c.decl "r_max"
        { s.sp.params with storage := s.sp.params.storage.set p (some 1) } = some rm := by
      simp only [rd, Dict.get?_set, if_neg hpr]; exact hrm'
    obtain ⟨o2, g2, k2⟩ := readRMax_returns env hdecl hrm1
    rw [bind_of_ok g2] at e1
    obtain ⟨o3, g3, k3⟩ := N.quad_returns (o := o2) (w := 1) (vs := vs)
      (by rw [k2.same]; simp [rd])
      (by rw [rdAll_congr _ _ k2.same, rdAll_set _ _ _ _ _ N.notIn]; exact hvs) (env.quad rm)
    rw [bind_of_ok g3] at e1
    simp only [bind_ok_iff] at e1
    obtain ⟨_, _, _, e⟩ := e1
    cases e; rfl
  have k2 := onParams_keeps (G := G) (readRMax_keeps env hdecl)
    { s with sp := { s.sp with params := o1 } }
  rw [h2] at k2
  have k3 := onParams_keeps (G := G) (normArr_keeps env c i (env.grid rm')) s2
  rw [h3] at k3
  have k4 := drawRadii_keeps env c hdecl showProgress i (env.npMax ys) size s3
  rw [h4] at k4
  have kk : RdRel c.decl s.sp.params s4.sp.params := k1.trans ((RdRel.trans k2 k3).trans k4)
  simp only [modify_apply] at h5; cases h5
  obtain ⟨o6, e6, rfl⟩ := onParams_ok h6
  obtain ⟨o7, e7, rfl⟩ := onParams_ok h7
  simp only [modify_apply] at h8; cases h8
  obtain ⟨o9, e9, rfl⟩ := onParams_ok h9
  have hn4 : s4.sp.params.norm = some p := by
    obtain ⟨m, hm⟩ := Option.isSome_iff_exists.1 (kk.some (by rw [hn]; rfl))
    rw [hm, (N.flag m).1 (kk.normOk hok m hm)]
  have ho6 : o6 = { s4.sp.params with storage := s4.sp.params.storage.set p (some 1) } := by
    rcases pushNorm_ok e6 with ⟨hx, _⟩ | ⟨m, w, hm, _, _, ho⟩
    · have : s4.sp.params.norm = none := hx
      rw [hn4] at this; cases this
    · have : s4.sp.params.norm = some m := hm
      rw [hn4] at this; cases this
      exact ho
  have hreads : rdAll c.decl c.reads o6 = .ok (1 :: vs) := by
    rw [N.reads]
    refine rdAll_cons_ok _ _ _ _ _ _ ?_ ?_
    · rw [ho6]; simp [rd]
    · rw [ho6, rdAll_set _ _ _ _ _ N.notIn, rdAll_congr _ _ kk.same]; exact hvs
  have hpr' : pr = rs.map fun r => env.div (1 * N.shape vs r) ((env.quad rm).eval fun r => 1 * N.shape vs r) := by
    have e7' : normArr env c.code i rs o6 = .ok pr o7 := e7
    simp only [normArr, bind_ok_iff] at e7'
    obtain ⟨w, o, hw, he⟩ := e7'
    have := c.onArr_outcome rs o6
    rw [hw, hreads] at this
    simp only [outcome, Except.map] at this
    cases this
    rw [hi] at he
    simp only [pure_apply] at he
    cases he
    rw [List.map_map]
    apply List.map_congr_left
    intro r _
    simp only [Function.comp_apply]
    rw [N.dens 1 vs r (rdAll_length _ _ _ _ hvs)]
  refine ⟨rs, _, rfl, congrArg some hpr', fun r => ?_, ?_⟩
  · rw [hdiv, hq rm 1 (N.shape vs)]; ring
  · have e3 : (fun r => env.div (1 * N.shape vs r) ((env.quad rm).eval fun r => 1 * N.shape vs r))
        = fun r => (1 / (env.quad rm).eval (N.shape vs)) * N.shape vs r := by
      funext r; rw [hdiv, hq rm 1 (N.shape vs)]; ring
    rw [e3, hq]
    field_simp

end

/-- The same over the exact integral: the normalized density integrates to one and
the expected count is the normalization parameter. -/
theorem C28_exact_integral (shape : ℝ → ℝ) (v rm : ℝ)
    (hI : ∫ r in (0 : ℝ)..rm, shape r ≠ 0) :
    (∫ r in (0 : ℝ)..rm, (v * shape r) / ∫ r in (0 : ℝ)..rm, 1 * shape r) = v ∧
    (∫ r in (0 : ℝ)..rm, (1 * shape r) / ∫ r in (0 : ℝ)..rm, 1 * shape r) = 1 := by
  simp only [one_mul]
  constructor
  · simp_rw [mul_div_assoc]
    rw [intervalIntegral.integral_const_mul, intervalIntegral.integral_div, div_self hI, mul_one]
  · rw [intervalIntegral.integral_div, div_self hI]

/-! The built-in classes with a flagged normalization parameter have the normalized
form. -/

theorem declTable_flag (t : List (String × ParamDecl ℝ)) (p : String)
    (h : ∀ n, ((Dict.get? t n).getD {}).isNorm = true ↔ n = p) (hp : p ≠ "r_max") (n : String) :
    (declTable t n).isNorm = true ↔ n = p := by
  unfold declTable
  split
  · rename_i e; subst e
    constructor
    · intro h; simp [declRMaxR] at h
    · intro e; exact absurd e.symm hp
  · exact h n

noncomputable def C28_constantSpherical : Spec.Normalized constantSpherical "Lambda" where
  others := []
  shape _ r := sphereVolume r
  reads := rfl
  notIn := by simp
  flag n := declTable_flag _ _ (fun n => by
    simp only [Dict.get?]; split <;> simp_all [eq_comm]) (by decide) n
  dens v vs r h := by
    have : vs = [] := List.length_eq_zero_iff.1 h
    subst this; simp [constantSpherical]
  rmax := rfl

noncomputable def C28_zpowerSpherical : Spec.Normalized zpowerSpherical "Lambda" where
  others := ["delta"]
  shape vs r := match vs with
    | [d] => (r + 1) ^ d * sphereVolume r
    | _ => 0
  reads := rfl
  notIn := by decide
  flag n := declTable_flag _ _ (fun n => by
    simp only [Dict.get?]; split <;> [skip; split] <;> simp_all [eq_comm]) (by decide) n
  dens v vs r h := by
    obtain ⟨d, rfl⟩ := List.length_eq_one_iff.1 h
    simp [zpowerSpherical]; ring
  rmax := rfl

noncomputable def C28_sfr (dv : ℝ → ℝ) (isRate : Bool) : Spec.Normalized (sfr dv isRate) "r0" where
  others := ["a", "rise", "decay", "peak"]
  shape vs z := match vs with
    | [a, rise, decay, peak] =>
      (a + rise * z) / (1 + (z / peak) ^ decay) * dv z / timeAdjustment isRate z
    | _ => 0
  reads := rfl
  notIn := by decide
  flag n := declTable_flag _ _ (fun n => by
    simp only [Dict.get?]
    repeat' split
    all_goals simp_all [eq_comm]) (by decide) n
  dens v vs r h := by
    match vs, h with
    | [a, b, c, d], _ => simp only [sfr]; ring
  rmax := rfl

noncomputable def C28_zpowerCosmo (dv : ℝ → ℝ) (isRate : Bool) :
    Spec.Normalized (zpowerCosmo dv isRate) "Lambda" where
  others := ["delta"]
  shape vs z := match vs with
    | [d] => (z + 1) ^ d * dv z / timeAdjustment isRate z
    | _ => 0
  reads := rfl
  notIn := by decide
  flag n := declTable_flag _ _ (fun n => by
    simp only [Dict.get?]
    repeat' split
    all_goals simp_all [eq_comm]) (by decide) n
  dens v vs r h := by
    obtain ⟨d, rfl⟩ := List.length_eq_one_iff.1 h
    simp only [zpowerCosmo]; ring
  rmax := rfl

noncomputable def C28_uniformCosmo (dv : ℝ → ℝ) (isRate : Bool) :
    Spec.Normalized (uniformCosmo dv isRate) "r0" where
  others := ["zmax", "zmin"]
  shape vs z := match vs with
    | [zmax, zmin] => 1 / (zmax - zmin) * dv z / timeAdjustment isRate z
    | _ => 0
  reads := rfl
  notIn := by decide
  flag n := declTable_flag _ _ (fun n => by
    simp only [Dict.get?]
    repeat' split
    all_goals simp_all [eq_comm]) (by decide) n
  dens v vs r h := by
    match vs, h with
    | [a, b], _ => simp only [uniformCosmo]; ring
  rmax := rfl

/-- The built-in classes with a flagged parameter, with the name of that parameter. -/
inductive Spec.FlaggedBuiltin : SpClass ℝ → String → Prop
  | constant : Spec.FlaggedBuiltin constantSpherical "Lambda"
  | zpower : Spec.FlaggedBuiltin zpowerSpherical "Lambda"
  | sfr (dv : ℝ → ℝ) (isRate : Bool) : Spec.FlaggedBuiltin (sfr dv isRate) "r0"
  | zpowerCosmo (dv : ℝ → ℝ) (isRate : Bool) : Spec.FlaggedBuiltin (zpowerCosmo dv isRate) "Lambda"
  | uniformCosmo (dv : ℝ → ℝ) (isRate : Bool) : Spec.FlaggedBuiltin (uniformCosmo dv isRate) "r0"

theorem Spec.FlaggedBuiltin.normalized {c : SpClass ℝ} {p : String} (h : Spec.FlaggedBuiltin c p) :
    Nonempty (Spec.Normalized c p) := by
  cases h
  · exact ⟨C28_constantSpherical⟩
  · exact ⟨C28_zpowerSpherical⟩
  · exact ⟨C28_sfr _ _⟩
  · exact ⟨C28_zpowerCosmo _ _⟩
  · exact ⟨C28_uniformCosmo _ _⟩

theorem Spec.Homogeneous.zero {q : QuadStrat ℝ} (h : Spec.Homogeneous q) (f : ℝ → ℝ)
    (hf : ∀ x, f x = 0) : q.eval f = 0 := by
  have := h 0 f
  rw [zero_mul] at this
  rw [← this]; congr 1; funext x; rw [hf x, zero_mul]

/-- C28 for the built-in classes, stated with the density they compute: if the flagged
parameter reads `v` (set or read before), the other parameters read and `r_max` read,
and the integral of the density at normalization one is not zero, then the Poisson
mean of `draw_survey(normalize=True)` is `v`. -/
theorem C28_builtin_expected_count (env : DistEnv ℝ G) {c : SpClass ℝ} {p : String}
    (hb : Spec.FlaggedBuiltin c p) (hdiv : ∀ a b, env.div a b = a / b) (hten : env.ten = 10)
    (hq : ∀ h, Spec.Homogeneous (env.quad h)) (o : Obj ℝ) (v rm : ℝ) (vs : List ℝ)
    (hn : o.norm = some p) (hs : o.storage.get? p = some (some v))
    (hvs : outcome (readAll c.decl c.reads o) = .ok (v :: vs))
    (hrm : outcome (paramGet (c.decl "r_max") "r_max" o) = .ok rm)
    (hI : (env.quad rm).eval (fun r => c.dens (1 :: vs) r) ≠ 0) :
    ∃ o', expectedCount env c.code true o = .ok v o' := by
  obtain ⟨N⟩ := hb.normalized
  rw [readAll_outcome, N.reads] at hvs
  have h2 : rdAll c.decl N.others o = .ok vs := by
    simp only [rdAll] at hvs
    cases h : rd c.decl p o with
    | none => rw [h] at hvs; simp at hvs
    | some x =>
      rw [h] at hvs; simp only at hvs
      cases h3 : rdAll c.decl N.others o with
      | error e => rw [h3] at hvs; simp at hvs
      | ok ws => rw [h3] at hvs; simp only at hvs; cases hvs; rfl
  refine C28_expected_count env N hdiv hten hq o v rm vs (.inl ⟨hn, hs⟩)
    (by rw [readAll_outcome]; exact h2) hrm ?_
  have e : (fun r => c.dens (1 :: vs) r) = fun r => 1 * N.shape vs r := by
    funext r; rw [N.dens 1 vs r (rdAll_length _ _ _ _ h2)]
  rw [e, hq rm 1 (N.shape vs), one_mul] at hI
  exact hI

/-- A homogeneous rule exists and the theorem applies: constant density with
`Lambda = 5`, midpoint rule, expected count 5. -/
example : ∃ o', expectedCount (G := Unit)
    { uniform := fun _ g => (.ok 0, g), quad := fun h => QuadStrat.weighted 0 [(h / 2, h)],
      grid := fun _ => [], npMax := fun _ => 0, div := fun a b => a / b, lt := fun _ _ => true,
      thetaOf := id, twoPi := 6, ten := 10, budget := 0 }
    constantSpherical.code true
    { storage := [("Lambda", some 5)], norm := some "Lambda" } = .ok 5 o' := by
  refine C28_builtin_expected_count _ .constant (fun _ _ => rfl) rfl
    (fun h => Spec.weighted_homogeneous _) _ 5 10 [] rfl rfl rfl rfl ?_
  simp [QuadStrat.weighted, QuadStrat.eval, constantSpherical, sphereVolume, Real.pi_ne_zero]

/-- C28 violated: if the only thing that happened to the flagged parameter is a
rejected assignment (`Lambda = -1`), `draw_survey(normalize=True)` raises `KeyError`
instead of using the default. -/
theorem C28_violated_rejected_assignment (env : DistEnv ℝ G) (c : SpClass ℝ) (p : String)
    (o : Obj ℝ) (hn : o.norm = some p) (hs : o.storage.get? p = none) :
    ∃ o', expectedCount env c.code true o = .error .key o' := by
  unfold expectedCount
  rw [if_pos rfl]
  refine ⟨o, bind_of_error ?_⟩
  unfold pushNorm getNorm
  simp [hn, hs]

open Classical in
/-- The state of the previous theorem arises so. -/
theorem C28_violated_rejected_assignment_reachable :
    let o := (runOps constantSpherical.decl (ClassState.init constantSpherical.decl)
      [.assign 0 "Lambda" (some (-1))]).objs 0
    o.norm = some "Lambda" ∧ o.storage.get? "Lambda" = none := by
  have hb : ¬ ((constantSpherical.decl "Lambda").free = true ∧
      Spec.InBounds (constantSpherical.decl "Lambda") (some (-1))) := by
    simp [constantSpherical, declTable, Dict.get?, Spec.InBounds]
  obtain ⟨e, _, he⟩ := paramSet_reject (constantSpherical.decl "Lambda")
    (constantSpherical.decl "Lambda").free "Lambda" (some (-1)) {} hb
  simp only [runOps, List.foldl, stepOp, ClassState.setObj, ClassState.init, if_pos, he]
  constructor <;> rfl

/-- C28 violated: without progress bar `draw_distance(normalize=True)` compares the
unnormalized density with a bound taken from the normalized one (`C46_violated_normalized`).
Whenever the integral exceeds one this is not a bound, and the sampling is not
proportional to the density (`M` is the maximum of the density, attained at `rM`). -/
theorem C28_violated_silent_sampling (f : ℝ → ℝ) (S : Set ℝ) (M I rM : ℝ) (hM : 0 < M)
    (hI : 1 < I) (hrM : rM ∈ S) (hfM : f rM = M)
    (r0 : ℝ) (h0 : r0 ∈ S) (hpos : 0 < f r0) (hle : f r0 ≤ M / I) :
    ¬ ∃ k, ∀ r ∈ S, min (f r) (M / I) / (M / I) = k * f r := by
  rw [C45_proportional_iff_bound f S (M / I) (by positivity) r0 h0 hpos hle]
  intro h
  have h1 := h rM hrM
  rw [hfM, le_div_iff₀ (by linarith)] at h1
  nlinarith

example : ¬ ∃ k, ∀ r ∈ Set.Icc (0 : ℝ) 10,
    min (sphereVolume r) (sphereVolume 10 / 400) / (sphereVolume 10 / 400) = k * sphereVolume r := by
  have hp := Real.pi_pos
  refine C28_violated_silent_sampling sphereVolume _ _ 400 10 ?_ (by norm_num) (by norm_num) rfl
    (1 / 2) (by norm_num) ?_ ?_ <;> unfold sphereVolume
  · positivity
  · positivity
  · nlinarith

/-- Extension of C28 to distributions that have recorded no normalization parameter
(`Flatland`, `SpiralGalaxy`, where no parameter is flagged): the count is one whatever
the amplitude. -/
theorem C28_violated_unflagged (env : DistEnv ℝ G) (c : SpClass ℝ)
    (hrmax : c.decl "r_max" = declRMaxR)
    (hdiv : ∀ a b, env.div a b = a / b) (hten : env.ten = 10)
    (hq : ∀ h, Spec.Homogeneous (env.quad h)) (o : Obj ℝ) (rm : ℝ) (vs : List ℝ)
    (hn : o.norm = none)
    (hvs : outcome (readAll c.decl c.reads o) = .ok vs)
    (hrm : outcome (paramGet (c.decl "r_max") "r_max" o) = .ok rm)
    (hI : (env.quad rm).eval (fun r => c.dens vs r) ≠ 0) :
    ∃ o', expectedCount env c.code true o = .ok 1 o' := by
  have hdecl : c.decl "r_max" = declRMax env := by rw [hrmax]; simp [declRMaxR, declRMax, hten]
  rw [readAll_outcome] at hvs
  have hrm' : rd c.decl "r_max" o = some rm := by
    rw [outcome_paramGet_rd] at hrm
    cases h : rd c.decl "r_max" o with
    | none => rw [h] at hrm; cases hrm
    | some x => rw [h] at hrm; cases hrm; rfl
  unfold expectedCount
  rw [if_pos rfl]
  have hpush : pushNorm (some none) o = .ok (some none) o := by unfold pushNorm; simp [hn]
  rw [bind_of_ok hpush]
  obtain ⟨o1, g1, k1⟩ := readRMax_returns env hdecl hrm'
  rw [bind_of_ok g1]
  obtain ⟨o2, g2, k2⟩ := QuadStrat.run_returns (f := c.code.at') (g := fun r => c.dens vs r)
    (P := fun o' => RdRel c.decl o o') (fun o1 r hP => by
      obtain ⟨o2, h3, h4⟩ := c.at_returns (o := o1) (vs := vs)
        (by rw [rdAll_congr _ _ hP.same]; exact hvs) r
      exact ⟨o2, h3, hP.trans h4⟩) (env.quad rm) o1 k1
  rw [bind_of_ok g2]
  have g3 : restoreNorm (some none) o2 = .ok () o2 := rfl
  rw [bind_of_ok g3]
  obtain ⟨o3, g4, k4⟩ := readRMax_returns env hdecl (o := o2) (rm := rm) (by rw [k2.same]; exact hrm')
  rw [bind_of_ok g4]
  obtain ⟨o4, g5, _⟩ := QuadStrat.run_returns
    (f := normAt env c.code (some ((env.quad rm).eval fun r => c.dens vs r)))
    (g := fun r => env.div (c.dens vs r) ((env.quad rm).eval fun r => c.dens vs r))
    (P := fun o' => RdRel c.decl o o') (fun o1 r hP => by
      obtain ⟨o2, h3, h4⟩ := c.at_returns (o := o1) (vs := vs)
        (by rw [rdAll_congr _ _ hP.same]; exact hvs) r
      refine ⟨o2, ?_, hP.trans h4⟩
      unfold normAt; rw [bind_of_ok h3]; rfl) (env.quad rm) o3 (k2.trans k4)
  refine ⟨o4, g5.trans ?_⟩
  congr 1
  have e : (fun r => env.div (c.dens vs r) ((env.quad rm).eval fun r => c.dens vs r))
      = fun r => (1 / (env.quad rm).eval fun r => c.dens vs r) * c.dens vs r := by
    funext r; rw [hdiv]; ring
  rw [e, hq]
  field_simp

example (n : String) : (flatland.decl n).isNorm = false ∧ (spiralGalaxy.decl n).isNorm = false := by
  constructor <;> simp only [flatland, spiralGalaxy, declTable, Dict.get?] <;> repeat' split
  all_goals simp_all [declRMaxR]

end Popsynth
