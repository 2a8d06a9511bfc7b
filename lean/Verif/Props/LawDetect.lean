import Verif.Lemmas.SurveyLaw
import Verif.Props.SelectionReturns

/-!
# With which probability the built-in flux selections detect an object (C74)
-/

set_option autoImplicit false
set_option linter.unusedSectionVars false

open MeasureTheory Filter
open scoped NNReal ENNReal

namespace Popsynth
variable {G : Type} [MeasurableSpace G] {P : Measure G} [IsProbabilityMeasure P]

/-- The primitive `stats.bernoulli.rvs(q)`: the answer is determined by `q` and a random
number that is independent of everything before; for a valid probability `q` it is `True`
with probability `q`. -/
def Spec.FairBern (P : Measure G) (env : SelEnv ℝ G) : Prop :=
  ∃ (ν : Measure ℝ) (E : Set (ℝ × ℝ)) (_ : DecidablePred (· ∈ E)), IsProbabilityMeasure ν ∧
    MeasurableSet E ∧ (∀ q, env.validProb q = true → ν {u | (q, u) ∈ E} = ENNReal.ofReal q) ∧
    Spec.Samples P ν fun _ g u g' => ∀ q, env.validProb q = true →
      env.bern q g = (decide ((q, u) ∈ E), g')

/-! ### Selections without chance -/

theorem still_samples : Spec.Samples P (Measure.dirac (0 : ℝ)) fun _ g u g' => u = 0 ∧ g' = g := by
  refine ⟨fun g => (0, g), ⟨by fun_prop, ?_⟩, Eventually.of_forall fun g => Eventually.of_forall fun k => ⟨rfl, rfl⟩⟩
  rw [Measure.dirac_prod]

theorem still_repeats (k : ℕ) : ∀ (l : List ℝ) (g g' : G),
    Repeats (fun _ g u g' => u = 0 ∧ g' = g) k l g g' → g' = g
  | [], _, _, h => h
  | _ :: l, g, g', ⟨_, ⟨_, h1⟩, h2⟩ => by rw [still_repeats k l _ _ h2, h1]

/-- A selection that compares the flux with its limits. -/
theorem detects_rule {w : World ℝ G} {sel : Selector ℝ G} {B : Set ℝ} (hB : MeasurableSet B)
    [DecidablePred (· ∈ B)]
    (h : ∀ (n : ℕ) (fs : Fin n → ℝ) (g : G), ∃ sel', selDraw w.sel w.half w.ninety w.showProgress n
        { sel := { sel with data := { sel.data with flux := some (List.ofFn fs) } }, rng := g } =
        .ok () { sel := sel', rng := g } ∧
      sel'.selection = some ((List.ofFn fs).map fun x => decide (x ∈ B))) :
    Spec.Detects P w sel (B.indicator 1) := by
  refine ⟨Measure.dirac 0, B ×ˢ Set.univ, fun q => decidable_of_iff (q.1 ∈ B) (by simp), inferInstance,
    hB.prod MeasurableSet.univ, fun x => ?_, fun n => ?_⟩
  · by_cases hx : x ∈ B <;> simp [hx]
  · refine Samples.mono (Samples.repeat still_samples n) fun k g u g' hr fs => ?_
    obtain ⟨sel', h1, h2⟩ := h n fs g
    rw [still_repeats k _ _ _ hr]
    refine ⟨sel', h1, ?_⟩
    rw [h2, List.map_ofFn]
    congr 2
    funext i
    simp

/-- The flux a flux selection looks at. -/
theorem chosen_flux {d : SelData ℝ} (h : d.useFlux = true) (vs : List ℝ) :
    chosenValues { d with flux := some vs } = .ok (some vs) := by
  simp [chosenValues, h]

/-- **C74** (everything selected): `UnitySelection` detects every object. -/
theorem C74_detects_all (w : World ℝ G) {sel : Selector ℝ G} (hk : sel.kind = .unity) :
    Spec.Detects P w sel 1 := by
  have := detects_rule (P := P) (w := w) (sel := sel) (B := Set.univ) MeasurableSet.univ
    (fun n fs g => ⟨{ sel with data := { sel.data with flux := some (List.ofFn fs) }, selection := some (List.replicate n true) }, by
      simp [selDraw, bind_apply, hk, setMask], by simp [List.map_const']⟩)
  simpa using this

/-- **C74** (hard limit): `HardFluxSelection` and `LowerBound` detect an object if and only if
its observed flux is at least the boundary. -/
theorem C74_detects_hard (w : World ℝ G) {sel : Selector ℝ G} {b : ℝ} (hk : sel.kind = .lower)
    (hu : sel.data.useFlux = true) (hb : Spec.Stored sel "boundary" b) :
    Spec.Detects P w sel ((Set.Ici b).indicator 1) := by
  refine detects_rule measurableSet_Ici fun n fs g =>
    ⟨{ sel with data := { sel.data with flux := some (List.ofFn fs) }, selection := some (geMask (List.ofFn fs) b) }, ?_, ?_⟩
  · have k1 := selParam_stored (s := ({ sel := { sel with data := { sel.data with flux := some (List.ofFn fs) } }, rng := g } : SelSt ℝ G)) (d := declBoundary) rfl hb
    simp only [hk] at k1
    simp [selDraw, bind_apply, hk, chosen_flux hu, k1, setMask, liftE, needArray]
  · simp [geMask]

/-- **C74** (upper limit): `UpperBound` on fluxes. -/
theorem C74_detects_upper (w : World ℝ G) {sel : Selector ℝ G} {b : ℝ} (hk : sel.kind = .upper)
    (hu : sel.data.useFlux = true) (hb : Spec.Stored sel "boundary" b) :
    Spec.Detects P w sel ((Set.Iic b).indicator 1) := by
  refine detects_rule measurableSet_Iic fun n fs g =>
    ⟨{ sel with data := { sel.data with flux := some (List.ofFn fs) }, selection := some (leMask (List.ofFn fs) b) }, ?_, ?_⟩
  · have k1 := selParam_stored (s := ({ sel := { sel with data := { sel.data with flux := some (List.ofFn fs) } }, rng := g } : SelSt ℝ G)) (d := declBoundary) rfl hb
    simp only [hk] at k1
    simp [selDraw, bind_apply, hk, chosen_flux hu, k1, setMask, liftE, needArray]
  · simp [leMask]

/-- **C74** (box): `BoxSelection` on fluxes. -/
theorem C74_detects_box (w : World ℝ G) {sel : Selector ℝ G} {lo hi : ℝ} (hk : sel.kind = .box)
    (hu : sel.data.useFlux = true) (h1 : Spec.Stored sel "vmin" lo) (h2 : Spec.Stored sel "vmax" hi) :
    Spec.Detects P w sel ((Set.Icc lo hi).indicator 1) := by
  refine detects_rule measurableSet_Icc fun n fs g =>
    ⟨{ sel with data := { sel.data with flux := some (List.ofFn fs) }, selection := some (andMask (geMask (List.ofFn fs) lo) (leMask (List.ofFn fs) hi)) }, ?_, ?_⟩
  · have k1 := selParam_stored (s := ({ sel := { sel with data := { sel.data with flux := some (List.ofFn fs) } }, rng := g } : SelSt ℝ G)) (d := declBox) rfl h1
    have k2 := selParam_stored (s := ({ sel := { sel with data := { sel.data with flux := some (List.ofFn fs) } }, rng := g } : SelSt ℝ G)) (d := declBox) rfl h2
    simp only [hk] at k1 k2
    simp [selDraw, bind_apply, hk, chosen_flux hu, k1, k2, setMask, liftE, needArray]
  · simp only [andMask, geMask, leMask, List.map_ofFn, ofFn_zipWith]
    simp [Set.mem_Icc, Bool.decide_and, Function.comp_def]

/-! ### Selections with chance -/

theorem bernMany_repeats {env : SelEnv ℝ G} {E : Set (ℝ × ℝ)} [DecidablePred (· ∈ E)] (k : ℕ) :
    ∀ (us qs : List ℝ) (g g' : G), us.length = qs.length → (∀ q ∈ qs, env.validProb q = true) →
      Repeats (fun _ g u g' => ∀ q, env.validProb q = true → env.bern q g = (decide ((q, u) ∈ E), g')) k us g g' →
      bernMany env qs g = (List.zipWith (fun q u => decide ((q, u) ∈ E)) qs us, g')
  | [], [], _, _, _, _, h => by cases h; rfl
  | u :: us, q :: qs, g, g', hl, hv, ⟨g1, h1, h2⟩ => by
    simp only [List.length_cons, Nat.add_right_cancel_iff] at hl
    simp only [bernMany, h1 q (hv q (by simp)), List.zipWith_cons_cons,
      bernMany_repeats k us qs g1 g' hl (fun q hq => hv q (by simp [hq])) h2]

/-- A selection that draws one trial per object with a probability that depends on its flux. -/
theorem detects_trial {w : World ℝ G} (hfair : Spec.FairBern P w.sel) {sel : Selector ℝ G} {f : ℝ → ℝ}
    (hf : Measurable f) (hv : ∀ x, w.sel.validProb (f x) = true)
    (h : ∀ (n : ℕ) (fs : Fin n → ℝ) (g : G), ∃ sel', selDraw w.sel w.half w.ninety w.showProgress n
        { sel := { sel with data := { sel.data with flux := some (List.ofFn fs) } }, rng := g } =
        .ok () { sel := sel', rng := (bernMany w.sel ((List.ofFn fs).map f) g).2 } ∧
      sel'.selection = some (bernMany w.sel ((List.ofFn fs).map f) g).1) :
    Spec.Detects P w sel fun x => ENNReal.ofReal (f x) := by
  obtain ⟨ν, E, _, hν, hE, hq, hs⟩ := hfair
  refine ⟨ν, {q | (f q.1, q.2) ∈ E}, fun q => decidable_of_iff ((f q.1, q.2) ∈ E) Iff.rfl, hν,
    ((hf.comp measurable_fst).prodMk measurable_snd) hE, fun x => hq _ (hv x), fun n => ?_⟩
  refine Samples.mono (Samples.repeat hs n) fun k g u g' hr fs => ?_
  obtain ⟨sel', h1, h2⟩ := h n fs g
  have hb := bernMany_repeats k (List.ofFn u) ((List.ofFn fs).map f) g g' (by simp) (by
    intro q hq
    obtain ⟨x, -, rfl⟩ := List.mem_map.1 hq
    exact hv x) hr
  rw [hb] at h1 h2
  refine ⟨sel', h1, ?_⟩
  rw [h2, List.map_ofFn, ofFn_zipWith]
  refine congrArg (fun h => some (List.ofFn h)) (funext fun i => ?_)
  exact decide_eq_decide.2 Iff.rfl

/-- **C74** (soft limit): `SoftFluxSelection` and `SoftSelection` on fluxes detect an object
with the logistic probability of its observed flux. -/
theorem C74_detects_soft (w : World ℝ G) (hfair : Spec.FairBern P w.sel) {sel : Selector ℝ G} {k b : ℝ}
    (hk : sel.kind = .soft) (hu : sel.data.useFlux = true) (h1 : Spec.Stored sel "strength" k)
    (h2 : Spec.Stored sel "boundary" b) (hm : Measurable (w.sel.softLog k b))
    (hv : ∀ x, w.sel.validProb (w.sel.softLog k b x) = true) :
    Spec.Detects P w sel fun x => ENNReal.ofReal (w.sel.softLog k b x) := by
  refine detects_trial hfair hm hv fun n fs g =>
    ⟨{ sel with data := { sel.data with flux := some (List.ofFn fs) }, selection := some (bernMany w.sel ((List.ofFn fs).map (w.sel.softLog k b)) g).1 }, ?_, rfl⟩
  have k1 := selParam_stored (s := ({ sel := { sel with data := { sel.data with flux := some (List.ofFn fs) } }, rng := g } : SelSt ℝ G)) (d := declStrength) rfl h1
  have k2 := selParam_stored (s := ({ sel := { sel with data := { sel.data with flux := some (List.ofFn fs) } }, rng := g } : SelSt ℝ G)) (d := declBoundary) rfl h2
  simp only [hk] at k1 k2
  have hall : ((List.ofFn fs).map (w.sel.softLog k b)).all w.sel.validProb = true := by
    rw [List.all_eq_true]
    intro q hq
    obtain ⟨x, -, rfl⟩ := List.mem_map.1 hq
    exact hv x
  simp only [selDraw, bind_apply, get_apply, hk, chosen_flux hu, liftE, pure_apply, k1, needArray, k2, hall,
      if_true, setMask_apply, modify_apply]

/-- **C74** (coin): `BernoulliSelection` detects every object with its probability, whatever
the flux, with and without progress bars. -/
theorem C74_detects_coin (w : World ℝ G) (hfair : Spec.FairBern P w.sel) {sel : Selector ℝ G} {q : ℝ}
    (hk : sel.kind = .bernoulli) (h1 : Spec.Stored sel "probability" q)
    (hv : w.sel.validProb q = true) :
    Spec.Detects P w sel fun _ => ENNReal.ofReal q := by
  refine detects_trial hfair (f := fun _ => q) measurable_const (fun _ => hv) fun n fs g => ?_
  have e : (List.ofFn fs).map (fun _ => q) = List.replicate n q := by
    rw [List.map_const']; simp
  rw [e]
  have k1 := selParam_stored (s := ({ sel := { sel with data := { sel.data with flux := some (List.ofFn fs) } }, rng := g } : SelSt ℝ G)) (d := declProb w.half) rfl h1
  refine ⟨{ sel with data := { sel.data with flux := some (List.ofFn fs) }, selection := some (bernMany w.sel (List.replicate n q) g).1 }, ?_, rfl⟩
  cases hpb : w.showProgress with
  | false =>
    simp only [hk] at k1
    simp [selDraw, bind_apply, hk, k1, hv, setMask]
  | true =>
    by_cases hn : n = 0
    · subst hn
      simp [selDraw, bind_apply, hk, setMask, bernMany]
    · have k2 := selParam_stored (s := ({ sel := { sel with data := { sel.data with flux := some (List.ofFn fs) }, selection := some (List.replicate n false) }, rng := g } : SelSt ℝ G)) (d := declProb w.half) rfl h1
      have hloop := bernLoop_eq w.sel q n 0 [] g rfl
      simp only [List.nil_append, Nat.zero_add, List.map_id_fun', id_eq] at hloop
      simp only [hk] at k2
      simp [selDraw, bind_apply, hk, hn, k2, hv, setMask, hloop]

end Popsynth
