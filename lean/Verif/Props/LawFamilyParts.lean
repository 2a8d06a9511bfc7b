import Verif.Props.LawFamily
import Verif.Props.LawAttachedChoice

/-!
# Selectors and built-in classes of samplers with secondaries (C84)
-/

set_option autoImplicit false
set_option linter.unusedSectionVars false

open MeasureTheory Filter
open scoped NNReal ENNReal

namespace Popsynth
variable {G : Type} [MeasurableSpace G] {P : Measure G} [IsProbabilityMeasure P]

/-- The selector given distances, luminosities and observed values. -/
def litTo (sel : Selector ℝ G) (b lit : Bool) (r l o : List ℝ) : Selector ℝ G :=
  { sel with data := { sel.data with
      distance := if b then some r else sel.data.distance
      luminosity := if lit then some l else sel.data.luminosity
      obsValue := some o } }

theorem lit_chosen {d : SelData ℝ} {b lit : Bool} {f : ℝ × ℝ × ℝ → ℝ} (h : Spec.LooksAt d b f)
    (hl : lit = true ∨ d.useLuminosity = false) {n : ℕ} (r l o : Fin n → ℝ) :
    chosenValues { d with distance := if b then some (List.ofFn r) else d.distance
                          luminosity := if lit then some (List.ofFn l) else d.luminosity
                          obsValue := some (List.ofFn o) } =
      .ok (some (List.ofFn fun i => f (r i, l i, o i))) := by
  cases h with
  | luminosity h1 h2 =>
    rcases hl with rfl | hl
    · simp [chosenValues, h1, h2]
    · rw [h2] at hl; simp at hl
  | obsValue h1 h2 h3 => simp [chosenValues, h1, h2, h3]
  | distance h1 h2 h3 h4 h5 => subst h5; simp [chosenValues, h1, h2, h3, h4]

theorem picks_rule {w : World ℝ G} {sel : Selector ℝ G} {b lit : Bool} {B : Set (ℝ × ℝ × ℝ)}
    (hB : MeasurableSet B) [DecidablePred (· ∈ B)] [DecidablePred (· ∈ B ×ˢ (Set.univ : Set ℝ))]
    (hu : sel.kind.isUnity = true → B = Set.univ)
    (h : ∀ (n : ℕ) (r l o : Fin n → ℝ) (g : G), ∃ sel',
      selDraw w.sel w.half w.ninety w.showProgress n
        { sel := litTo sel b lit (List.ofFn r) (List.ofFn l) (List.ofFn o), rng := g } =
        .ok () { sel := sel', rng := g } ∧ sel'.kind = sel.kind ∧
      sel'.selection = some (List.ofFn fun i => decide ((r i, l i, o i) ∈ B))) :
    Spec.Picks P w sel b lit (Measure.dirac 0) (B ×ˢ Set.univ) := by
  refine ⟨inferInstance, hB.prod MeasurableSet.univ, fun h => by rw [hu h, Set.univ_prod_univ], fun n => ?_⟩
  refine Samples.mono (Samples.repeat still_samples n) fun k g u g' hr r l o => ?_
  obtain ⟨sel', h1, h2, h3⟩ := h n r l o g
  rw [still_repeats k _ _ _ hr]
  refine ⟨sel', h1, h2, ?_⟩
  rw [h3]
  refine congrArg (fun h => some (List.ofFn h)) (funext fun i => ?_)
  exact decide_eq_decide.2 (by simp)

theorem picks_trial {w : World ℝ G} (hfair : Spec.FairBern P w.sel) {sel : Selector ℝ G} {b lit : Bool}
    {f : ℝ × ℝ × ℝ → ℝ} (hf : Measurable f) (hv : ∀ x, w.sel.validProb (f x) = true)
    (hu : sel.kind.isUnity = false)
    (h : ∀ (n : ℕ) (r l o : Fin n → ℝ) (g : G), ∃ sel',
      selDraw w.sel w.half w.ninety w.showProgress n
        { sel := litTo sel b lit (List.ofFn r) (List.ofFn l) (List.ofFn o), rng := g } =
        .ok () { sel := sel', rng := (bernMany w.sel (List.ofFn fun i => f (r i, l i, o i)) g).2 } ∧
      sel'.kind = sel.kind ∧
      sel'.selection = some (bernMany w.sel (List.ofFn fun i => f (r i, l i, o i)) g).1) :
    ∃ (ν : Measure ℝ) (D : Set ((ℝ × ℝ × ℝ) × ℝ)) (_ : DecidablePred (· ∈ D)),
      Spec.Picks P w sel b lit ν D ∧ ∀ x, ν {u | (x, u) ∈ D} = ENNReal.ofReal (f x) := by
  obtain ⟨ν, E, _, hν, hE, hq, hs⟩ := hfair
  haveI : DecidablePred (· ∈ {q : (ℝ × ℝ × ℝ) × ℝ | (f q.1, q.2) ∈ E}) :=
    fun q => decidable_of_iff ((f q.1, q.2) ∈ E) Iff.rfl
  refine ⟨ν, {q | (f q.1, q.2) ∈ E}, inferInstance, ⟨hν,
    ((hf.comp measurable_fst).prodMk measurable_snd) hE, fun h => (by rw [hu] at h; exact absurd h (by simp)), fun n => ?_⟩,
    fun x => hq _ (hv x)⟩
  refine Samples.mono (Samples.repeat hs n) fun k g u g' hr r l o => ?_
  obtain ⟨sel', h1, h2, h3⟩ := h n r l o g
  have hb := bernMany_repeats k (List.ofFn u) (List.ofFn fun i => f (r i, l i, o i)) g g' (by simp) (by
    intro q hq
    obtain ⟨i, rfl⟩ := List.mem_ofFn.1 hq
    exact hv _) hr
  rw [hb] at h1 h3
  refine ⟨sel', h1, h2, ?_⟩
  rw [h3, ofFn_zipWith]
  refine congrArg (fun h => some (List.ofFn h)) (funext fun i => ?_)
  exact decide_eq_decide.2 Iff.rfl

variable (w : World ℝ G) {sel : Selector ℝ G} {b lit : Bool} {f : ℝ × ℝ × ℝ → ℝ}

open Classical in
/-- **C84** (selecting everything). -/
theorem C84_picks_all (hk : sel.kind = .unity) :
    Spec.Picks P w sel b lit (Measure.dirac 0) Set.univ := by
  have := picks_rule (P := P) (w := w) (sel := sel) (b := b) (lit := lit) (B := Set.univ) MeasurableSet.univ (fun _ => rfl)
    (fun n r l o g => ⟨{ litTo sel b lit (List.ofFn r) (List.ofFn l) (List.ofFn o) with selection := some (List.replicate n true) }, by
      simp [selDraw, bind_apply, hk, setMask, litTo], rfl, by simp⟩)
  simpa only [Set.univ_prod_univ] using this

open Classical in
/-- **C84** (lower limit): a sampler below which or for which no luminosities are known must not
look at luminosities. -/
theorem C84_picks_lower {c : ℝ} (hk : sel.kind = .lower) (hl : Spec.LooksAt sel.data b f)
    (hs : lit = true ∨ sel.data.useLuminosity = false) (hb : Spec.Stored sel "boundary" c) :
    Spec.Picks P w sel b lit (Measure.dirac 0) ({x | c ≤ f x} ×ˢ Set.univ) := by
  refine picks_rule (measurableSet_le measurable_const (looks_measurable hl)) (by simp [hk, SelKind.isUnity])
    fun n r l o g => ⟨_, draw_lower (c := litTo sel b lit _ _ _) hk (lit_chosen hl hs r l o) hb, rfl, ?_⟩
  simp [geMask, Function.comp_def]

open Classical in
/-- **C84** (upper limit). -/
theorem C84_picks_upper {c : ℝ} (hk : sel.kind = .upper) (hl : Spec.LooksAt sel.data b f)
    (hs : lit = true ∨ sel.data.useLuminosity = false) (hb : Spec.Stored sel "boundary" c) :
    Spec.Picks P w sel b lit (Measure.dirac 0) ({x | f x ≤ c} ×ˢ Set.univ) := by
  refine picks_rule (measurableSet_le (looks_measurable hl) measurable_const) (by simp [hk, SelKind.isUnity])
    fun n r l o g => ⟨_, draw_upper (c := litTo sel b lit _ _ _) hk (lit_chosen hl hs r l o) hb, rfl, ?_⟩
  simp [leMask, Function.comp_def]

open Classical in
/-- **C84** (box). -/
theorem C84_picks_box {lo hi : ℝ} (hk : sel.kind = .box) (hl : Spec.LooksAt sel.data b f)
    (hs : lit = true ∨ sel.data.useLuminosity = false)
    (h1 : Spec.Stored sel "vmin" lo) (h2 : Spec.Stored sel "vmax" hi) :
    Spec.Picks P w sel b lit (Measure.dirac 0) ((f ⁻¹' Set.Icc lo hi) ×ˢ Set.univ) := by
  refine picks_rule (looks_measurable hl measurableSet_Icc) (by simp [hk, SelKind.isUnity])
    fun n r l o g => ⟨_, draw_box (c := litTo sel b lit _ _ _) hk (lit_chosen hl hs r l o) h1 h2, rfl, ?_⟩
  simp only [andMask, geMask, leMask, List.map_ofFn, ofFn_zipWith]
  simp [Set.mem_Icc, Bool.decide_and, Function.comp_def]

/-- **C84** (soft limit). -/
theorem C84_picks_soft (hfair : Spec.FairBern P w.sel) {k c : ℝ} (hk : sel.kind = .soft)
    (hl : Spec.LooksAt sel.data b f) (hs : lit = true ∨ sel.data.useLuminosity = false)
    (h1 : Spec.Stored sel "strength" k) (h2 : Spec.Stored sel "boundary" c)
    (hm : Measurable (w.sel.softLog k c)) (hv : ∀ x, w.sel.validProb (w.sel.softLog k c x) = true) :
    ∃ (ν : Measure ℝ) (D : Set ((ℝ × ℝ × ℝ) × ℝ)) (_ : DecidablePred (· ∈ D)),
      Spec.Picks P w sel b lit ν D ∧ ∀ x, ν {u | (x, u) ∈ D} = ENNReal.ofReal (w.sel.softLog k c (f x)) := by
  refine picks_trial hfair (hm.comp (looks_measurable hl)) (fun x => hv _) (by simp [hk, SelKind.isUnity])
    fun n r l o g => ?_
  have em : (List.ofFn fun i => f (r i, l i, o i)).map (w.sel.softLog k c) =
      List.ofFn fun i => w.sel.softLog k c (f (r i, l i, o i)) := by rw [List.map_ofFn]; rfl
  have hall : ((List.ofFn fun i => f (r i, l i, o i)).map (w.sel.softLog k c)).all w.sel.validProb = true := by
    rw [List.all_eq_true]
    intro q hq
    obtain ⟨i, -, rfl⟩ := List.mem_map.1 hq
    exact hv _
  have hd := draw_soft (w := w) (c := litTo sel b lit (List.ofFn r) (List.ofFn l) (List.ofFn o)) (n := n) (g := g) hk
    (lit_chosen hl hs r l o) h1 h2 hall
  rw [em] at hd
  exact ⟨_, hd, rfl, rfl⟩

/-- **C84** (coin). -/
theorem C84_picks_coin (hfair : Spec.FairBern P w.sel) {q : ℝ} (hk : sel.kind = .bernoulli)
    (h1 : Spec.Stored sel "probability" q) (hv : w.sel.validProb q = true) :
    ∃ (ν : Measure ℝ) (D : Set ((ℝ × ℝ × ℝ) × ℝ)) (_ : DecidablePred (· ∈ D)),
      Spec.Picks P w sel b lit ν D ∧ ∀ x, ν {u | (x, u) ∈ D} = ENNReal.ofReal q := by
  refine picks_trial hfair (f := fun _ => q) measurable_const (fun _ => hv) (by simp [hk, SelKind.isUnity])
    fun n r l o g => ?_
  rw [List.ofFn_const]
  exact ⟨_, draw_coin (c := litTo sel b lit _ _ _) hk h1 hv, rfl, rfl⟩

/-- A sampler whose true values ignore its secondaries. -/
def Spec.Lead.builtin (m : ℕ) (key : String) (id sel : ℕ) (observed : Bool) (μ ν ν' : Measure ℝ)
    (D : Set ((ℝ × ℝ × ℝ) × ℝ)) : Spec.Lead m where
  key := key
  id := id
  sel := sel
  μ := μ
  ν := ν
  ν' := ν'
  latent _ _ t := t
  noisy _ _ t z := if observed = true then t + z else t
  D := D

open Classical in
/-- **C84** (built-in classes): a sampler of a built-in class, with any secondaries and in any
place. -/
theorem C84_builtin {h₀ : Heap ℝ G} {env : AuxEnv ℝ G} {kind : AuxKind} {V : String → ℝ} {μ ν ν' : Measure ℝ}
    {D : Set ((ℝ × ℝ × ℝ) × ℝ)} {i q m : ℕ} {key : String} {names : Fin m → String}
    (hcode : w.code i = auxCode env kind) (hnew : (h₀.samplers i).isSampled = false)
    (hdark : (h₀.samplers i).luminosity = none) (hname : (h₀.samplers i).name = key)
    (hsel : (h₀.samplers i).selector = q) (hV : Spec.HasValues env kind V (h₀.samplers i).params)
    (hμ : Spec.AuxDraws P env kind V μ) (hν : Spec.ErrorsOf P env kind V (h₀.samplers i).isObserved ν)
    (hD : Spec.Picks P w (h₀.selectors q) (h₀.samplers i).usesDistance lit ν' D) :
    Spec.Leads P w h₀ lit names (Spec.HasValues env kind V)
      (Spec.Lead.builtin m key i q (h₀.samplers i).isObserved μ ν ν' D) := by
  refine ⟨hnew, hdark, hname, hsel, ⟨hμ.1, errors_prob hν⟩, ?_, ?_, fun n => ?_, fun n => ?_, ?_, hD⟩
  · exact measurable_snd.comp measurable_snd
  · unfold Spec.Lead.builtin
    cases (h₀.samplers i).isObserved <;> simp only [Bool.false_eq_true, if_false, if_true] <;> fun_prop
  · refine Samples.mono (hμ.2 n) fun _ g t g' hd x vals => ?_
    obtain ⟨p1, a1, a2⟩ := hd (Spec.viewOf lit (h₀.samplers i) names x vals) hV
    refine ⟨p1, a2, ?_⟩
    show (w.code i).trueSampler _ n g = _
    rw [hcode]
    exact a1
  · refine Samples.mono (errors_samples hν n) fun _ g z g' hd x vals t p1 hp => ?_
    obtain ⟨p2, a1, a2⟩ := hd { Spec.viewOf lit (h₀.samplers i) names x vals with
      trueVals := some (List.ofFn t), params := p1 } t hp rfl rfl
    refine ⟨p2, a2, ?_⟩
    show if (h₀.samplers i).isObserved = true then (w.code i).obsSampler _ n g = _ else _
    rw [hcode]
    by_cases hb : (h₀.samplers i).isObserved = true
    · rw [if_pos hb] at a1 ⊢; exact a1
    · rw [if_neg hb] at a1 ⊢
      exact ⟨fun j => congrFun (List.ofFn_injective a1.1) j, a1.2⟩
  · intro n x vals t o p2 hp
    have h := C62_probability (v := { Spec.viewOf lit (h₀.samplers i) names x vals with
      trueVals := some (List.ofFn t), obsVals := some (List.ofFn o), params := p2 }) hp (t := List.ofFn t) rfl
    refine ⟨_, (show (w.code i).prob _ = _ by rw [hcode]; exact h), ?_⟩
    intro l hl
    split_ifs at hl
    all_goals first | (cases hl; simp) | simp at hl

end Popsynth
