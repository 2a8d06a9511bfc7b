import Verif.Props.LawAttachedBuiltin

/-!
# With which probability the selectors of samplers select an object (C80)
-/

set_option autoImplicit false
set_option linter.unusedSectionVars false

open MeasureTheory Filter
open scoped NNReal ENNReal

namespace Popsynth
variable {G : Type} [MeasurableSpace G] {P : Measure G} [IsProbabilityMeasure P]

/-- What a selector looks at, of distance, luminosity and observed value: the luminosity if it is
told so, otherwise the observed value if it is told so, otherwise the distance, which it has if
its sampler uses distances. -/
inductive Spec.LooksAt (d : SelData ℝ) (usesDistance : Bool) : (ℝ × ℝ × ℝ → ℝ) → Prop
  | luminosity : d.useFlux = false → d.useLuminosity = true → LooksAt d usesDistance fun x => x.2.1
  | obsValue : d.useFlux = false → d.useLuminosity = false → d.useObs = true →
      LooksAt d usesDistance fun x => x.2.2
  | distance : d.useFlux = false → d.useLuminosity = false → d.useObs = false →
      d.useDistance = true → usesDistance = true → LooksAt d usesDistance fun x => x.1

theorem looks_measurable {d : SelData ℝ} {b : Bool} {f : ℝ × ℝ × ℝ → ℝ} (h : Spec.LooksAt d b f) :
    Measurable f := by
  cases h <;> fun_prop

theorem looks_chosen {d : SelData ℝ} {b : Bool} {f : ℝ × ℝ × ℝ → ℝ} (h : Spec.LooksAt d b f)
    {n : ℕ} (r l o : Fin n → ℝ) :
    chosenValues { d with distance := if b then some (List.ofFn r) else d.distance
                          luminosity := some (List.ofFn l)
                          obsValue := some (List.ofFn o) } =
      .ok (some (List.ofFn fun i => f (r i, l i, o i))) := by
  cases h with
  | luminosity h1 h2 => simp [chosenValues, h1, h2]
  | obsValue h1 h2 h3 => simp [chosenValues, h1, h2, h3]
  | distance h1 h2 h3 h4 h5 => subst h5; simp [chosenValues, h1, h2, h3, h4]

/-- A selection without chance. -/
theorem chooses_rule {w : World ℝ G} {sel : Selector ℝ G} {b : Bool} {B : Set (ℝ × ℝ × ℝ)}
    (hB : MeasurableSet B) [DecidablePred (· ∈ B)] [DecidablePred (· ∈ B ×ˢ (Set.univ : Set ℝ))]
    (hu : sel.kind.isUnity = true → B = Set.univ)
    (h : ∀ (n : ℕ) (r l o : Fin n → ℝ) (g : G), ∃ sel',
      selDraw w.sel w.half w.ninety w.showProgress n
        { sel := givenTo sel b (List.ofFn r) (List.ofFn l) (List.ofFn o), rng := g } =
        .ok () { sel := sel', rng := g } ∧ sel'.kind = sel.kind ∧
      sel'.selection = some (List.ofFn fun i => decide ((r i, l i, o i) ∈ B))) :
    Spec.Chooses P w sel b (Measure.dirac 0) (B ×ˢ Set.univ) := by
  refine ⟨inferInstance, hB.prod MeasurableSet.univ, fun h => by rw [hu h, Set.univ_prod_univ], fun n => ?_⟩
  refine Samples.mono (Samples.repeat still_samples n) fun k g u g' hr r l o => ?_
  obtain ⟨sel', h1, h2, h3⟩ := h n r l o g
  rw [still_repeats k _ _ _ hr]
  refine ⟨sel', h1, h2, ?_⟩
  rw [h3]
  refine congrArg (fun h => some (List.ofFn h)) (funext fun i => ?_)
  exact decide_eq_decide.2 (by simp)

/-- A selection that draws one trial per object. -/
theorem chooses_trial {w : World ℝ G} (hfair : Spec.FairBern P w.sel) {sel : Selector ℝ G} {b : Bool}
    {f : ℝ × ℝ × ℝ → ℝ} (hf : Measurable f) (hv : ∀ x, w.sel.validProb (f x) = true)
    (hu : sel.kind.isUnity = false)
    (h : ∀ (n : ℕ) (r l o : Fin n → ℝ) (g : G), ∃ sel',
      selDraw w.sel w.half w.ninety w.showProgress n
        { sel := givenTo sel b (List.ofFn r) (List.ofFn l) (List.ofFn o), rng := g } =
        .ok () { sel := sel', rng := (bernMany w.sel (List.ofFn fun i => f (r i, l i, o i)) g).2 } ∧
      sel'.kind = sel.kind ∧
      sel'.selection = some (bernMany w.sel (List.ofFn fun i => f (r i, l i, o i)) g).1) :
    ∃ (ν : Measure ℝ) (D : Set ((ℝ × ℝ × ℝ) × ℝ)) (_ : DecidablePred (· ∈ D)),
      Spec.Chooses P w sel b ν D ∧ ∀ x, ν {u | (x, u) ∈ D} = ENNReal.ofReal (f x) := by
  obtain ⟨ν, E, _, hν, hE, hq, hs⟩ := hfair
  haveI : DecidablePred (· ∈ {q : (ℝ × ℝ × ℝ) × ℝ | (f q.1, q.2) ∈ E}) :=
    fun q => decidable_of_iff ((f q.1, q.2) ∈ E) Iff.rfl
  refine ⟨ν, {q | (f q.1, q.2) ∈ E}, inferInstance, ⟨hν,
    ((hf.comp measurable_fst).prodMk measurable_snd) hE, fun h => (by rw [hu] at h; exact absurd h (by simp)), fun n => ?_⟩,
    fun x => hq _ (hv x)⟩
  refine Samples.mono (Samples.repeat hs n) fun k g u g' hr r l o => ?_
  obtain ⟨sel', h1, h2, h3⟩ := h n r l o g
  have hb := bernMany_repeats k (List.ofFn u) (List.ofFn fun i => f (r i, l i, o i)) g g' (by simp) (by
    intro q hq
    obtain ⟨i, rfl⟩ := List.mem_ofFn.1 hq
    exact hv _) hr
  rw [hb] at h1 h3
  refine ⟨sel', h1, h2, ?_⟩
  rw [h3, ofFn_zipWith]
  refine congrArg (fun h => some (List.ofFn h)) (funext fun i => ?_)
  exact decide_eq_decide.2 Iff.rfl

/-! ### Selectors that have been given values -/

section
variable {w : World ℝ G} {c : Selector ℝ G} {vs : List ℝ} {n : ℕ} {g : G}

theorem draw_lower {x : ℝ} (hk : c.kind = .lower) (hc : chosenValues c.data = .ok (some vs))
    (hb : Spec.Stored c "boundary" x) :
    selDraw w.sel w.half w.ninety w.showProgress n { sel := c, rng := g } =
      .ok () { sel := { c with selection := some (geMask vs x) }, rng := g } := by
  have k1 := selParam_stored (s := ({ sel := c, rng := g } : SelSt ℝ G)) (d := declBoundary) rfl hb
  obtain ⟨kind, cls, name, params, data, selection, isSampled⟩ := c
  simp only at hk hc k1
  subst hk
  simp [selDraw, bind_apply, hc, k1, setMask, liftE, needArray]

theorem draw_upper {x : ℝ} (hk : c.kind = .upper) (hc : chosenValues c.data = .ok (some vs))
    (hb : Spec.Stored c "boundary" x) :
    selDraw w.sel w.half w.ninety w.showProgress n { sel := c, rng := g } =
      .ok () { sel := { c with selection := some (leMask vs x) }, rng := g } := by
  have k1 := selParam_stored (s := ({ sel := c, rng := g } : SelSt ℝ G)) (d := declBoundary) rfl hb
  obtain ⟨kind, cls, name, params, data, selection, isSampled⟩ := c
  simp only at hk hc k1
  subst hk
  simp [selDraw, bind_apply, hc, k1, setMask, liftE, needArray]

theorem draw_box {lo hi : ℝ} (hk : c.kind = .box) (hc : chosenValues c.data = .ok (some vs))
    (h1 : Spec.Stored c "vmin" lo) (h2 : Spec.Stored c "vmax" hi) :
    selDraw w.sel w.half w.ninety w.showProgress n { sel := c, rng := g } =
      .ok () { sel := { c with selection := some (andMask (geMask vs lo) (leMask vs hi)) }, rng := g } := by
  have k1 := selParam_stored (s := ({ sel := c, rng := g } : SelSt ℝ G)) (d := declBox) rfl h1
  have k2 := selParam_stored (s := ({ sel := c, rng := g } : SelSt ℝ G)) (d := declBox) rfl h2
  obtain ⟨kind, cls, name, params, data, selection, isSampled⟩ := c
  simp only at hk hc k1 k2
  subst hk
  simp [selDraw, bind_apply, hc, k1, k2, setMask, liftE, needArray]

theorem draw_soft {k x : ℝ} (hk : c.kind = .soft) (hc : chosenValues c.data = .ok (some vs))
    (h1 : Spec.Stored c "strength" k) (h2 : Spec.Stored c "boundary" x)
    (hall : (vs.map (w.sel.softLog k x)).all w.sel.validProb = true) :
    selDraw w.sel w.half w.ninety w.showProgress n { sel := c, rng := g } =
      .ok () { sel := { c with selection := some (bernMany w.sel (vs.map (w.sel.softLog k x)) g).1 }
               rng := (bernMany w.sel (vs.map (w.sel.softLog k x)) g).2 } := by
  have k1 := selParam_stored (s := ({ sel := c, rng := g } : SelSt ℝ G)) (d := declStrength) rfl h1
  have k2 := selParam_stored (s := ({ sel := c, rng := g } : SelSt ℝ G)) (d := declBoundary) rfl h2
  obtain ⟨kind, cls, name, params, data, selection, isSampled⟩ := c
  simp only at hk hc k1 k2
  subst hk
  simp only [selDraw, bind_apply, get_apply, hc, liftE, pure_apply, k1, needArray, k2, hall,
      if_true, setMask_apply, modify_apply]

theorem draw_coin {q : ℝ} (hk : c.kind = .bernoulli) (h1 : Spec.Stored c "probability" q)
    (hv : w.sel.validProb q = true) :
    selDraw w.sel w.half w.ninety w.showProgress n { sel := c, rng := g } =
      .ok () { sel := { c with selection := some (bernMany w.sel (List.replicate n q) g).1 }
               rng := (bernMany w.sel (List.replicate n q) g).2 } := by
  have k1 := selParam_stored (s := ({ sel := c, rng := g } : SelSt ℝ G)) (d := declProb w.half) rfl h1
  have k2 := selParam_stored (s := ({ sel := { c with selection := some (List.replicate n false) }, rng := g } : SelSt ℝ G)) (d := declProb w.half) rfl h1
  obtain ⟨kind, cls, name, params, data, selection, isSampled⟩ := c
  simp only at hk k1 k2
  subst hk
  cases hpb : w.showProgress with
  | false => simp [selDraw, bind_apply, k1, hv, setMask]
  | true =>
    by_cases hn : n = 0
    · subst hn
      simp [selDraw, bind_apply, setMask, bernMany]
    · have hloop := bernLoop_eq w.sel q n 0 [] g rfl
      simp only [List.nil_append, Nat.zero_add, List.map_id_fun', id_eq] at hloop
      simp [selDraw, bind_apply, hn, k2, hv, setMask, hloop]

end

variable (w : World ℝ G) {sel : Selector ℝ G} {b : Bool} {f : ℝ × ℝ × ℝ → ℝ}

open Classical in
/-- **C80** (selecting everything): a sampler with `UnitySelection`, as every new one. -/
theorem C80_chooses_all (hk : sel.kind = .unity) :
    Spec.Chooses P w sel b (Measure.dirac 0) Set.univ := by
  have := chooses_rule (P := P) (w := w) (sel := sel) (b := b) (B := Set.univ) MeasurableSet.univ (fun _ => rfl)
    (fun n r l o g => ⟨{ givenTo sel b (List.ofFn r) (List.ofFn l) (List.ofFn o) with selection := some (List.replicate n true) }, by
      simp [selDraw, bind_apply, hk, setMask, givenTo], rfl, by simp⟩)
  simpa only [Set.univ_prod_univ] using this

open Classical in
/-- **C80** (lower limit): `LowerBound` selects an object if and only if what it looks at is at
least the boundary. -/
theorem C80_chooses_lower {c : ℝ} (hk : sel.kind = .lower) (hl : Spec.LooksAt sel.data b f)
    (hb : Spec.Stored sel "boundary" c) :
    Spec.Chooses P w sel b (Measure.dirac 0) ({x | c ≤ f x} ×ˢ Set.univ) := by
  refine chooses_rule (measurableSet_le measurable_const (looks_measurable hl)) (by simp [hk, SelKind.isUnity])
    fun n r l o g => ⟨_, draw_lower (c := givenTo sel b _ _ _) hk (looks_chosen hl r l o) hb, rfl, ?_⟩
  simp [geMask, Function.comp_def]

open Classical in
/-- **C80** (upper limit): `UpperBound`. -/
theorem C80_chooses_upper {c : ℝ} (hk : sel.kind = .upper) (hl : Spec.LooksAt sel.data b f)
    (hb : Spec.Stored sel "boundary" c) :
    Spec.Chooses P w sel b (Measure.dirac 0) ({x | f x ≤ c} ×ˢ Set.univ) := by
  refine chooses_rule (measurableSet_le (looks_measurable hl) measurable_const) (by simp [hk, SelKind.isUnity])
    fun n r l o g => ⟨_, draw_upper (c := givenTo sel b _ _ _) hk (looks_chosen hl r l o) hb, rfl, ?_⟩
  simp [leMask, Function.comp_def]

open Classical in
/-- **C80** (box): `BoxSelection`. -/
theorem C80_chooses_box {lo hi : ℝ} (hk : sel.kind = .box) (hl : Spec.LooksAt sel.data b f)
    (h1 : Spec.Stored sel "vmin" lo) (h2 : Spec.Stored sel "vmax" hi) :
    Spec.Chooses P w sel b (Measure.dirac 0) ((f ⁻¹' Set.Icc lo hi) ×ˢ Set.univ) := by
  refine chooses_rule (looks_measurable hl measurableSet_Icc) (by simp [hk, SelKind.isUnity])
    fun n r l o g => ⟨_, draw_box (c := givenTo sel b _ _ _) hk (looks_chosen hl r l o) h1 h2, rfl, ?_⟩
  simp only [andMask, geMask, leMask, List.map_ofFn, ofFn_zipWith]
  simp [Set.mem_Icc, Bool.decide_and, Function.comp_def]

/-- **C80** (soft limit): `SoftSelection` selects an object with the logistic probability of what
it looks at. -/
theorem C80_chooses_soft (hfair : Spec.FairBern P w.sel) {k c : ℝ} (hk : sel.kind = .soft)
    (hl : Spec.LooksAt sel.data b f) (h1 : Spec.Stored sel "strength" k) (h2 : Spec.Stored sel "boundary" c)
    (hm : Measurable (w.sel.softLog k c)) (hv : ∀ x, w.sel.validProb (w.sel.softLog k c x) = true) :
    ∃ (ν : Measure ℝ) (D : Set ((ℝ × ℝ × ℝ) × ℝ)) (_ : DecidablePred (· ∈ D)),
      Spec.Chooses P w sel b ν D ∧ ∀ x, ν {u | (x, u) ∈ D} = ENNReal.ofReal (w.sel.softLog k c (f x)) := by
  refine chooses_trial hfair (hm.comp (looks_measurable hl)) (fun x => hv _) (by simp [hk, SelKind.isUnity])
    fun n r l o g => ?_
  have em : (List.ofFn fun i => f (r i, l i, o i)).map (w.sel.softLog k c) =
      List.ofFn fun i => w.sel.softLog k c (f (r i, l i, o i)) := by rw [List.map_ofFn]; rfl
  have hall : ((List.ofFn fun i => f (r i, l i, o i)).map (w.sel.softLog k c)).all w.sel.validProb = true := by
    rw [List.all_eq_true]
    intro q hq
    obtain ⟨i, -, rfl⟩ := List.mem_map.1 hq
    exact hv _
  have hd := draw_soft (w := w) (c := givenTo sel b (List.ofFn r) (List.ofFn l) (List.ofFn o)) (n := n) (g := g) hk
    (looks_chosen hl r l o) h1 h2 hall
  rw [em] at hd
  exact ⟨_, hd, rfl, rfl⟩

/-- **C80** (coin): `BernoulliSelection` selects every object with its probability. -/
theorem C80_chooses_coin (hfair : Spec.FairBern P w.sel) {q : ℝ} (hk : sel.kind = .bernoulli)
    (h1 : Spec.Stored sel "probability" q) (hv : w.sel.validProb q = true) :
    ∃ (ν : Measure ℝ) (D : Set ((ℝ × ℝ × ℝ) × ℝ)) (_ : DecidablePred (· ∈ D)),
      Spec.Chooses P w sel b ν D ∧ ∀ x, ν {u | (x, u) ∈ D} = ENNReal.ofReal q := by
  refine chooses_trial hfair (f := fun _ => q) measurable_const (fun _ => hv) (by simp [hk, SelKind.isUnity])
    fun n r l o g => ?_
  rw [List.ofFn_const]
  exact ⟨_, draw_coin (c := givenTo sel b _ _ _) hk h1 hv, rfl, rfl⟩

/-- **C80** (the probability that an attached sampler selects an object): that of its rule, over
true value, error and the selector's own chance. -/
theorem C80_selects {key : String} {i q : ℕ} {observed : Bool} {μ ν ν' : Measure ℝ}
    [IsProbabilityMeasure μ] [IsProbabilityMeasure ν] [IsProbabilityMeasure ν']
    {D : Set ((ℝ × ℝ × ℝ) × ℝ)} [DecidablePred (· ∈ D)] (hD : MeasurableSet D) (x : Spec.Seen) :
    (Spec.additive key i q observed μ ν ν' D).selects x =
      ∫⁻ t, ∫⁻ z, ν' {u | ((x.1, x.2.2, if observed = true then t + z else t), u) ∈ D} ∂ν ∂μ := by
  unfold Spec.Player.selects Spec.additive
  have m1 : Measurable fun c : Spec.Chance =>
      (((x.1, x.2.2, if observed = true then c.1 + c.2.1 else c.1), c.2.2) : (ℝ × ℝ × ℝ) × ℝ) := by
    cases observed <;> simp only [Bool.false_eq_true, if_false, if_true] <;> fun_prop
  have hS : MeasurableSet {c : Spec.Chance |
      (((x.1, x.2.2, if observed = true then c.1 + c.2.1 else c.1), c.2.2) : (ℝ × ℝ × ℝ) × ℝ) ∈ D} := m1 hD
  have e : {u : Spec.Chance | decide (((x.1, x.2.2, if observed = true then u.1 + u.2.1 else u.1), u.2.2) ∈ D) = true} =
      {c : Spec.Chance | (((x.1, x.2.2, if observed = true then c.1 + c.2.1 else c.1), c.2.2) : (ℝ × ℝ × ℝ) × ℝ) ∈ D} := by
    ext u; simp
  simp only [e]
  rw [Measure.prod_apply hS]
  refine lintegral_congr fun t => ?_
  rw [Measure.prod_apply (measurable_prodMk_left hS)]
  rfl

end Popsynth
