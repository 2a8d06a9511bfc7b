import Verif.Lemmas.SurveyAux
import Verif.Props.LawCounts

/-!
# The law of a survey with attached auxiliary samplers (C80)
-/

set_option autoImplicit false
set_option linter.unusedSectionVars false

open MeasureTheory Filter
open scoped NNReal ENNReal

namespace Popsynth
variable {G : Type} [MeasurableSpace G] {P : Measure G} [IsProbabilityMeasure P]

/-! ### The samplers one after the other -/

/-- What all samplers give. -/
def gains (A : List Spec.Player) {n : ℕ} (x : Fin n → Spec.Seen)
    (u : Fin n → Fin A.length → Spec.Chance) (prs : Fin A.length → List ℝ) : List (Spec.Gain ℝ) :=
  List.ofFn fun j => (A.get j).gain x (fun i => u i j) (prs j)

theorem chances_prob (A : List Spec.Player) (h : ∀ p ∈ A, IsProbabilityMeasure p.law) :
    IsProbabilityMeasure (Spec.chances A) := by
  have : ∀ j : Fin A.length, IsProbabilityMeasure (A.get j).law := fun j => h _ (List.get_mem A j)
  unfold Spec.chances
  infer_instance

theorem chances_cons (p : Spec.Player) (A : List Spec.Player)
    (h : ∀ q ∈ p :: A, IsProbabilityMeasure q.law) :
    MeasurePreserving (fun q : Spec.Chance × (Fin A.length → Spec.Chance) =>
        (Fin.cons q.1 q.2 : Fin (p :: A).length → Spec.Chance))
      (p.law.prod (Spec.chances A)) (Spec.chances (p :: A)) := by
  have i : ∀ j : Fin (A.length + 1), IsProbabilityMeasure ((p :: A).get j).law :=
    fun j => h _ (List.get_mem (p :: A) j)
  have e := (measurePreserving_piFinSuccAbove (fun j : Fin (A.length + 1) => ((p :: A).get j).law) 0).symm
    (e := MeasurableEquiv.piFinSuccAbove (fun _ => Spec.Chance) 0)
  have e2 : ⇑(MeasurableEquiv.piFinSuccAbove (fun _ : Fin (A.length + 1) => Spec.Chance) 0).symm =
      fun q : Spec.Chance × (Fin A.length → Spec.Chance) => (Fin.cons q.1 q.2 : Fin (A.length + 1) → Spec.Chance) := by
    funext q
    exact Fin.insertNth_zero' q.1 q.2
  rw [e2] at e
  exact e

theorem iid_cons (p : Spec.Player) (A : List Spec.Player)
    (h : ∀ q ∈ p :: A, IsProbabilityMeasure q.law) (n : ℕ) :
    MeasurePreserving (fun (q : (Fin n → Spec.Chance) × (Fin n → Fin A.length → Spec.Chance)) i =>
        (Fin.cons (q.1 i) (q.2 i) : Fin (p :: A).length → Spec.Chance))
      ((Spec.iid n p.law).prod (Spec.iid n (Spec.chances A))) (Spec.iid n (Spec.chances (p :: A))) := by
  have i1 := h p (by simp)
  have i2 := chances_prob A fun q hq => h q (by simp [hq])
  have i3 := chances_prob (p :: A) h
  have m := measurePreserving_pi (fun _ : Fin n => p.law.prod (Spec.chances A))
    (fun _ => Spec.chances (p :: A)) fun _ => chances_cons p A h
  exact m.comp (iid_zip n p.law (Spec.chances A))

theorem dirac_of_subsingleton {α : Type} [MeasurableSpace α] [Subsingleton α] (μ : Measure α)
    [IsProbabilityMeasure μ] (a : α) : μ = Measure.dirac a := by
  ext s hs
  rcases Set.eq_empty_or_nonempty s with rfl | hne
  · simp
  · have : s = Set.univ := by
      ext x
      obtain ⟨b, hb⟩ := hne
      simpa [Subsingleton.elim x b] using hb
    rw [this, measure_univ, measure_univ]

theorem players_samples {w : World ℝ G} {k : ℕ} {h₀ : Heap ℝ G} (n : ℕ) :
    ∀ A : List Spec.Player, (∀ p ∈ A, Spec.Alone h₀ p.who) → (∀ p ∈ A, Spec.Plays P w k h₀ p) →
      (A.map Spec.Player.id).Nodup → (A.map Spec.Player.sel).Nodup →
    Spec.Samples P (Spec.iid n (Spec.chances A)) fun _ g u g' =>
      ∀ (h : Heap ℝ G) (x : Fin n → Spec.Seen),
        (∀ p ∈ A, h.samplers p.id = h₀.samplers p.id ∧ h.selectors p.sel = h₀.selectors p.sel) →
        h.rng = g →
        ∃ h' prs, Takes w k n (List.ofFn fun i => (x i).2.2)
          { distance := List.ofFn fun i => (x i).1, theta := List.ofFn fun i => (x i).2.1.1
            phi := List.ofFn fun i => (x i).2.1.2 } h (gains A x u prs) h' ∧ h'.rng = g' := by
  intro A
  induction A with
  | nil =>
    intro _ _ _ _
    have i := chances_prob [] (fun p hp => (by cases hp))
    have : Subsingleton (Fin n → Fin ([] : List Spec.Player).length → Spec.Chance) :=
      ⟨fun a b => funext fun i => funext fun j => j.elim0⟩
    rw [dirac_of_subsingleton (Spec.iid n (Spec.chances [])) (fun _ j => j.elim0)]
    refine ⟨fun g => ((fun _ j => j.elim0), g), ⟨by fun_prop, by rw [Measure.dirac_prod]⟩, ?_⟩
    exact Eventually.of_forall fun g => Eventually.of_forall fun k h x _ hg =>
      ⟨h, fun j => j.elim0, .nil h, hg⟩
  | cons p A ih =>
    intro hal hpl hid hsel
    rw [List.map_cons, List.nodup_cons] at hid hsel
    have hl : ∀ q ∈ p :: A, IsProbabilityMeasure q.law := fun q hq => (hpl q hq).law
    have i1 := hl p (by simp)
    have i2 := chances_prob A fun q hq => hl q (by simp [hq])
    have S1 := (hpl p (by simp)).draws n
    have S2 := ih (fun q hq => hal q (by simp [hq])) (fun q hq => hpl q (by simp [hq])) hid.2 hsel.2
    refine Samples.mapTo (Samples.after S1 S2) (iid_cons p A hl n) ?_
    rintro b g ⟨u1, u2⟩ g' ⟨g1, r1, r2⟩ h x hh hg
    have hp := hh p (by simp)
    obtain ⟨h1, pr, a1, a2⟩ := r1 (handed (List.ofFn fun i => (x i).2.2)
      { distance := List.ofFn fun i => (x i).1, theta := List.ofFn fun i => (x i).2.1.1
        phi := List.ofFn fun i => (x i).2.1.2 } p.id h) x (by simp [handed, Heap.modSampler, hp.1])
      hp.2 hg
    obtain ⟨h2, prs, b1, b2⟩ := r2 h1 x (by
      intro q hq
      have hne1 : q.id ≠ p.id := fun he => hid.1 (he ▸ List.mem_map_of_mem hq)
      have hne2 : q.sel ≠ p.sel := fun he => hsel.1 (he ▸ List.mem_map_of_mem hq)
      rw [a1.others q.id hne1, a1.selectors q.sel hne2]
      have hq' := hh q (by simp [hq])
      exact ⟨by simp [handed, Heap.modSampler, hne1, hq'.1], hq'.2⟩) a2
    have hale := hal p (by simp)
    refine ⟨h2, Fin.cons pr prs, ?_, b2⟩
    have eg : gains (p :: A) x (fun i => (Fin.cons (u1 i) (u2 i) : Fin (A.length + 1) → Spec.Chance))
        (Fin.cons pr prs : Fin (A.length + 1) → List ℝ) = p.gain x u1 pr :: gains A x u2 prs := by
      unfold gains
      exact List.ofFn_succ
    show Takes w k n _ _ h (gains (p :: A) x
      (fun i => (Fin.cons (u1 i) (u2 i) : Fin (A.length + 1) → Spec.Chance)) _) h2
    rw [eg]
    refine .cons ?_ a1 b1
    have hs : h.samplers p.id = h₀.samplers p.id := hp.1
    exact ⟨by show (h.samplers p.id).name = _; rw [hs]; exact hale.name,
      by show (h.samplers p.id).selector = _; rw [hs]; exact hale.selector,
      by show (h.samplers p.id).isSecondary = _; rw [hs]; exact hale.secondary,
      by show (h.samplers p.id).secondaries = _; rw [hs]; exact hale.secondaries,
      by show (h.samplers p.id).hasSecondary = _; rw [hs]; exact hale.hasSecondary⟩

/-! ### What all samplers select -/

theorem gains_cons (p : Spec.Player) (A : List Spec.Player) {n : ℕ} (x : Fin n → Spec.Seen)
    (u : Fin n → Fin (A.length + 1) → Spec.Chance) (prs : Fin (A.length + 1) → List ℝ) :
    gains (p :: A) x u prs = p.gain x (fun i => u i 0) (prs 0) ::
      gains A x (fun i j => u i j.succ) fun j => prs j.succ := by
  unfold gains
  exact List.ofFn_succ

theorem gains_mask {n : ℕ} (x : Fin n → Spec.SkySource) : ∀ (A : List Spec.Player) (b : Fin n → Bool)
    (u : Fin n → Fin A.length → Spec.Chance) (prs : Fin A.length → List ℝ),
    (gains A (fun i => (x i).seen) u prs).foldl (fun m d => List.zipWith (· && ·) m d.mask) (List.ofFn b) =
      List.ofFn fun i => b i && Spec.kept A (x i) (u i)
  | [], b, u, prs => by
    simp only [gains, List.length_nil, List.ofFn_zero, List.foldl_nil]
    congr 1
    funext i
    have : Spec.kept [] (x i) (u i) = true := by
      unfold Spec.kept
      rw [decide_eq_true_eq]
      exact fun j => j.elim0
    rw [this, Bool.and_true]
  | p :: A, b, u, prs => by
    rw [gains_cons, List.foldl_cons]
    have e1 : List.zipWith (· && ·) (List.ofFn b) (p.gain (fun i => (x i).seen) (fun i => u i 0) (prs 0)).mask =
        List.ofFn fun i => b i && (p.response (x i).seen (u i 0)).2.2 :=
      ofFn_zipWith (· && ·) b fun i => (p.response (x i).seen (u i 0)).2.2
    rw [e1, gains_mask x A]
    congr 1
    funext i
    rw [Bool.and_assoc]
    congr 1
    unfold Spec.kept
    rw [Bool.eq_iff_iff, Bool.and_eq_true, decide_eq_true_eq, decide_eq_true_eq]
    constructor
    · rintro ⟨h1, h2⟩ j
      exact Fin.cases h1 h2 j
    · exact fun h => ⟨h 0, fun j => h j.succ⟩

theorem commonMask_gains {n : ℕ} (x : Fin n → Spec.SkySource) (A : List Spec.Player)
    (u : Fin n → Fin A.length → Spec.Chance) (prs : Fin A.length → List ℝ) :
    commonMask n (gains A (fun i => (x i).seen) u prs) = List.ofFn fun i => Spec.kept A (x i) (u i) := by
  have h := gains_mask x A (fun _ => true) u prs
  rw [List.ofFn_const] at h
  unfold commonMask
  rw [h]
  simp

theorem kept_measurable {A : List Spec.Player}
    (h : ∀ p ∈ A, Measurable fun q : Spec.Seen × Spec.Chance => p.response q.1 q.2) :
    Measurable fun q : Spec.SkySource × (Fin A.length → Spec.Chance) => Spec.kept A q.1 q.2 := by
  have hs : Measurable Spec.SkySource.seen :=
    SkySource.measurable_of (show Measurable fun p : ℝ × (ℝ × ℝ) × ℝ × ℝ => (p.1, (p.2.1.1, p.2.1.2), p.2.2.1) by fun_prop)
  refine measurable_to_bool ?_
  have e : (fun q : Spec.SkySource × (Fin A.length → Spec.Chance) => Spec.kept A q.1 q.2) ⁻¹' {true} =
      ⋂ j : Fin A.length, {q | ((A.get j).response q.1.seen (q.2 j)).2.2 = true} := by
    ext q
    simp [Spec.kept]
  rw [e]
  refine MeasurableSet.iInter fun j => ?_
  have h1 : Measurable fun q : Spec.SkySource × (Fin A.length → Spec.Chance) => (q.1.seen, q.2 j) :=
    (hs.comp measurable_fst).prodMk ((measurable_pi_apply j).comp measurable_snd)
  have h2 := (h _ (List.get_mem A j)).comp h1
  exact (measurable_snd.comp (measurable_snd.comp h2)) (measurableSet_singleton true)

/-! ### Regrouping -/

section
variable {α β γ δ ε ζ : Type} [MeasurableSpace α] [MeasurableSpace β] [MeasurableSpace γ]
  [MeasurableSpace δ] [MeasurableSpace ε] [MeasurableSpace ζ]

theorem push_in (μ : Measure α) (X : Measure β) (Y : Measure γ) (Z : Measure δ) [SFinite μ] [SFinite X]
    [SFinite Y] [SFinite Z] :
    MeasurePreserving (fun q : α × (β × γ) × δ => (((q.1, q.2.1.1), q.2.1.2), q.2.2))
      (μ.prod ((X.prod Y).prod Z)) (((μ.prod X).prod Y).prod Z) := by
  have a1 := (measurePreserving_prodAssoc μ (X.prod Y) Z).symm (e := MeasurableEquiv.prodAssoc)
  have a2 := (measurePreserving_prodAssoc μ X Y).symm (e := MeasurableEquiv.prodAssoc)
  exact (a2.prod (MeasurePreserving.id Z)).comp a1

theorem regroup (μ1 : Measure α) (μ2 : Measure β) (μ3 : Measure γ) (μ4 : Measure δ) (μ5 : Measure ε)
    (μ6 : Measure ζ) [SFinite μ1] [SFinite μ2] [SFinite μ3] [SFinite μ4] [SFinite μ5] [SFinite μ6] :
    MeasurePreserving (fun q : α × β × γ × δ × ε × ζ =>
        (((q.1, q.2.1, q.2.2.1, q.2.2.2.2.1), q.2.2.2.1), q.2.2.2.2.2))
      (μ1.prod (μ2.prod (μ3.prod (μ4.prod (μ5.prod μ6)))))
      (((μ1.prod (μ2.prod (μ3.prod μ5))).prod μ4).prod μ6) := by
  have a0 := (measurePreserving_prodAssoc μ4 μ5 μ6).symm (e := MeasurableEquiv.prodAssoc)
  have a1 := ((Measure.measurePreserving_swap (μ := μ4) (ν := μ5)).prod (MeasurePreserving.id μ6)).comp a0
  have a2 := (push_in μ3 μ5 μ4 μ6).comp ((MeasurePreserving.id μ3).prod a1)
  have a3 := (push_in μ2 (μ3.prod μ5) μ4 μ6).comp ((MeasurePreserving.id μ2).prod a2)
  exact (push_in μ1 (μ2.prod (μ3.prod μ5)) μ4 μ6).comp ((MeasurePreserving.id μ1).prod a3)

end

/-- Draws for every object of six kinds. -/
theorem iid_zip6 {κ : Type} [MeasurableSpace κ] (n : ℕ) (μ1 μ2 μ3 μ4 : Measure ℝ) (μ5 : Measure κ)
    (μ6 μ7 : Measure ℝ) [IsProbabilityMeasure μ1] [IsProbabilityMeasure μ2] [IsProbabilityMeasure μ3]
    [IsProbabilityMeasure μ4] [IsProbabilityMeasure μ5] [IsProbabilityMeasure μ6] [IsProbabilityMeasure μ7] :
    MeasurePreserving (fun (q : (Fin n → ℝ) × ((Fin n → ℝ) × (Fin n → ℝ)) × (Fin n → ℝ) ×
        (Fin n → κ) × (Fin n → ℝ) × (Fin n → ℝ)) i =>
        (q.1 i, (q.2.1.1 i, q.2.1.2 i), q.2.2.1 i, q.2.2.2.1 i, q.2.2.2.2.1 i, q.2.2.2.2.2 i))
      ((Spec.iid n μ1).prod (((Spec.iid n μ2).prod (Spec.iid n μ3)).prod
        ((Spec.iid n μ4).prod ((Spec.iid n μ5).prod ((Spec.iid n μ6).prod (Spec.iid n μ7))))))
      (Spec.iid n (μ1.prod ((μ2.prod μ3).prod (μ4.prod (μ5.prod (μ6.prod μ7)))))) := by
  have h0 := iid_zip n μ6 μ7
  have h1 := (iid_zip n μ5 (μ6.prod μ7)).comp ((MeasurePreserving.id (Spec.iid n μ5)).prod h0)
  have h2 := (iid_zip n μ4 _).comp ((MeasurePreserving.id (Spec.iid n μ4)).prod h1)
  have h3 := (iid_zip n (μ2.prod μ3) _).comp ((iid_zip n μ2 μ3).prod h2)
  exact (iid_zip n μ1 _).comp ((MeasurePreserving.id (Spec.iid n μ1)).prod h3)

/-! ### The law -/

variable {e : SurveyEnv ℝ G} {env : DistEnv ℝ G} {c : SpClass ℝ}
  {tr : List ℝ → List ℝ → Except Err (List ℝ)} {y : Synth ℝ} {a : SurveyArgs ℝ} {s : SurvSt ℝ G}
  {flux : ℝ → ℝ → ℝ} {rm m : ℝ} {vs : List ℝ} {Λ : ℝ≥0} {μL : Measure ℝ} {p : ℝ → ℝ≥0∞}
  {A : List Spec.Player}

/-- The law of a source with its chances. -/
noncomputable def Spec.objectLaw (y : Synth ℝ) (a : SurveyArgs ℝ) (s : SurvSt ℝ G) (c : SpClass ℝ)
    (rm m : ℝ) (vs : List ℝ) (μL : Measure ℝ) (A : List Spec.Player) :
    Measure (Spec.SkySource × (Fin A.length → Spec.Chance)) :=
  (Spec.sourceLaw (Spec.densityLaw (fun r => min (c.dens vs r) m) rm) μL
    (Spec.sigmaUsed (s.heap.selectors y.fluxSel).kind a)).prod (Spec.chances A)

/-- The probability with which an object is detected: that of its observed flux if all attached
samplers select it, zero otherwise. -/
noncomputable def Spec.detectionAux (e : SurveyEnv ℝ G) (y : Synth ℝ) (a : SurveyArgs ℝ)
    (s : SurvSt ℝ G) (flux : ℝ → ℝ → ℝ) (p : ℝ → ℝ≥0∞) (A : List Spec.Player)
    (x : Spec.SkySource × (Fin A.length → Spec.Chance)) : ℝ≥0∞ :=
  if Spec.kept A x.1 x.2 = true then Spec.detection e y a s flux p x.1 else 0

/-- The law of a flagged object. -/
noncomputable def Spec.catalogueAux (e : SurveyEnv ℝ G) (c : SpClass ℝ) (y : Synth ℝ)
    (a : SurveyArgs ℝ) (s : SurvSt ℝ G) (flux : ℝ → ℝ → ℝ) (rm m : ℝ) (vs : List ℝ)
    (μL : Measure ℝ) (p : ℝ → ℝ≥0∞) (A : List Spec.Player) :
    Measure ((Spec.SkySource × (Fin A.length → Spec.Chance)) × Bool) :=
  Spec.flagged (Spec.objectLaw y a s c rm m vs μL A) (Spec.detectionAux e y a s flux p A)

/-- The flag of an object from the numbers drawn. -/
theorem object_flag (μ : Measure Spec.SkySource) [IsProbabilityMeasure μ]
    (hA : ∀ q ∈ A, IsProbabilityMeasure q.law)
    (hr : ∀ p ∈ A, Measurable fun q : Spec.Seen × Spec.Chance => p.response q.1 q.2)
    (ν : Measure ℝ) [IsProbabilityMeasure ν] {D : Set (ℝ × ℝ)} [DecidablePred (· ∈ D)]
    (hD : MeasurableSet D) {f : Spec.SkySource → ℝ} (hf : Measurable f)
    (hp : ∀ x, ν {u | (x, u) ∈ D} = p x) :
    MeasurePreserving (fun q : (Spec.SkySource × (Fin A.length → Spec.Chance)) × ℝ =>
        (q.1, Spec.kept A q.1.1 q.1.2 && decide ((f q.1.1, q.2) ∈ D)))
      ((μ.prod (Spec.chances A)).prod ν)
      (Spec.flagged (μ.prod (Spec.chances A)) fun x =>
        if Spec.kept A x.1 x.2 = true then p (f x.1) else 0) := by
  have i1 := chances_prob A hA
  let D' : Set ((ℝ × Bool) × ℝ) := {q | q.1.2 = true ∧ (q.1.1, q.2) ∈ D}
  haveI : DecidablePred (· ∈ D') := fun q => decidable_of_iff (q.1.2 = true ∧ (q.1.1, q.2) ∈ D) Iff.rfl
  have hD' : MeasurableSet D' := by
    have g1 : Measurable fun q : (ℝ × Bool) × ℝ => q.1.2 := by fun_prop
    have g2 : Measurable fun q : (ℝ × Bool) × ℝ => (q.1.1, q.2) := by fun_prop
    exact (g1 (measurableSet_singleton true)).inter (g2 hD)
  have hf' : Measurable fun x : Spec.SkySource × (Fin A.length → Spec.Chance) =>
      (f x.1, Spec.kept A x.1 x.2) := (hf.comp measurable_fst).prodMk (kept_measurable hr)
  have hp' : ∀ x : ℝ × Bool, ν {u | (x, u) ∈ D'} = if x.2 = true then p x.1 else 0 := by
    rintro ⟨x, b⟩
    cases b
    · simp [D']
    · simp [D', hp]
  have hb : Measurable fun q : (Spec.SkySource × (Fin A.length → Spec.Chance)) × ℝ =>
      decide ((((f q.1.1, Spec.kept A q.1.1 q.1.2), q.2) : (ℝ × Bool) × ℝ) ∈ D') := by
    refine measurable_to_bool ?_
    convert ((hf'.comp measurable_fst).prodMk measurable_snd) hD' using 1
    ext q; simp
  have k := flagged_eq (μ.prod (Spec.chances A)) ν hD' hf' hp'
  have e1 : (fun q : (Spec.SkySource × (Fin A.length → Spec.Chance)) × ℝ =>
      (q.1, Spec.kept A q.1.1 q.1.2 && decide ((f q.1.1, q.2) ∈ D))) = fun q =>
      (q.1, decide ((((f q.1.1, Spec.kept A q.1.1 q.1.2), q.2) : (ℝ × Bool) × ℝ) ∈ D')) := by
    funext q
    congr 1
    rw [Bool.eq_iff_iff, Bool.and_eq_true, decide_eq_true_eq, decide_eq_true_eq]
    exact Iff.rfl
  rw [e1]
  exact ⟨measurable_fst.prodMk hb, k⟩

theorem gains_who {n : ℕ} (A : List Spec.Player) (x : Fin n → Spec.Seen)
    (u : Fin n → Fin A.length → Spec.Chance) (prs : Fin A.length → List ℝ) :
    (gains A x u prs).map Spec.Gain.who = A.map Spec.Player.who := by
  unfold gains
  rw [List.map_ofFn]
  have : (Spec.Gain.who ∘ fun j : Fin A.length => (A.get j).gain x (fun i => u i j) (prs j)) =
      fun j => (A.get j).who := rfl
  rw [this]
  exact List.ext_get (by simp) (by simp)

theorem catalogueAux_prob
    (h : Spec.Lawful P e env c tr { y with aux := [] } a s flux rm m vs μL p)
    (hA : Spec.Entourage P e y s.heap A) :
    IsProbabilityMeasure (Spec.catalogueAux e c y a s flux rm m vs μL p A) := by
  obtain ⟨ν, D, _, hν, hD, hp, -⟩ := h.detects
  have j1 := h.distance_prob
  have j2 := h.lumProb
  have hAl : ∀ q ∈ A, IsProbabilityMeasure q.law := fun q hq => (hA.plays q hq).law
  have j5 := chances_prob A hAl
  have r3 := object_flag (A := A) (p := p) (Spec.sourceLaw (Spec.densityLaw (fun r => min (c.dens vs r) m) rm) μL
      (Spec.sigmaUsed (s.heap.selectors y.fluxSel).kind a)) hAl (fun q hq => (hA.plays q hq).response) ν hD
      h.observed_measurable hp
  have r4 : Spec.catalogueAux e c y a s flux rm m vs μL p A = _ := r3.map_eq.symm
  rw [r4]
  exact Measure.isProbabilityMeasure_map r3.measurable.aemeasurable

/-- A survey with a given number of objects. -/
theorem survey_aux_samples
    (h : Spec.Lawful P e env c tr { y with aux := [] } a s flux rm m vs μL p)
    (hA : Spec.Entourage P e y s.heap A)
    (showProgress : Bool) (galB : List ℝ → List ℝ → List ℝ) {o1 : Obj ℝ}
    (ho : RdRel c.decl s.sp.params o1 ∧ NormRel c.reads c.decl s.sp.params o1) (n : ℕ) :
    Spec.Samples P (Spec.iid n (Spec.catalogueAux e c y a s flux rm m vs μL p A)) fun k g1 v g6 =>
      ∀ g0, countObjects (Spec.surveyEnv e env c.code showProgress tr galB k g0) a.nSamples a.normalize
        { s with heap := { s.heap with rng := g0 } } =
          .ok n { s with sp := { s.sp with params := o1 }, heap := { s.heap with rng := g1 } } →
      ∃ Q s', drawSurvey (Spec.surveyEnv e env c.code showProgress tr galB k g0) y a s = .ok Q s' ∧
        s'.heap.rng = g6 ∧ Spec.HoldsAux Q flux (Spec.observed e
          (Spec.sigmaUsed (s.heap.selectors y.fluxSel).kind a) a.log10Draw) A (List.ofFn v) := by
  obtain ⟨ν, D, _, hν, hD, hp, hsel⟩ := h.detects
  have j1 := h.distance_prob
  have j2 := h.lumProb
  have j3 := sin_law_prob
  have j4 := uniformLaw_prob (h := 2 * Real.pi) (by have := Real.pi_pos; positivity)
  have hAl : ∀ q ∈ A, IsProbabilityMeasure q.law := fun q hq => (hA.plays q hq).law
  have j5 := chances_prob A hAl
  have hAr : ∀ p ∈ A, Measurable fun q : Spec.Seen × Spec.Chance => p.response q.1 q.2 :=
    fun q hq => (hA.plays q hq).response
  -- distances
  have hr1 : outcome (paramGet (c.decl "r_max") "r_max" o1) = .ok rm := by
    rw [outcome_paramGet_rd, ho.1.same, ← outcome_paramGet_rd]; exact h.radius.1
  have hvs1 : outcome (readAll c.decl c.reads o1) = .ok vs := by
    rw [readAll_outcome, rdAll_congr _ _ ho.1.same, ← readAll_outcome]; exact h.values
  have hok1 : ∀ n, o1.norm = some n → (c.decl n).isNorm = true ∧ (o1.storage.get? n).isSome :=
    fun n hn => ⟨ho.1.normOk (fun n hn => (h.norm n hn).1) n hn,
      ho.2.stored (fun n hn => (h.norm n hn).2) n hn⟩
  have S1 := C73_draw_distance env h.uniform h.lt c h.declared h.unique showProgress n
    { s.sp with params := o1 } hok1 hr1 hvs1 h.highest.1 h.highest.2 h.radius.2 h.density h.somewhere
  have S2 := sky_samples env h.uniform h.thetaOf h.twoPi n
  have S3 := h.luminosity n
  have hid : (A.map Spec.Player.id).Nodup := by
    have := hA.apart.ids
    rw [List.map_map] at this
    exact this
  have hse : (A.map Spec.Player.sel).Nodup := by
    have := hA.apart.sels
    rw [List.map_map] at this
    exact this
  have SA := players_samples n A hA.alone hA.plays hid hse
  have S4 := noise_samples e y a s.heap h.noise n
  have S5 := hsel n
  have S := Samples.mapTo (Q := fun k g (w : Fin n → ℝ × (ℝ × ℝ) × ℝ × (Fin A.length → Spec.Chance) × ℝ × ℝ) g' =>
      After _ (After _ (After _ (After _ (After _ _)))) k g
        (((fun i => (w i).1), ((fun i => (w i).2.1.1), fun i => (w i).2.1.2), (fun i => (w i).2.2.1),
          (fun i => (w i).2.2.2.1), (fun i => (w i).2.2.2.2.1), fun i => (w i).2.2.2.2.2)) g')
    (Samples.after S1 (Samples.after S2 (Samples.after S3 (Samples.after SA (Samples.after S4 S5)))))
    (iid_zip6 n _ _ _ _ _ _ _) (fun k g q g' hq => hq)
  -- the law of an object
  have r0 := regroup (Spec.densityLaw (fun r => min (c.dens vs r) m) rm)
    ((Spec.densityLaw Real.sin Real.pi).prod (Spec.uniformLaw (2 * Real.pi))) μL (Spec.chances A)
    (Spec.noiseLaw (Spec.sigmaUsed (s.heap.selectors y.fluxSel).kind a)) ν
  have r1 := ((SkySource.measurable_ofTuple.measurePreserving
    ((Spec.densityLaw (fun r => min (c.dens vs r) m) rm).prod
      (((Spec.densityLaw Real.sin Real.pi).prod (Spec.uniformLaw (2 * Real.pi))).prod
        (μL.prod (Spec.noiseLaw (Spec.sigmaUsed (s.heap.selectors y.fluxSel).kind a)))))).prod
    (MeasurePreserving.id (Spec.chances A))).prod (MeasurePreserving.id ν)
  have r2 := r1.comp r0
  have i7 : IsProbabilityMeasure (Spec.sourceLaw (Spec.densityLaw (fun r => min (c.dens vs r) m) rm) μL
      (Spec.sigmaUsed (s.heap.selectors y.fluxSel).kind a)) := inferInstance
  have r3 := object_flag (A := A) (p := p) (Spec.sourceLaw (Spec.densityLaw (fun r => min (c.dens vs r) m) rm) μL
      (Spec.sigmaUsed (s.heap.selectors y.fluxSel).kind a)) hAl hAr ν hD h.observed_measurable hp
  have r4 := r3.comp r2
  have hfst := ((measurePreserving_fst (μ := Spec.sourceLaw
      (Spec.densityLaw (fun r => min (c.dens vs r) m) rm) μL
      (Spec.sigmaUsed (s.heap.selectors y.fluxSel).kind a)) (ν := Spec.chances A)).comp
    (measurePreserving_fst (ν := ν))).comp r2
  have hfin := iid_ae (hfst.quasiMeasurePreserving.ae h.finite) n
  have hcat := catalogueAux_prob h hA
  have hiid := measurePreserving_pi (fun _ : Fin n => _)
    (fun _ => Spec.catalogueAux e c y a s flux rm m vs μL p A) fun _ => r4
  refine Samples.mapTo (Samples.and_ae S hfin) hiid ?_
  rintro k g1 w g6 ⟨⟨g2, ⟨sp2, d1, d2⟩, g3, q2, g4, ⟨lum1, q3, q4⟩, g4', qA, g5, q5, q6⟩, hf⟩ g0 hcount
  have hf' : ∀ i, Spec.observable e (Spec.sigmaUsed (s.heap.selectors y.fluxSel).kind a) a.log10Draw
        (flux (w i).2.2.1 (w i).1) (w i).2.2.2.2.1 := hf
  obtain ⟨sel', t1, t2⟩ := q6 fun i => Spec.observed e
    (Spec.sigmaUsed (s.heap.selectors y.fluxSel).kind a) a.log10Draw
      (flux (w i).2.2.1 (w i).1) (w i).2.2.2.2.1
  obtain ⟨rs', p1, u1, u2, u3⟩ := drawDistance_probability _ c _ _ _ d1
  obtain ⟨d3, -, -, d4⟩ := d2
  have u4 : p1.length = n := by
    rw [u3]
    have := u1.symm.trans d3
    cases this
    simp
  have hrr : ∃ r o, readRMax env sp2.params = .ok r o := by
    have h1 := d4 "r_max"
    rw [hr1, outcome_paramGet_rd] at h1
    cases h2 : rd c.decl "r_max" sp2.params with
    | none => rw [h2] at h1; cases h1
    | some x =>
      obtain ⟨o, h3, -⟩ := readRMax_ok env h.declared h2
      exact ⟨x, o, h3⟩
  -- the objects
  let x : Fin n → Spec.SkySource := fun i =>
    ⟨(w i).1, (w i).2.1.1, (w i).2.1.2, (w i).2.2.1, (w i).2.2.2.2.1⟩
  let u : Fin n → Fin A.length → Spec.Chance := fun i => (w i).2.2.2.1
  obtain ⟨h', prs, tk, hr'⟩ := qA { s.heap with rng := g4 } (fun i => (x i).seen)
    (fun p _ => ⟨rfl, rfl⟩) rfl
  obtain ⟨k', hk'⟩ := Nat.exists_eq_succ_of_ne_zero hA.frames.ne'
  let e' := Spec.surveyEnv e env c.code showProgress tr galB k g0
  have hgw := gains_who A (fun i => (x i).seen) u prs
  have aux : AuxPlayed e' y s n g4 g4' (List.ofFn fun i => (w i).2.2.1)
      { distance := List.ofFn fun i => (w i).1, theta := List.ofFn fun i => (w i).2.1.1
        phi := List.ofFn fun i => (w i).2.1.2 }
      (entriesOf (gains A (fun i => (x i).seen) u prs))
      (commonMask n (gains A (fun i => (x i).seen) u prs)) := by
    refine takes_played (e := e') (h' := h') (k := k') hk' (by rw [hgw]; exact hA.apart) ?_ ?_ hr'
    · intro d hd
      have : d.who ∈ A.map Spec.Player.who := by rw [← hgw]; exact List.mem_map_of_mem hd
      obtain ⟨q, hq, hqd⟩ := List.mem_map.1 this
      rw [← hqd]
      exact hA.alone q hq
    · have : k' + 1 = e.frames := hk'.symm
      rw [this]
      exact tk
  have stages : AuxStages e' y a s n g6
      (List.ofFn fun i => (w i).1) (List.ofFn fun i => (w i).2.1.1) (List.ofFn fun i => (w i).2.1.2)
      (List.ofFn fun i => (w i).2.2.1) (List.ofFn fun i => flux (w i).2.2.1 (w i).1)
      (List.ofFn fun i => Spec.observed e
        (Spec.sigmaUsed (s.heap.selectors y.fluxSel).kind a) a.log10Draw
          (flux (w i).2.2.1 (w i).1) (w i).2.2.2.2.1)
      (entriesOf (gains A (fun i => (x i).seen) u prs))
      (commonMask n (gains A (fun i => (x i).seen) u prs))
      (List.ofFn fun i => decide ((Spec.observed e
        (Spec.sigmaUsed (s.heap.selectors y.fluxSel).kind a) a.log10Draw
          (flux (w i).2.2.1 (w i).1) (w i).2.2.2.2.1, (w i).2.2.2.2.2) ∈ D)) :=
    { g0 := g0, g1 := g1, g2 := g2, g3 := g3, g4 := g4, g4' := g4', g5 := g5, o1 := o1, sp2 := sp2
      sp3 := { sp2 with theta := some (List.ofFn fun i => (w i).2.1.1), phi := some (List.ofFn fun i => (w i).2.1.2) }
      lum1 := lum1, sg := _, sel' := sel'
      seed := rfl
      count := hcount
      dist := by rw [h.plainCount]; exact d1
      prob := ⟨p1, u2, u4⟩
      sky := q2 sp2
      pos := ⟨d3, rfl, rfl⟩
      lens := by simp
      lum := q3
      phi := q4
      flux := by
        show tr _ _ = _
        rw [h.transforms _ _ (by simp), ofFn_zipWith]
      aux := aux
      obs := by
        intro t hr ht
        rw [observeFlux_env, ← q5 (fun i => flux (w i).2.2.1 (w i).1) t hr ht hf']
      sel := t1
      mask := t2
      rmax := hrr }
  have pl : Spec.Basic e' y s :=
    ⟨h.plain.derived, h.plain.lum, h.plain.spat, h.plain.apart, h.plain.fresh,
      h.plain.known, h.plain.spaces, hA.dict⟩
  obtain ⟨Q, s', b1, b2, b3, b4, b5, b6, b7, b8, b9, b10, b11⟩ := stages.returns pl
  refine ⟨Q, s', b1, b2, ?_⟩
  rw [commonMask_gains, ofFn_zipWith] at b3
  have hs : Q.selection = (List.ofFn fun i => (x i, Spec.kept A (x i) (u i) && decide ((Spec.observed e
        (Spec.sigmaUsed (s.heap.selectors y.fluxSel).kind a) a.log10Draw
          (flux (w i).2.2.1 (w i).1) (w i).2.2.2.2.1, (w i).2.2.2.2.2) ∈ D))).map fun z => z.2 := by
    rw [b3, List.map_ofFn]; rfl
  have hlen : Q.selection.length = n := by rw [b3]; simp
  constructor
  · rw [List.map_ofFn]
    refine ⟨hs, ?_, ?_, ?_, ?_, ?_, ?_⟩
    · rw [b5, List.map_ofFn]; rfl
    · rw [b6, List.map_ofFn]; rfl
    · rw [b7, List.map_ofFn]; rfl
    · rw [b8, List.map_ofFn]; rfl
    · rw [b9, List.map_ofFn, List.map_ofFn]; rfl
    · constructor
      · rw [b10, countTrue_eq, hs]; rfl
      · have := List.count_true_add_count_false Q.selection
        rw [hlen] at this
        rw [b11, countTrue_eq]
        refine (Nat.eq_sub_of_add_eq' this).symm.trans ?_
        rw [hs]; rfl
  · rw [b4, entries_attrs]
    · unfold gains
      rw [List.nil_append, List.map_ofFn]
      congr 1
      funext j
      simp only [Function.comp_apply, Spec.Player.gain, List.map_ofFn]
      rfl
    · have := hA.apart.keys
      rw [← hgw, List.map_map] at this
      exact this

/-- **C80** (catalogue): with attached samplers a survey returns almost surely; its population is
a Poisson number (mean the integral of the density) of independent objects: sources with the law
`sourceLaw`, each with independent chances of every sampler; its quantities are the responses of
the samplers, and it is detected with the probability of its observed flux if all samplers select
it, and not otherwise. -/
theorem C80_catalogue
    (h : Spec.Lawful P e env c tr { y with aux := [] } a s flux rm m vs μL p)
    (hA : Spec.Entourage P e y s.heap A) (hc : Spec.Counted P e env c a rm vs Λ)
    (showProgress : Bool) (galB : List ℝ → List ℝ → List ℝ) :
    Spec.Samples P (Spec.poissonSample Λ (Spec.catalogueAux e c y a s flux rm m vs μL p A))
      fun k g v g' => ∃ Q s',
        drawSurvey (Spec.surveyEnv e env c.code showProgress tr galB k g) y a s = .ok Q s' ∧
        s'.heap.rng = g' ∧ Spec.HoldsAux Q flux (Spec.observed e
          (Spec.sigmaUsed (s.heap.selectors y.fluxSel).kind a) a.log10Draw) A v := by
  have := catalogueAux_prob h hA
  have hr : rd c.decl "r_max" s.sp.params = some rm := rd_of_outcome h.radius.1
  have hvs : rdAll c.decl c.reads s.sp.params = .ok vs := by rw [← readAll_outcome]; exact h.values
  obtain ⟨o1, c1, c2, c3⟩ := expectedCount_returns env c h.declared hr hvs
  have hi : ∀ n, IsProbabilityMeasure ((Spec.iid n (Spec.catalogueAux e c y a s flux rm m vs μL p A)).map
      List.ofFn) := fun n =>
    Measure.isProbabilityMeasure_map (measurable_ofFn n).aemeasurable
  refine Samples.bindNat hc.poisson (fun n => Samples.map (survey_aux_samples h hA showProgress galB ⟨c2, c3⟩ n)
    (measurable_ofFn n) (Q := fun k g1 v g6 => v.length = n ∧
      ∀ g0, countObjects (Spec.surveyEnv e env c.code showProgress tr galB k g0) a.nSamples a.normalize
        { s with heap := { s.heap with rng := g0 } } =
          .ok n { s with sp := { s.sp with params := o1 }, heap := { s.heap with rng := g1 } } →
      ∃ Q s', drawSurvey (Spec.surveyEnv e env c.code showProgress tr galB k g0) y a s = .ok Q s' ∧
        s'.heap.rng = g6 ∧ Spec.HoldsAux Q flux (Spec.observed e
          (Spec.sigmaUsed (s.heap.selectors y.fluxSel).kind a) a.log10Draw) A v)
    (fun k g1 v g6 hv => ⟨List.length_ofFn, hv⟩)) ?_
  rintro k g n g1 v g2 hp ⟨rfl, hv⟩
  refine hv g ?_
  rw [hc.drawn, h.plainCount]
  show (onSpatial (onParams ((Spec.surveyEnv e env c.code showProgress tr galB k g).spatial.count false)) >>=
    fun N => onRng ((Spec.surveyEnv e env c.code showProgress tr galB k g).poisson N)) _ = _
  have e1 : onSpatial (onParams ((Spec.surveyEnv e env c.code showProgress tr galB k g).spatial.count false))
      { s with heap := { s.heap with rng := g } } = .ok (Λ : ℝ)
        { s with sp := { s.sp with params := o1 }, heap := { s.heap with rng := g } } := by
    refine onSpatial_of_ok (t := { sp := { s.sp with params := o1 }, rng := g }) ?_
    unfold onParams
    have : (Spec.surveyEnv e env c.code showProgress tr galB k g).spatial.count false s.sp.params =
      .ok (Λ : ℝ) o1 := by rw [hc.mean]; exact c1
    simp only [this]
  rw [bind_of_ok e1]
  exact onRng_of_ok hp

/-- **C80** (given number): with `n_samples = n` there are `n` independent objects with the same
law. -/
theorem C80_given_number
    (h : Spec.Lawful P e env c tr { y with aux := [] } a s flux rm m vs μL p)
    (hA : Spec.Entourage P e y s.heap A) {n : ℕ}
    (hn : a.nSamples = some n) (showProgress : Bool) (galB : List ℝ → List ℝ → List ℝ) :
    Spec.Samples P (Spec.iid n (Spec.catalogueAux e c y a s flux rm m vs μL p A))
      fun k g v g' => ∃ Q s',
        drawSurvey (Spec.surveyEnv e env c.code showProgress tr galB k g) y a s = .ok Q s' ∧
        s'.heap.rng = g' ∧ Spec.HoldsAux Q flux (Spec.observed e
          (Spec.sigmaUsed (s.heap.selectors y.fluxSel).kind a) a.log10Draw) A (List.ofFn v) := by
  refine Samples.mono (survey_aux_samples h hA showProgress galB (o1 := s.sp.params)
    ⟨RdRel.refl _, NormRel.refl _⟩ n) fun k g v g' hv => hv g ?_
  rw [hn]
  rfl

end Popsynth
