import Verif.Spec.Law
import Mathlib.Probability.ConditionalProbability

/-!
# Composing programs that draw random numbers
-/

set_option autoImplicit false
set_option linter.unusedSectionVars false

open MeasureTheory Filter

namespace Popsynth

variable {G α β : Type} [MeasurableSpace G] [MeasurableSpace α] [MeasurableSpace β]
  {P : Measure G} [IsProbabilityMeasure P]

/-- Whatever holds almost surely also holds almost surely after a draw. -/
theorem ae_after {μ : Measure α} [IsProbabilityMeasure μ] {T : G → α × G}
    (hT : MeasurePreserving T P (μ.prod P)) {p : G → Prop} (hp : ∀ᵐ g ∂P, p g) :
    ∀ᵐ g ∂P, p (T g).2 :=
  ((measurePreserving_snd (μ := μ) (ν := P)).comp hT).quasiMeasurePreserving.ae hp

/-- One draw, then another one. -/
theorem Samples.seq {μ : Measure α} {ν : Measure β} [IsProbabilityMeasure μ]
    [IsProbabilityMeasure ν] {R : ℕ → G → α → G → Prop} {R' : ℕ → G → β → G → Prop}
    {Q : ℕ → G → α × β → G → Prop}
    (h : Spec.Samples P μ R) (h' : Spec.Samples P ν R')
    (hQ : ∀ k g a g1 b g2, R k g a g1 → R' k g1 b g2 → Q k g (a, b) g2) :
    Spec.Samples P (μ.prod ν) Q := by
  obtain ⟨T, hT, hR⟩ := h
  obtain ⟨T', hT', hR'⟩ := h'
  refine ⟨fun g => (((T g).1, (T' (T g).2).1), (T' (T g).2).2), ?_, ?_⟩
  · have h1 : MeasurePreserving (Prod.map (id : α → α) T') (μ.prod P) (μ.prod (ν.prod P)) :=
      (MeasurePreserving.id μ).prod hT'
    have h2 := (measurePreserving_prodAssoc μ ν P).symm
      (e := MeasurableEquiv.prodAssoc)
    exact h2.comp (h1.comp hT)
  · filter_upwards [hR, ae_after hT hR'] with g h1 h2
    filter_upwards [h1, h2] with k h1 h2
    exact hQ _ _ _ _ _ _ h1 h2

/-- A function of what was drawn. -/
theorem Samples.map {μ : Measure α} {R : ℕ → G → α → G → Prop}
    {Q : ℕ → G → β → G → Prop} [SFinite μ] (h : Spec.Samples P μ R) {f : α → β} (hf : Measurable f)
    (hQ : ∀ k g a g', R k g a g' → Q k g (f a) g') : Spec.Samples P (μ.map f) Q := by
  obtain ⟨T, hT, hR⟩ := h
  refine ⟨fun g => (f (T g).1, (T g).2), ?_, ?_⟩
  · have h1 : MeasurePreserving (Prod.map f (id : G → G)) (μ.prod P) ((μ.map f).prod P) :=
      (hf.measurePreserving μ).prod (MeasurePreserving.id P)
    exact h1.comp hT
  · filter_upwards [hR] with g h1
    filter_upwards [h1] with k h1
    exact hQ _ _ _ _ h1

theorem Samples.mono {μ : Measure α} {R Q : ℕ → G → α → G → Prop}
    (h : Spec.Samples P μ R) (hQ : ∀ k g a g', R k g a g' → Q k g a g') : Spec.Samples P μ Q := by
  obtain ⟨T, hT, hR⟩ := h
  refine ⟨T, hT, ?_⟩
  filter_upwards [hR] with g h1
  filter_upwards [h1] with k h1
  exact hQ _ _ _ _ h1

instance {μ : Measure α} [IsProbabilityMeasure μ] (n : ℕ) :
    IsProbabilityMeasure (Spec.iid n μ) := by
  unfold Spec.iid; infer_instance

/-- Doing the same `n` times. -/
def Repeats (R : ℕ → G → α → G → Prop) (k : ℕ) : List α → G → G → Prop
  | [], g, g' => g' = g
  | a :: as, g, g' => ∃ g1, R k g a g1 ∧ Repeats R k as g1 g'

/-- Repeated draws are independent. -/
theorem Samples.repeat {μ : Measure α} [IsProbabilityMeasure μ] {R : ℕ → G → α → G → Prop}
    (h : Spec.Samples P μ R) (n : ℕ) :
    Spec.Samples P (Spec.iid n μ) fun k g (v : Fin n → α) g' =>
      Repeats R k (List.ofFn v) g g' := by
  induction n with
  | zero =>
    refine ⟨fun g => (Fin.elim0, g), ?_, ?_⟩
    · have e : Spec.iid 0 μ = Measure.dirac Fin.elim0 := by
        unfold Spec.iid
        rw [Measure.pi_of_empty _ Fin.elim0]
      rw [e]
      refine ⟨by fun_prop, ?_⟩
      rw [Measure.dirac_prod]
    · refine Eventually.of_forall fun g => Eventually.of_forall fun k => ?_
      simp [Repeats]
  | succ n ih =>
    have e := (measurePreserving_piFinSuccAbove (fun _ : Fin (n + 1) => μ) 0).symm
      (e := MeasurableEquiv.piFinSuccAbove (fun _ => α) 0)
    have hs := Samples.seq (Q := fun k g (a : α × (Fin n → α)) g' =>
      Repeats R k (a.1 :: List.ofFn a.2) g g') h ih
      (fun k g a g1 b g2 h1 h2 => ⟨g1, h1, h2⟩)
    have hm := Samples.map hs (MeasurableEquiv.piFinSuccAbove (fun _ : Fin (n + 1) => α) 0).symm.measurable
      (Q := fun k g (v : Fin (n + 1) → α) g' => Repeats R k (List.ofFn v) g g') (by
        intro k g a g' h
        have : List.ofFn ((MeasurableEquiv.piFinSuccAbove (fun _ : Fin (n + 1) => α) 0).symm a) =
            a.1 :: List.ofFn a.2 := by
          rw [List.ofFn_succ]
          simp [MeasurableEquiv.piFinSuccAbove, Fin.insertNthEquiv]
        rw [this]; exact h)
    rw [show μ.prod (Spec.iid n μ) = μ.prod (Measure.pi fun _ : Fin n => μ) from rfl, e.map_eq] at hm
    exact hm

/-! ### Waiting for an acceptable draw -/

section wait
variable (S : G → β × G) (A : Set β)

/-- The generator state before draw number `j`. -/
def waitState (S : G → β × G) : ℕ → G → G
  | 0, g => g
  | j + 1, g => waitState S j (S g).2

/-- The first `j` draws are unacceptable. -/
def waits : ℕ → Set G
  | 0 => Set.univ
  | j + 1 => {g | (S g).1 ∉ A ∧ (S g).2 ∈ waits j}

variable {S A}

theorem mem_waits (j : ℕ) (g : G) :
    g ∈ waits S A j ↔ ∀ i < j, (S (waitState S i g)).1 ∉ A := by
  induction j generalizing g with
  | zero => simp [waits]
  | succ j ih =>
    simp only [waits, Set.mem_ofPred_eq, ih]
    constructor
    · rintro ⟨h0, h⟩ i hi
      cases i with
      | zero => exact h0
      | succ i => exact h i (by omega)
    · intro h
      exact ⟨h 0 (by omega), fun i hi => h (i + 1) (by omega)⟩

theorem waitState_succ (j : ℕ) (g : G) : waitState S (j + 1) g = (S (waitState S j g)).2 := by
  induction j generalizing g with
  | zero => rfl
  | succ j ih => rw [waitState, ih]; rfl

theorem measurable_waitState (hS : Measurable S) (j : ℕ) : Measurable (waitState S j) := by
  induction j with
  | zero => exact measurable_id
  | succ j ih => exact ih.comp (measurable_snd.comp hS)

theorem measurableSet_waits (hS : Measurable S) (hA : MeasurableSet A) (j : ℕ) :
    MeasurableSet (waits S A j) := by
  induction j with
  | zero => exact MeasurableSet.univ
  | succ j ih =>
    exact ((measurable_fst.comp hS) hA.compl).inter ((measurable_snd.comp hS) ih)

variable {ρ : Measure β} [IsProbabilityMeasure ρ]

theorem waits_measure (hS : MeasurePreserving S P (ρ.prod P)) (hA : MeasurableSet A) (j : ℕ)
    {C : Set G} (hC : MeasurableSet C) :
    P (waits S A j ∩ waitState S j ⁻¹' C) = ρ Aᶜ ^ j * P C := by
  induction j with
  | zero => simp [waits, waitState]
  | succ j ih =>
    have e : waits S A (j + 1) ∩ waitState S (j + 1) ⁻¹' C =
        S ⁻¹' (Aᶜ ×ˢ (waits S A j ∩ waitState S j ⁻¹' C)) := by
      ext g; simp [waits, waitState, and_assoc]
    rw [e, hS.measure_preimage (hA.compl.prod ((measurableSet_waits hS.measurable hA j).inter
      (measurable_waitState hS.measurable j hC))).nullMeasurableSet, Measure.prod_prod, ih,
      pow_succ]
    ring

/-- `j` unacceptable draws, then an acceptable one in `X`, leaving a state in `Y`. -/
def waitEnds (S : G → β × G) (A : Set β) (j : ℕ) (X : Set β) (Y : Set G) : Set G :=
  waits S A j ∩ waitState S j ⁻¹' (S ⁻¹' ((A ∩ X) ×ˢ Y))

theorem waitEnds_measure (hS : MeasurePreserving S P (ρ.prod P)) (hA : MeasurableSet A) (j : ℕ)
    {X : Set β} (hX : MeasurableSet X) {Y : Set G} (hY : MeasurableSet Y) :
    P (waitEnds S A j X Y) = ρ Aᶜ ^ j * (ρ (A ∩ X) * P Y) := by
  have hm : MeasurableSet ((A ∩ X) ×ˢ Y) := (hA.inter hX).prod hY
  rw [waitEnds, waits_measure hS hA j (hS.measurable hm),
    hS.measure_preimage hm.nullMeasurableSet, Measure.prod_prod]

theorem waitEnds_disjoint (X X' : Set β) (Y Y' : Set G) {i j : ℕ} (h : i ≠ j) :
    Disjoint (waitEnds S A i X Y) (waitEnds S A j X' Y') := by
  rw [Set.disjoint_left]
  rintro g ⟨h1, h2⟩ ⟨h3, h4⟩
  rcases lt_or_gt_of_ne h with h | h
  · exact (mem_waits j g).1 h3 i h h2.1.1
  · exact (mem_waits i g).1 h1 j h h4.1.1

theorem waitEnds_union (hS : MeasurePreserving S P (ρ.prod P)) (hA : MeasurableSet A) {X : Set β} (hX : MeasurableSet X) {Y : Set G} (hY : MeasurableSet Y) :
    P (⋃ j, waitEnds S A j X Y) = (ProbabilityTheory.cond ρ A) X * P Y := by
  rw [measure_iUnion (fun i j h => waitEnds_disjoint X X Y Y h)]
  · simp only [waitEnds_measure hS hA _ hX hY]
    rw [ENNReal.tsum_mul_right, ENNReal.tsum_geometric, ProbabilityTheory.cond_apply hA,
      prob_compl_eq_one_sub hA, ENNReal.sub_sub_cancel ENNReal.one_ne_top prob_le_one, mul_assoc]
  · intro j
    have hm : MeasurableSet ((A ∩ X) ×ˢ Y) := (hA.inter hX).prod hY
    exact (measurableSet_waits hS.measurable hA j).inter
      (measurable_waitState hS.measurable j (hS.measurable hm))

open Classical in
/-- The first acceptable draw. -/
noncomputable def waitFor (S : G → β × G) (A : Set β) (g : G) : β × G :=
  if h : ∃ j, (S (waitState S j g)).1 ∈ A then S (waitState S (Nat.find h) g) else S g

theorem waitFor_eq {j : ℕ} {g : G} (h : g ∈ waitEnds S A j Set.univ Set.univ) :
    waitFor S A g = S (waitState S j g) := by
  classical
  have ha : (S (waitState S j g)).1 ∈ A := h.2.1.1
  have hex : ∃ j, (S (waitState S j g)).1 ∈ A := ⟨j, ha⟩
  rw [waitFor, dif_pos hex]
  congr 2
  refine le_antisymm (Nat.find_min' hex ha) ?_
  by_contra hlt
  exact (mem_waits j g).1 h.1 _ (not_le.1 hlt) (Nat.find_spec hex)

theorem waitFor_preimage {X : Set β} {Y : Set G} :
    waitFor S A ⁻¹' (X ×ˢ Y) =
      (⋃ j, waitEnds S A j X Y) ∪
        ((⋃ j, waitEnds S A j Set.univ Set.univ)ᶜ ∩ S ⁻¹' (X ×ˢ Y)) := by
  classical
  ext g
  by_cases h : ∃ j, g ∈ waitEnds S A j Set.univ Set.univ
  · obtain ⟨j, hj⟩ := h
    have hin : g ∈ ⋃ j, waitEnds S A j Set.univ Set.univ := Set.mem_iUnion.2 ⟨j, hj⟩
    rw [Set.mem_preimage, waitFor_eq hj]
    constructor
    · intro hm
      exact Or.inl (Set.mem_iUnion.2 ⟨j, hj.1, ⟨hj.2.1.1, hm.1⟩, hm.2⟩)
    · rintro (hm | hm)
      · obtain ⟨i, hi⟩ := Set.mem_iUnion.1 hm
        by_cases hij : i = j
        · subst hij; exact ⟨hi.2.1.2, hi.2.2⟩
        · exact absurd hj (Set.disjoint_left.1 (waitEnds_disjoint X Set.univ Y Set.univ hij) hi)
      · exact absurd hin hm.1
  · have hex : ¬ ∃ j, (S (waitState S j g)).1 ∈ A := by
      intro hex
      refine h ⟨Nat.find hex, (mem_waits _ _).2 fun i hi => Nat.find_min hex hi, ?_⟩
      exact ⟨⟨Nat.find_spec hex, trivial⟩, trivial⟩
    rw [Set.mem_preimage, waitFor, dif_neg hex]
    constructor
    · intro hm
      exact Or.inr ⟨fun hin => h (Set.mem_iUnion.1 hin), hm⟩
    · rintro (hm | hm)
      · obtain ⟨i, hi⟩ := Set.mem_iUnion.1 hm
        exact absurd ⟨i, hi.2.1.1⟩ hex
      · exact hm.2

/-- Waiting for an acceptable draw almost surely ends. -/
theorem wait_ends (hS : MeasurePreserving S P (ρ.prod P)) (hA : MeasurableSet A) (h0 : ρ A ≠ 0) :
    ∀ᵐ g ∂P, ∃ j, g ∈ waitEnds S A j Set.univ Set.univ := by
  have hP := waitEnds_union hS hA MeasurableSet.univ MeasurableSet.univ
  have : IsProbabilityMeasure (ProbabilityTheory.cond ρ A) :=
    ProbabilityTheory.cond_isProbabilityMeasure h0
  rw [measure_univ, measure_univ, one_mul] at hP
  have hms : MeasurableSet (⋃ j, waitEnds S A j Set.univ Set.univ) := by
    refine MeasurableSet.iUnion fun j => ?_
    have hm : MeasurableSet ((A ∩ Set.univ) ×ˢ (Set.univ : Set G)) :=
      (hA.inter MeasurableSet.univ).prod MeasurableSet.univ
    exact (measurableSet_waits hS.measurable hA j).inter
      (measurable_waitState hS.measurable j (hS.measurable hm))
  have := (prob_compl_eq_zero_iff hms).2 hP
  rw [ae_iff]
  convert this using 2
  ext g; simp

/-- The first acceptable draw has the conditional law and leaves a fresh state. -/
theorem waitFor_preserves (hS : MeasurePreserving S P (ρ.prod P)) (hA : MeasurableSet A)
    (h0 : ρ A ≠ 0) :
    MeasurePreserving (waitFor S A) P ((ProbabilityTheory.cond ρ A).prod P) := by
  have : IsProbabilityMeasure (ProbabilityTheory.cond ρ A) :=
    ProbabilityTheory.cond_isProbabilityMeasure h0
  have hwe : ∀ {X : Set β} {Y : Set G}, MeasurableSet X → MeasurableSet Y →
      MeasurableSet (⋃ j, waitEnds S A j X Y) := by
    intro X Y hX hY
    refine MeasurableSet.iUnion fun j => ?_
    have hm : MeasurableSet ((A ∩ X) ×ˢ Y) := (hA.inter hX).prod hY
    exact (measurableSet_waits hS.measurable hA j).inter
      (measurable_waitState hS.measurable j (hS.measurable hm))
  have hmeas : Measurable (waitFor S A) := by
    have hp : ∀ {X : Set β} {Y : Set G}, MeasurableSet X → MeasurableSet Y →
        MeasurableSet (waitFor S A ⁻¹' (X ×ˢ Y)) := by
      intro X Y hX hY
      rw [waitFor_preimage]
      exact (hwe hX hY).union ((hwe MeasurableSet.univ MeasurableSet.univ).compl.inter
        (hS.measurable (hX.prod hY)))
    refine Measurable.prod (fun X hX => ?_) (fun Y hY => ?_)
    · have := hp hX MeasurableSet.univ
      rwa [Set.prod_univ] at this
    · have := hp MeasurableSet.univ hY
      rwa [Set.univ_prod] at this
  refine ⟨hmeas, ?_⟩
  symm
  refine Measure.prod_eq fun X Y hX hY => ?_
  rw [Measure.map_apply hmeas (hX.prod hY), waitFor_preimage, ← waitEnds_union hS hA hX hY]
  refine le_antisymm ((measure_union_le _ _).trans ?_) (measure_mono Set.subset_union_left)
  have hz : P ((⋃ j, waitEnds S A j Set.univ Set.univ)ᶜ) = 0 := by
    have := wait_ends hS hA h0
    rw [ae_iff] at this
    convert this using 2
    ext g; simp
  rw [measure_mono_null Set.inter_subset_left hz, add_zero]

end wait
end Popsynth
