import Verif.Lemmas.FamilyDraw
import Verif.Props.LawTroupe
import Verif.Props.LawAttachedChoice

/-!
# Samplers with secondaries in a survey (C84)
-/

set_option autoImplicit false
set_option linter.unusedSectionVars false

open MeasureTheory Filter
open scoped NNReal ENNReal

namespace Popsynth
variable {G : Type} [MeasurableSpace G] {P : Measure G} [IsProbabilityMeasure P]

/-! ### Lists of outcomes -/

theorem gainsList_append {n : ℕ} {b : List (String × ℕ × ℕ)} {B : Fin n → List Spec.Outcome}
    {q : List (List ℝ)} : ∀ (a : List (String × ℕ × ℕ)) (A : Fin n → List Spec.Outcome) (p : List (List ℝ)),
    (∀ i, (A i).length = a.length) → p.length = a.length →
    Spec.gainsList (a ++ b) (fun i => A i ++ B i) (p ++ q) = Spec.gainsList a A p ++ Spec.gainsList b B q
  | [], A, p, hA, hp => by
    have h1 : p = [] := List.length_eq_zero_iff.1 hp
    have h2 : A = fun _ => [] := funext fun i => List.length_eq_zero_iff.1 (hA i)
    subst h1; subst h2
    rfl
  | w :: a, A, p, hA, hp => by
    obtain ⟨p0, p, rfl⟩ : ∃ x y, p = x :: y := by
      cases p with
      | nil => simp at hp
      | cons x y => exact ⟨x, y, rfl⟩
    have hA' : ∀ i, ∃ x y, A i = x :: y := by
      intro i
      cases h : A i with
      | nil => have := hA i; rw [h] at this; simp at this
      | cons x y => exact ⟨x, y, rfl⟩
    choose A0 A1 hA1 using hA'
    have ih := gainsList_append (b := b) (B := B) (q := q) a A1 p
      (fun i => by have := hA i; rw [hA1 i] at this; simpa using this) (by simpa using hp)
    have hAe : A = fun i => A0 i :: A1 i := funext hA1
    subst hAe
    unfold Spec.gainsList at ih ⊢
    rw [List.cons_append, gainsOf_cons]
    rw [gainsOf_cons, List.cons_append]
    congr 1

theorem gainsList_who (who : List (String × ℕ × ℕ)) {n : ℕ} (out : Fin n → List Spec.Outcome)
    (prs : List (List ℝ)) : (Spec.gainsList who out prs).map Spec.Gain.who = who :=
  gainsOf_id _ _ _

theorem gainsList_one (p : String × ℕ × ℕ) {n : ℕ} (out : Fin n → Spec.Outcome) (pr : List ℝ) :
    Spec.gainsList [p] (fun i => [out i]) [pr] =
      [{ key := p.1, id := p.2.1, sel := p.2.2
         ts := List.ofFn fun i => (out i).1
         os := List.ofFn fun i => (out i).2.1
         mask := List.ofFn fun i => (out i).2.2
         prob := pr }] := rfl

theorem flatten_length {α β : Type} : ∀ {m : ℕ} (f : Fin m → List α) (g : Fin m → List β),
    (∀ j, (f j).length = (g j).length) → (List.ofFn f).flatten.length = (List.ofFn g).flatten.length
  | 0, _, _, _ => by simp
  | m + 1, f, g, h => by
    rw [List.ofFn_succ, List.ofFn_succ, List.flatten_cons, List.flatten_cons, List.length_append,
      List.length_append, h 0, flatten_length (fun j => f j.succ) (fun j => g j.succ) fun j => h j.succ]

theorem gainsList_flatten {n : ℕ} : ∀ {m : ℕ} (who : Fin m → List (String × ℕ × ℕ))
    (out : Fin n → Fin m → List Spec.Outcome) (prs : Fin m → List (List ℝ)),
    (∀ i j, (out i j).length = (who j).length) → (∀ j, (prs j).length = (who j).length) →
    Spec.gainsList (List.ofFn who).flatten (fun i => (List.ofFn (out i)).flatten) (List.ofFn prs).flatten =
      (List.ofFn fun j => Spec.gainsList (who j) (fun i => out i j) (prs j)).flatten
  | 0, who, out, prs, _, _ => by simp [Spec.gainsList, Spec.gainsOf]
  | m + 1, who, out, prs, ho, hp => by
    simp only [List.ofFn_succ, List.flatten_cons]
    rw [gainsList_append _ _ _ (fun i => ho i 0) (hp 0),
      gainsList_flatten (fun j => who j.succ) (fun i j => out i j.succ) (fun j => prs j.succ)
        (fun i j => ho i j.succ) fun j => hp j.succ]

theorem getD_append_measurable {α : Type} [MeasurableSpace α] {f g : α → List Spec.Outcome} {a : ℕ}
    (hl : ∀ x, (f x).length = a) (hf : ∀ j, Measurable fun x => (f x).getD j Spec.noOutcome)
    (hg : ∀ j, Measurable fun x => (g x).getD j Spec.noOutcome) (j : ℕ) :
    Measurable fun x => (f x ++ g x).getD j Spec.noOutcome := by
  by_cases hj : j < a
  · have : (fun x => (f x ++ g x).getD j Spec.noOutcome) = fun x => (f x).getD j Spec.noOutcome :=
      funext fun x => by
        rw [List.getD_eq_getElem?_getD, List.getD_eq_getElem?_getD, List.getElem?_append_left (by rw [hl]; exact hj)]
    rw [this]; exact hf j
  · have : (fun x => (f x ++ g x).getD j Spec.noOutcome) = fun x => (g x).getD (j - a) Spec.noOutcome :=
      funext fun x => by
        rw [List.getD_eq_getElem?_getD, List.getD_eq_getElem?_getD, List.getElem?_append_right (by rw [hl]; omega), hl]
    rw [this]; exact hg _

theorem getD_flatten_measurable {α : Type} [MeasurableSpace α] : ∀ {m : ℕ} (f : Fin m → α → List Spec.Outcome)
    (len : Fin m → ℕ), (∀ j x, (f j x).length = len j) →
    (∀ k j, Measurable fun x => (f k x).getD j Spec.noOutcome) →
    ∀ j, Measurable fun x => ((List.ofFn fun k => f k x).flatten).getD j Spec.noOutcome
  | 0, f, _, _, _, j => by simp
  | m + 1, f, len, hl, hf, j => by
    simp only [List.ofFn_succ, List.flatten_cons]
    exact getD_append_measurable (hl 0) (hf 0)
      (getD_flatten_measurable (fun k => f k.succ) (fun k => len k.succ) (fun k => hl k.succ) fun k => hf k.succ) j

/-! ### Secondaries one after the other -/

variable {w : World ℝ G} {k : ℕ} {h₀ : Heap ℝ G}

/-- What a direct secondary gives. -/
def kidOf (T : Spec.Act) {n : ℕ} (x : Fin n → Spec.Seen) (u : Fin n → T.κ) (prs : List (List ℝ)) : Kid ℝ where
  key := T.key
  id := T.id
  gains := Spec.gainsList T.members (fun i => T.outcomes (x i) (u i)) prs
  ts := List.ofFn fun i => (T.own (x i) (u i)).1
  os := List.ofFn fun i => (T.own (x i) (u i)).2

theorem gainsList_ids (who : List (String × ℕ × ℕ)) {n : ℕ} (out : Fin n → List Spec.Outcome)
    (prs : List (List ℝ)) : (Spec.gainsList who out prs).map Spec.Gain.id = who.map fun p => p.2.1 := by
  conv_rhs => rw [← gainsList_who who out prs, List.map_map]
  rfl

theorem gainsList_sels (who : List (String × ℕ × ℕ)) {n : ℕ} (out : Fin n → List Spec.Outcome)
    (prs : List (List ℝ)) : (Spec.gainsList who out prs).map Spec.Gain.sel = who.map fun p => p.2.2 := by
  conv_rhs => rw [← gainsList_who who out prs, List.map_map]
  rfl

theorem kids_samples (i n : ℕ) : ∀ {m : ℕ} (kids : Fin m → Spec.Act) (lit : Fin m → Bool),
    (∀ j, Spec.Sings P w k h₀ (lit j) (kids j)) →
    (∀ j, (h₀.samplers (kids j).id).isSecondary = true) →
    ((List.ofFn fun j => (kids j).members).flatten.map fun p => p.2.1).Nodup →
    ((List.ofFn fun j => (kids j).members).flatten.map fun p => p.2.2).Nodup →
    i ∉ ((List.ofFn fun j => (kids j).members).flatten.map fun p => p.2.1) →
    Spec.Samples P (Spec.iid n (Measure.pi fun j => (kids j).law)) fun _ g u g' =>
      ∀ (h : Heap ℝ G) (x : Fin n → Spec.Seen),
        (h.samplers i).spatial = some (Spec.positions fun i => ((x i).1, (x i).2.1)) →
        (∀ j, ∀ p ∈ (kids j).members, p.2.1 ≠ (kids j).id → h.samplers p.2.1 = h₀.samplers p.2.1) →
        (∀ j, ∀ p ∈ (kids j).members, h.selectors p.2.2 = h₀.selectors p.2.2) →
        (∀ j, ∃ sp, h.samplers (kids j).id =
          { Spec.handed (lit j) (h₀.samplers (kids j).id) x with spatial := sp }) → h.rng = g →
        ∃ (h' : Heap ℝ G) (prs : Fin m → List (List ℝ)), (∀ j, (prs j).length = (kids j).members.length) ∧
          Kids w k n i h (List.ofFn fun j => kidOf (kids j) x (fun i => u i j) (prs j)) h' ∧ h'.rng = g' := by
  intro m
  induction m with
  | zero =>
    intro kids _ _ _ _ _ _
    have : Subsingleton (Fin n → ∀ j : Fin 0, (kids j).κ) :=
      ⟨fun a b => funext fun i => funext fun j => j.elim0⟩
    have : ∀ j : Fin 0, IsProbabilityMeasure (kids j).law := fun j => j.elim0
    rw [dirac_of_subsingleton (Spec.iid n (Measure.pi fun j => (kids j).law)) (fun _ j => j.elim0)]
    refine ⟨fun g => ((fun _ j => j.elim0), g), ⟨by fun_prop, by rw [Measure.dirac_prod]⟩, ?_⟩
    exact Eventually.of_forall fun g => Eventually.of_forall fun k h x _ _ _ _ hg =>
      ⟨h, fun j => j.elim0, fun j => j.elim0, .nil h, hg⟩
  | succ m ih =>
    intro kids lit hp hsc hid hsel hi
    rw [List.ofFn_succ, List.flatten_cons, List.map_append, List.nodup_append] at hid hsel
    rw [List.ofFn_succ, List.flatten_cons, List.map_append, List.mem_append, not_or] at hi
    have hl : ∀ j, IsProbabilityMeasure (kids j).law := fun j => (hp j).law
    have S1 := (hp 0).draws n
    have S2 := ih (fun j => kids j.succ) (fun j => lit j.succ) (fun j => hp j.succ) (fun j => hsc j.succ)
      hid.2.1 hsel.2.1 hi.2
    refine Samples.mapTo (Samples.after S1 S2) (iid_pi_cons (fun j => (kids j).law) n) ?_
    rintro b g ⟨u1, u2⟩ g' ⟨g1, r1, r2⟩ h x hsp hot hse hha hg
    obtain ⟨sp, hsp0⟩ := hha 0
    let v : Spatial ℝ := Spec.positions fun i => ((x i).1, (x i).2.1)
    let h0 : Heap ℝ G := h.modSampler (kids 0).id fun s => { s with spatial := some v }
    obtain ⟨h1, pr, a0, a1, a2⟩ := r1 h0 x
      (fun p hpm hne => by
        show (h.modSampler _ _).samplers _ = _
        simp only [Heap.modSampler, hne, if_false]
        exact hot 0 p hpm hne)
      (fun p hpm => hse 0 p hpm)
      (by simp only [h0, Heap.modSampler, if_true, hsp0]; rfl) hg
    have hids := gainsList_ids (kids 0).members (fun i => (kids 0).outcomes (x i) (u1 i)) pr
    have hsels := gainsList_sels (kids 0).members (fun i => (kids 0).outcomes (x i) (u1 i)) pr
    have hch := changed_moved a1.changed a1.own
    have hin : ∀ (j : Fin m) p, p ∈ (kids j.succ).members →
        p ∈ (List.ofFn fun j : Fin m => (kids j.succ).members).flatten := fun j p hpm =>
      List.mem_flatten.2 ⟨_, List.mem_ofFn.2 ⟨j, rfl⟩, hpm⟩
    have hkeep : ∀ (j : Fin m) a, a ∈ ((kids j.succ).members.map fun p => p.2.1) →
        h1.samplers a = h.samplers a := by
      intro j a ha
      obtain ⟨p, hpm, rfl⟩ := List.mem_map.1 ha
      refine hch.others _ fun hm => ?_
      rw [hids] at hm
      exact hid.2.2 _ hm _ (List.mem_map.2 ⟨p, hin j p hpm, rfl⟩) rfl
    obtain ⟨h2, prs, b0, b1, b2⟩ := r2 h1 x
      (by rw [hch.others i (by rw [hids]; exact hi.1)]; exact hsp)
      (fun j p hpm hne => by
        rw [hkeep j _ (List.mem_map.2 ⟨p, hpm, rfl⟩)]
        exact hot j.succ p hpm hne)
      (fun j p hpm => by
        rw [hch.selectors _ fun hm => ?_]
        · exact hse j.succ p hpm
        · rw [hsels] at hm
          exact hsel.2.2 _ hm _ (List.mem_map.2 ⟨p, hin j p hpm, rfl⟩) rfl)
      (fun j => by
        rw [hkeep j _ (hp j.succ).lead]
        exact hha j.succ) a2
    refine ⟨h2, Fin.cons pr prs, Fin.cases a0 b0, ?_, b2⟩
    rw [List.ofFn_succ]
    refine .cons (v := v) ?_ hsp ?_ b1
    · show (h.samplers (kids 0).id).isSecondary = true
      rw [hsp0]
      exact hsc 0
    · exact a1

/-! ### The sampler with its secondaries -/

section
variable {m : ℕ} {kids : Fin m → Spec.Act} {R : Spec.Lead m} {lit : Bool} {ok : Obj ℝ → Prop}

theorem lead_law (hR : Spec.Leads P w h₀ lit (fun j => (kids j).key) ok R) :
    IsProbabilityMeasure (R.μ.prod (R.ν.prod R.ν')) := by
  classical
  have := hR.laws.1
  have := hR.laws.2
  have := hR.choice.law
  infer_instance

theorem lead_outcome_measurable (hR : Spec.Leads P w h₀ lit (fun j => (kids j).key) ok R) :
    Measurable fun q : Spec.Seen × (Fin m → ℝ × ℝ) × Spec.Chance => R.outcome q.1 q.2.1 q.2.2 := by
  classical
  have m1 : Measurable fun q : Spec.Seen × (Fin m → ℝ × ℝ) × Spec.Chance => R.latent q.1 q.2.1 q.2.2.1 :=
    hR.latent_measurable.comp (f := fun q : Spec.Seen × (Fin m → ℝ × ℝ) × Spec.Chance => (q.1, q.2.1, q.2.2.1))
      (by fun_prop)
  have m2 : Measurable fun q : Spec.Seen × (Fin m → ℝ × ℝ) × Spec.Chance =>
      R.noisy q.1 q.2.1 (R.latent q.1 q.2.1 q.2.2.1) q.2.2.2.1 :=
    hR.noisy_measurable.comp (f := fun q : Spec.Seen × (Fin m → ℝ × ℝ) × Spec.Chance =>
      (q.1, q.2.1, R.latent q.1 q.2.1 q.2.2.1, q.2.2.2.1)) (by fun_prop)
  have m3 : Measurable fun q : Spec.Seen × (Fin m → ℝ × ℝ) × Spec.Chance =>
      (((q.1.1, q.1.2.2, R.noisy q.1 q.2.1 (R.latent q.1 q.2.1 q.2.2.1) q.2.2.2.1), q.2.2.2.2) : (ℝ × ℝ × ℝ) × ℝ) := by
    fun_prop
  have m4 : Measurable fun q : Spec.Seen × (Fin m → ℝ × ℝ) × Spec.Chance =>
      decide ((((q.1.1, q.1.2.2, R.noisy q.1 q.2.1 (R.latent q.1 q.2.1 q.2.2.1) q.2.2.2.1), q.2.2.2.2) : (ℝ × ℝ × ℝ) × ℝ) ∈ R.D) := by
    refine measurable_to_bool ?_
    convert m3 hR.choice.rule using 1
    ext z; simp
  exact m1.prodMk (m2.prodMk m4)

theorem own_measurable {lk : Fin m → Bool} (hK : ∀ j, Spec.Sings P w k h₀ (lk j) (kids j)) :
    Measurable fun q : Spec.Seen × ((∀ j, (kids j).κ) × Spec.Chance) =>
      (q.1, (fun j => (kids j).own q.1 (q.2.1 j) : Fin m → ℝ × ℝ), q.2.2) := by
  refine measurable_fst.prodMk (Measurable.prodMk ?_ (by fun_prop))
  refine measurable_pi_iff.2 fun j => ?_
  exact (hK j).own.comp (f := fun q : Spec.Seen × ((∀ j, (kids j).κ) × Spec.Chance) => (q.1, q.2.1 j)) (by fun_prop)

theorem kids_outcomes_measurable {lk : Fin m → Bool} (hK : ∀ j, Spec.Sings P w k h₀ (lk j) (kids j)) (a : ℕ) :
    Measurable fun q : Spec.Seen × ((∀ j, (kids j).κ) × Spec.Chance) =>
      ((List.ofFn fun j => (kids j).outcomes q.1 (q.2.1 j)).flatten).getD a Spec.noOutcome :=
  getD_flatten_measurable (fun j (q : Spec.Seen × ((∀ j, (kids j).κ) × Spec.Chance)) => (kids j).outcomes q.1 (q.2.1 j))
    (fun j => (kids j).members.length) (fun j q => (hK j).length _ _)
    (fun j b => ((hK j).outcomes b).comp
      (f := fun q : Spec.Seen × ((∀ j, (kids j).κ) × Spec.Chance) => (q.1, q.2.1 j)) (by fun_prop)) a

theorem kidGains_ofFn {n : ℕ} (x : Fin n → Spec.Seen) (u : Fin n → ∀ j, (kids j).κ) (prs : Fin m → List (List ℝ))
    (hl : ∀ j x c, ((kids j).outcomes x c).length = (kids j).members.length)
    (hp : ∀ j, (prs j).length = (kids j).members.length) :
    kidGains (List.ofFn fun j => kidOf (kids j) x (fun i => u i j) (prs j)) =
      Spec.gainsList (List.ofFn fun j => (kids j).members).flatten
        (fun i => (List.ofFn fun j => (kids j).outcomes (x i) (u i j)).flatten) (List.ofFn prs).flatten := by
  rw [gainsList_flatten (fun j => (kids j).members) (fun i j => (kids j).outcomes (x i) (u i j)) prs
    (fun i j => hl j _ _) hp]
  unfold kidGains
  rw [List.map_ofFn]
  rfl

/-- Drawing a sampler with its secondaries. -/
theorem family_samples {lk : Fin m → Bool} (hR : Spec.Leads P w h₀ lit (fun j => (kids j).key) ok R)
    (hK : ∀ j, Spec.Sings P w k h₀ (lk j) (kids j)) (hL : Spec.Linked h₀ kids R) (n : ℕ) :
    Spec.Samples P (Spec.iid n (Spec.Act.family kids R).law) fun _ g u g' => ∀ (h : Heap ℝ G) (x : Fin n → Spec.Seen),
      h.samplers R.id = Spec.handed lit (h₀.samplers R.id) x →
      (∀ j, ∀ p ∈ (kids j).members, p.2.1 ≠ (kids j).id → h.samplers p.2.1 = h₀.samplers p.2.1) →
      (∀ p ∈ (Spec.Act.family kids R).members, h.selectors p.2.2 = h₀.selectors p.2.2) →
      (∀ j, ∃ sp, h.samplers (kids j).id =
        { Spec.handed (lk j) (h₀.samplers (kids j).id) x with spatial := sp }) → h.rng = g →
      ∃ (h' : Heap ℝ G) (prk : List (List ℝ)) (prl : List ℝ) (p2 : Obj ℝ),
        prk.length = (List.ofFn fun j => (kids j).members).flatten.length ∧ ok p2 ∧
        Spec.DrawnTree w (k + 1) n h R.id
          (Spec.gainsList (Spec.Act.family kids R).members (fun i => (Spec.Act.family kids R).outcomes (x i) (u i))
            (prk ++ [prl]))
          (List.ofFn fun i => ((Spec.Act.family kids R).own (x i) (u i)).1)
          (List.ofFn fun i => ((Spec.Act.family kids R).own (x i) (u i)).2) h' ∧ h'.rng = g' ∧
        h'.view R.id = { Spec.viewOf lit (h₀.samplers R.id) (fun j => (kids j).key) x
            (fun i j => (kids j).own (x i) ((u i).1 j)) with
          trueVals := some (List.ofFn fun i => ((Spec.Act.family kids R).own (x i) (u i)).1)
          obsVals := some (List.ofFn fun i => ((Spec.Act.family kids R).own (x i) (u i)).2)
          params := p2 } ∧
        (h'.samplers R.id).probability = prl ∧ (h'.samplers R.id).selector = R.sel ∧
        ∀ (k' : ℕ) (acc : Storage ℝ), k ≤ k' → (∀ p ∈ acc, p.1 ≠ "") →
          (acc.map Prod.fst ++ ((List.ofFn fun j => (kids j).members).flatten.map fun p => p.1)).Nodup →
          (h'.samplers R.id).secondaries.foldlM (fun acc p => do
            let r ← secProps h' k' p.2
            pure (Storage.add acc r)) acc = .ok (acc ++ (Spec.gainsList (List.ofFn fun j => (kids j).members).flatten
              (fun i => (List.ofFn fun j => (kids j).outcomes (x i) ((u i).1 j)).flatten) prk).map Spec.Gain.stored) := by
  classical
  have i0 := fun j => (hK j).law
  have i1 := hR.laws.1
  have i2 := hR.laws.2
  have i3 := hR.choice.law
  -- names and numbers
  have hids := hL.ids
  have hsels := hL.sels
  have hkeys := hL.keys
  simp only [Spec.Act.family, List.map_append, List.nodup_append] at hids hsels hkeys
  have hid2 : R.id ∉ ((List.ofFn fun j => (kids j).members).flatten.map fun p => p.2.1) :=
    fun hm => hids.2.2 _ hm _ (by simp) rfl
  have hsel2 : R.sel ∉ ((List.ofFn fun j => (kids j).members).flatten.map fun p => p.2.2) :=
    fun hm => hsels.2.2 _ hm _ (by simp) rfl
  have hkey2 : R.key ∉ ((List.ofFn fun j => (kids j).members).flatten.map fun p => p.1) :=
    fun hm => hkeys.2.2 _ hm _ (by simp) rfl
  have SK := kids_samples (P := P) R.id n kids lk hK hL.secondary hids.1 hsels.1 hid2
  have S := Samples.after SK (Samples.after (hR.latents n) (Samples.after (hR.errors n) (hR.choice.draws n)))
  have hz := (iid_zip n (Measure.pi fun j => (kids j).law) (R.μ.prod (R.ν.prod R.ν'))).comp
    ((MeasurePreserving.id (Spec.iid n (Measure.pi fun j => (kids j).law))).prod (iid_zip3 n R.μ R.ν R.ν'))
  refine Samples.mapTo S hz ?_
  rintro _ g ⟨u, t, z, c⟩ g4 ⟨g1, r1, g2, r2, g3, r3, r4⟩ h x hx hot hse hha hg
  dsimp only at r1 r2 r3 r4
  let v : Spatial ℝ := Spec.positions fun i => ((x i).1, (x i).2.1)
  let vals : Fin n → Fin m → ℝ × ℝ := fun i j => (kids j).own (x i) (u i j)
  have hsel0 : (h.samplers R.id).selector = R.sel := by rw [hx]; exact hR.selector
  let h1 : Heap ℝ G := h.modSelector (h.samplers R.id).selector fun c =>
    givenOpt c (h.samplers R.id).usesDistance v.distance (h.samplers R.id).luminosity
  obtain ⟨h2, prs, b0, b1, b2⟩ := r1 h1 x (by show (h.samplers R.id).spatial = _; rw [hx]; rfl) hot
    (fun j p hpm => by
      have hin : p ∈ (List.ofFn fun j => (kids j).members).flatten :=
        List.mem_flatten.2 ⟨_, List.mem_ofFn.2 ⟨j, rfl⟩, hpm⟩
      have hne : p.2.2 ≠ (h.samplers R.id).selector := by
        rw [hsel0]
        exact fun e => hsel2 (e ▸ List.mem_map.2 ⟨p, hin, rfl⟩)
      show (h.modSelector _ _).selectors _ = _
      simp only [Heap.modSelector, hne, if_false]
      exact hse p (List.mem_append_left _ hin)) hha hg
  let l : List (Kid ℝ) := List.ofFn fun j => kidOf (kids j) x (fun i => u i j) (prs j)
  have hKG : kidGains l = _ := kidGains_ofFn x u prs (fun j => (hK j).length) b0
  have hw : (kidGains l).map Spec.Gain.who = (List.ofFn fun j => (kids j).members).flatten := by
    rw [hKG, gainsList_who]
  have e1 : (kidGains l).map Spec.Gain.id = ((List.ofFn fun j => (kids j).members).flatten.map fun p => p.2.1) := by
    rw [← hw, List.map_map]; rfl
  have e2 : (kidGains l).map Spec.Gain.sel = ((List.ofFn fun j => (kids j).members).flatten.map fun p => p.2.2) := by
    rw [← hw, List.map_map]; rfl
  have e3 : (kidGains l).map Spec.Gain.key = ((List.ofFn fun j => (kids j).members).flatten.map fun p => p.1) := by
    rw [← hw, List.map_map]; rfl
  have hsec : (h.samplers R.id).secondaries = l.map fun d => (d.key, d.id) := by
    rw [hx]
    show (h₀.samplers R.id).secondaries = _
    rw [hL.secondaries]
    simp only [l]
    rw [List.map_ofFn]
    rfl
  have hnm : ∀ d ∈ kidGains l, d.key ≠ "" := by
    intro d hd
    have : d.who ∈ (List.ofFn fun j => (kids j).members).flatten := by rw [← hw]; exact List.mem_map_of_mem hd
    exact hL.names d.who (List.mem_append_left _ this)
  have hkid : ∀ d ∈ l, d.id ∈ (kidGains l).map Spec.Gain.id := by
    intro d hd
    obtain ⟨j, rfl⟩ := List.mem_ofFn.1 hd
    rw [e1]
    obtain ⟨p, hp, hpe⟩ := List.mem_map.1 (hK j).lead
    exact List.mem_map.2 ⟨p, List.mem_flatten.2 ⟨_, List.mem_ofFn.2 ⟨j, rfl⟩, hp⟩, hpe⟩
  -- what the sampler sees
  have hv : h2.view R.id = Spec.viewOf lit (h₀.samplers R.id) (fun j => (kids j).key) x vals := by
    have hc := kids_changed b1 (by rw [e2]; exact hsels.1)
    have hr : h2.samplers R.id = Spec.handed lit (h₀.samplers R.id) x := by
      rw [hc.others _ (by rw [e1]; exact hid2)]; exact hx
    have hvals := kids_values b1 (by rw [e2]; exact hsels.1) (by rw [e1]; exact hids.1)
    unfold Heap.view
    rw [hr]
    unfold Spec.viewOf
    dsimp only [Spec.handed]
    congr 1
    show (h₀.samplers R.id).secondaries.map _ = _
    rw [hL.secondaries, List.map_ofFn]
    congr 1
    funext j
    obtain ⟨q1, q2⟩ := hvals (kidOf (kids j) x (fun i => u i j) (prs j)) (List.mem_ofFn.2 ⟨j, rfl⟩)
    show ((kids j).key, (h2.samplers (kids j).id).trueVals, (h2.samplers (kids j).id).obsVals) = _
    rw [show (h2.samplers (kids j).id).trueVals = _ from q1, show (h2.samplers (kids j).id).obsVals = _ from q2]
    rfl
  -- its own values
  let ts : Fin n → ℝ := fun i => R.latent (x i) (vals i) (t i)
  let os : Fin n → ℝ := fun i => R.noisy (x i) (vals i) (ts i) (z i)
  obtain ⟨p1, a1, a2⟩ := r2 x vals
  obtain ⟨p2, c1, c2⟩ := r3 x vals ts p1 a1
  obtain ⟨pr, d1, d2⟩ := hR.prob n x vals ts os p2 c1
  obtain ⟨sel', f1, f2, f3⟩ := r4 (fun i => (x i).1) (fun i => (x i).2.2) os
  have hselq : h.selectors R.sel = h₀.selectors R.sel := hse (R.key, R.id, R.sel) (by simp [Spec.Act.family])
  obtain ⟨h', prl, k1, k2, k3, k4, k5, k6⟩ := family_drawn (w := w) (k := k) (n := n) (i := R.id) (h := h) (h2 := h2)
    (l := l) (v := v) (key := R.key) (ts := List.ofFn ts) (os := List.ofFn os)
    (mask := List.ofFn fun i => decide ((((x i).1, (x i).2.2, os i), c i) ∈ R.D))
    (p1 := p1) (p2 := p2) (g1 := g2) (g2 := g3) (g3 := g4) (sel' := sel') (pr := pr)
    rfl (by rw [hx]; exact hR.new) (by rw [hx]; rfl) (by rw [hx]; exact hR.name) hsec
    (by
      rw [hx]
      rcases hL.has with hb | hb
      · exact .inl hb
      · right; subst hb; simp [l])
    ⟨by rw [e1]; exact hids.1, by rw [e1]; exact hid2⟩
    ⟨by rw [e2]; exact hsels.1, by rw [e2, hsel0]; exact hsel2⟩
    ⟨by rw [e3]; exact hkeys.1, by rw [e3]; exact hkey2⟩ hnm hkid b1
    (by rw [hv, b2, a2, hx]; rfl)
    (by
      rw [hv, hx]
      have e : (Spec.handed lit (h₀.samplers R.id) x).isObserved = (h₀.samplers R.id).isObserved := rfl
      rw [e]
      by_cases hb : (h₀.samplers R.id).isObserved = true
      · rw [if_pos hb] at c2 ⊢; exact c2
      · rw [if_neg hb] at c2 ⊢
        refine ⟨congrArg List.ofFn (funext c2.1), c2.2⟩)
    (by
      rw [hsel0, hselq, hx]
      have := f1
      unfold givenOpt
      cases lit
      · simpa [Spec.handed, hR.dark, v, Spec.positions] using this
      · simpa [Spec.handed, v, Spec.positions] using this)
    f3 (by rw [hsel0, hselq]; exact f2)
    (by
      rw [hsel0, hselq]
      intro hu
      have := hR.choice.unity hu
      simp [this])
    (by rw [hv]; exact d1) d2 (by simp) (by simp) (by simp)
  have hgl : kidGains l ++ [{ key := R.key, id := R.id, sel := (h.samplers R.id).selector, ts := List.ofFn ts, os := List.ofFn os, mask := List.ofFn fun i => decide ((((x i).1, (x i).2.2, os i), c i) ∈ R.D), prob := prl }] =
      Spec.gainsList (Spec.Act.family kids R).members
        (fun i => (Spec.Act.family kids R).outcomes (x i) (u i, (t i, z i, c i))) ((List.ofFn prs).flatten ++ [prl]) := by
    have := gainsList_append (b := [(R.key, R.id, R.sel)])
      (B := fun i => [R.outcome (x i) (vals i) (t i, z i, c i)]) (q := [prl])
      (List.ofFn fun j => (kids j).members).flatten
      (fun i => (List.ofFn fun j => (kids j).outcomes (x i) (u i j)).flatten) (List.ofFn prs).flatten
      (fun i => flatten_length _ _ fun j => (hK j).length _ _) (flatten_length _ _ b0)
    rw [gainsList_one, ← hKG] at this
    rw [hsel0]
    exact this.symm
  rw [hgl] at k1
  refine ⟨h', (List.ofFn prs).flatten, prl, p2, flatten_length _ _ b0, c1, k1, k2, ?_, k5.symm, by rw [k4]; exact hsel0, ?_⟩
  · rw [k3, hv]; rfl
  · intro k' acc hk' ha hq
    have hs0 := kids_stored b1 (by rw [e2]; exact hsels.1) (by rw [e1]; exact hids.1) h' k' hk' k6 acc ha hnm
      (by rw [e3]; exact hq)
    have : (h'.samplers R.id).secondaries = l.map fun d => (d.key, d.id) := by rw [k4]; exact hsec
    rw [this]
    rw [hKG] at hs0
    exact hs0

theorem family_outcomes_measurable {lk : Fin m → Bool} (hR : Spec.Leads P w h₀ lit (fun j => (kids j).key) ok R)
    (hK : ∀ j, Spec.Sings P w k h₀ (lk j) (kids j)) (a : ℕ) :
    Measurable fun q : Spec.Seen × (Spec.Act.family kids R).κ =>
      ((Spec.Act.family kids R).outcomes q.1 q.2).getD a Spec.noOutcome := by
  have ho : Measurable fun q : Spec.Seen × (Spec.Act.family kids R).κ =>
      R.outcome q.1 (fun j => (kids j).own q.1 (q.2.1 j)) q.2.2 :=
    (lead_outcome_measurable hR).comp (own_measurable hK)
  refine getD_append_measurable (fun q => flatten_length _ _ fun j => (hK j).length _ _)
    (kids_outcomes_measurable hK) (fun b => ?_) a
  cases b with
  | zero => exact ho
  | succ b => exact measurable_const

theorem family_length {lk : Fin m → Bool} (hK : ∀ j, Spec.Sings P w k h₀ (lk j) (kids j)) (x : Spec.Seen)
    (c : (Spec.Act.family kids R).κ) :
    ((Spec.Act.family kids R).outcomes x c).length = (Spec.Act.family kids R).members.length := by
  simp only [Spec.Act.family, List.length_append, List.length_singleton]
  rw [flatten_length (fun j => (kids j).outcomes x (c.1 j)) (fun j => (kids j).members) fun j => (hK j).length _ _]

theorem family_law {lk : Fin m → Bool} (hR : Spec.Leads P w h₀ lit (fun j => (kids j).key) ok R)
    (hK : ∀ j, Spec.Sings P w k h₀ (lk j) (kids j)) : IsProbabilityMeasure (Spec.Act.family kids R).law := by
  have i0 := fun j => (hK j).law
  have i1 := lead_law hR
  unfold Spec.Act.family
  infer_instance

theorem linked_apart (hL : Spec.Linked h₀ kids R) {j : Fin m} {p : String × ℕ × ℕ} (hp : p ∈ (kids j).members) :
    p ∈ (Spec.Act.family kids R).members ∧ p.2.1 ≠ R.id := by
  have hin : p ∈ (List.ofFn fun j => (kids j).members).flatten :=
    List.mem_flatten.2 ⟨_, List.mem_ofFn.2 ⟨j, rfl⟩, hp⟩
  have hids := hL.ids
  simp only [Spec.Act.family, List.map_append, List.nodup_append] at hids
  exact ⟨List.mem_append_left _ hin, hids.2.2 _ (List.mem_map.2 ⟨p, hin, rfl⟩) _ (by simp)⟩

/-- **C84** (samplers with secondaries): a sampler whose true values come from random numbers, the
positions and the values of its direct secondaries, which are drawn before it, gives with all
samplers below it independent objects.  Secondaries may have secondaries. -/
theorem C84_family (hR : Spec.Leads P w h₀ lit (fun j => (kids j).key) ok R)
    (hK : ∀ j, Spec.Sings P w k h₀ false (kids j)) (hL : Spec.Linked h₀ kids R) :
    Spec.Sings P w (k + 1) h₀ lit (Spec.Act.family kids R) := by
  refine ⟨family_law hR hK, family_outcomes_measurable hR hK, ?_, family_length hK, by simp [Spec.Act.family], fun n => ?_⟩
  · have ho := (lead_outcome_measurable hR).comp (own_measurable hK)
    exact (measurable_fst.comp ho).prodMk (measurable_fst.comp (measurable_snd.comp ho))
  · refine Samples.mono (family_samples hR hK hL n) fun _ g u g' hd h x h1 h2 h3 hg => ?_
    have hkid : ∀ j, h.samplers (kids j).id = h₀.samplers (kids j).id := by
      intro j
      obtain ⟨p, hp, hpe⟩ := List.mem_map.1 (hK j).lead
      obtain ⟨q1, q2⟩ := linked_apart hL hp
      rw [← hpe]
      exact h1 p q1 q2
    obtain ⟨h', prk, prl, p2, a1, -, a3, a4, -⟩ := hd h x h3
      (fun j p hp _ => h1 p (linked_apart hL hp).1 (linked_apart hL hp).2) h2
      (fun j => ⟨(h₀.samplers (kids j).id).spatial, by rw [hkid j]; simp [Spec.handed]⟩) hg
    exact ⟨h', prk ++ [prl], by simp [Spec.Act.family, a1], a3, a4⟩

end

/-! ### Attached samplers -/

theorem changed_before {n : ℕ} {h h1 h' : Heap ℝ G} {D : List (Spec.Gain ℝ)} (hc : Spec.Changed n h1 h' D)
    (ho : ∀ a, a ∉ D.map Spec.Gain.id → h1.samplers a = h.samplers a) (hs : h1.selectors = h.selectors)
    (hl : Spec.SameLinks h h1) : Spec.Changed n h h' D := by
  refine ⟨fun a ha => (hc.others a ha).trans (ho a ha), fun q hq => ?_, sameLinks_trans hl hc.links, fun d hd => ?_⟩
  · rw [hc.selectors q hq, hs]
  · have := hc.gained d hd
    rw [hs] at this
    exact this

theorem changed_mem {n : ℕ} {h h' : Heap ℝ G} {D E : List (Spec.Gain ℝ)} (hc : Spec.Changed n h h' D)
    (he : ∀ d, d ∈ E ↔ d ∈ D) : Spec.Changed n h h' E := by
  refine ⟨fun a ha => hc.others a fun hm => ha ?_, fun q hq => hc.selectors q fun hm => hq ?_, hc.links,
    fun d hd => hc.gained d ((he d).1 hd)⟩
  · obtain ⟨d, hd, rfl⟩ := List.mem_map.1 hm
    exact List.mem_map_of_mem ((he d).2 hd)
  · obtain ⟨d, hd, rfl⟩ := List.mem_map.1 hm
    exact List.mem_map_of_mem ((he d).2 hd)

theorem heap_ext {h h' : Heap ℝ G} (h1 : h.samplers = h'.samplers) (h2 : h.selectors = h'.selectors)
    (h3 : h.rng = h'.rng) (h4 : h.trace = h'.trace) : h = h' := by
  cases h; cases h'
  simp only at h1 h2 h3 h4
  subst h1; subst h2; subst h3; subst h4
  rfl

/-- A direct secondary after `prepareAux`. -/
def preparedKid (ls : List ℝ) (v : Spatial ℝ) (s : Sampler ℝ) : Sampler ℝ :=
  { s with luminosity := if s.usesLuminosity then some ls else s.luminosity
           spatial := if s.usesDistance then some v else s.spatial }

theorem prepare_kids (ls : List ℝ) (v : Spatial ℝ) : ∀ (l : List (String × ℕ)) (h : Heap ℝ G), ∃ h',
    forEach l (fun p => do
      let h ← get
      if (h.samplers p.2).usesLuminosity then setLuminosity p.2 ls
      if (h.samplers p.2).usesDistance then setSpatialValues p.2 v : String × ℕ → Py (Heap ℝ G) Unit) h = .ok () h' ∧
    h'.selectors = h.selectors ∧ h'.rng = h.rng ∧
    ∀ a, h'.samplers a = if a ∈ l.map Prod.snd then preparedKid ls v (h.samplers a) else h.samplers a
  | [], h => ⟨h, rfl, rfl, rfl, fun a => by simp⟩
  | p :: l, h => by
    let h1 : Heap ℝ G := h.modSampler p.2 (preparedKid ls v)
    have k1 : (do
        let h ← get
        if (h.samplers p.2).usesLuminosity then setLuminosity p.2 ls
        if (h.samplers p.2).usesDistance then setSpatialValues p.2 v : Py (Heap ℝ G) Unit) h = .ok () h1 := by
      rw [bind_of_ok (get_apply _)]
      cases hb : (h.samplers p.2).usesLuminosity <;> cases hd : (h.samplers p.2).usesDistance <;>
      · simp only [bind_apply, Bool.false_eq_true, if_false, if_true, setLuminosity, setSpatialValues, modify_apply,
          pure_apply, Heap.modSampler, h1]
        refine congrArg (EStateM.Result.ok ()) (heap_ext (funext fun a => ?_) rfl rfl rfl)
        by_cases ha : a = p.2
        · subst ha
          simp only [if_true, preparedKid]
          generalize h.samplers p.2 = sm at hb hd ⊢
          cases sm
          simp only at hb hd
          subst hb; subst hd
          simp
        · simp [ha]
    obtain ⟨h', a1, a2, a3, a4⟩ := prepare_kids ls v l h1
    refine ⟨h', ?_, a2, a3, fun a => ?_⟩
    · rw [forEach_cons, bind_of_ok k1]; exact a1
    · rw [a4]
      by_cases ha : a = p.2
      · subst ha
        by_cases hm : p.2 ∈ l.map Prod.snd
        · simp only [hm, h1, Heap.modSampler, if_true, List.map_cons, List.mem_cons, true_or]
          unfold preparedKid
          cases (h.samplers p.2).usesLuminosity <;> cases (h.samplers p.2).usesDistance <;> simp
        · simp [hm, h1, Heap.modSampler]
      · by_cases hm : a ∈ l.map Prod.snd <;> simp [hm, h1, Heap.modSampler, ha]

theorem prepareAux_handed (ls : List ℝ) (v : Spatial ℝ) (i : ℕ) (h : Heap ℝ G)
    (hi : i ∉ (h.samplers i).secondaries.map Prod.snd) : ∃ h', prepareAux ls v i h = .ok () h' ∧
    h'.selectors = h.selectors ∧ h'.rng = h.rng ∧
    h'.samplers i = { h.samplers i with luminosity := some ls, spatial := some v } ∧
    ∀ a, a ≠ i → h'.samplers a = if a ∈ (h.samplers i).secondaries.map Prod.snd then preparedKid ls v (h.samplers a)
      else h.samplers a := by
  let h1 : Heap ℝ G := (h.modSampler i fun s => { s with luminosity := some ls }).modSampler i fun s => { s with spatial := some v }
  have hs : (h1.samplers i).secondaries = (h.samplers i).secondaries := by simp [h1, Heap.modSampler]
  obtain ⟨h', a1, a2, a3, a4⟩ := prepare_kids ls v (h1.samplers i).secondaries h1
  refine ⟨h', ?_, a2, a3, ?_, fun a ha => ?_⟩
  · unfold prepareAux
    exact a1
  · rw [a4, hs, if_neg hi]; simp [h1, Heap.modSampler]
  · rw [a4, hs]; simp [h1, Heap.modSampler, ha]

section
variable {m : ℕ} {kids : Fin m → Spec.Act} {R : Spec.Lead m} {ok : Obj ℝ → Prop} {e : SurveyEnv ℝ G}

/-- **C84** (attached samplers with secondaries): the survey hands luminosities and positions to an
attached sampler; its direct secondaries get positions and, if they use them, luminosities. -/
theorem C84_attached (hf : e.frames = k + 1)
    (hR : Spec.Leads P e.world h₀ true (fun j => (kids j).key) ok R)
    (hK : ∀ j, Spec.Sings P e.world k h₀ (h₀.samplers (kids j).id).usesLuminosity (kids j))
    (hL : Spec.Linked h₀ kids R) : Spec.Performs P e h₀ (Spec.Act.family kids R).troupe := by
  refine ⟨family_law hR hK, fun j => family_outcomes_measurable hR hK j, fun n => ?_⟩
  refine Samples.mono (family_samples hR hK hL n) fun _ g u g' hd h x hh hg => ?_
  have hh : ∀ p ∈ (Spec.Act.family kids R).members, h.samplers p.2.1 = h₀.samplers p.2.1 ∧
      h.selectors p.2.2 = h₀.selectors p.2.2 := hh
  have hr : h.samplers R.id = h₀.samplers R.id := (hh (R.key, R.id, R.sel) (by simp [Spec.Act.family])).1
  have hsnd : (h.samplers R.id).secondaries.map Prod.snd = List.ofFn fun j => (kids j).id := by
    rw [hr, hL.secondaries, List.map_ofFn]; rfl
  have hkid : ∀ j, ∃ p, p ∈ (kids j).members ∧ p.2.1 = (kids j).id := fun j => by
    obtain ⟨p, hp, hpe⟩ := List.mem_map.1 (hK j).lead
    exact ⟨p, hp, hpe⟩
  have hkid' : ∀ j, h.samplers (kids j).id = h₀.samplers (kids j).id ∧ (kids j).id ≠ R.id := fun j => by
    obtain ⟨p, hp, hpe⟩ := hkid j
    rw [← hpe]
    exact ⟨(hh p (linked_apart hL hp).1).1, (linked_apart hL hp).2⟩
  let ls : List ℝ := List.ofFn fun i => (x i).2.2
  let v : Spatial ℝ := Spec.positions fun i => ((x i).1, (x i).2.1)
  obtain ⟨h1, b1, b2, b3, b4, b5⟩ := prepareAux_handed ls v R.id h (by
    rw [hsnd]
    intro hm
    obtain ⟨j, hj⟩ := List.mem_ofFn.1 hm
    exact (hkid' j).2 hj)
  obtain ⟨h', prk, prl, p2, a1, -, a3, a4, -⟩ := hd h1 x (by rw [b4, hr]; rfl)
    (fun j p hp hne => by
      obtain ⟨q1, q2⟩ := linked_apart hL hp
      rw [b5 _ q2, if_neg, (hh p q1).1]
      rw [hsnd]
      intro hm
      obtain ⟨j', hj'⟩ := List.mem_ofFn.1 hm
      obtain ⟨p', hp', hpe'⟩ := hkid j'
      have hids := hL.ids
      simp only [Spec.Act.family, List.map_append, List.nodup_append] at hids
      have hn := hids.1
      rw [List.map_flatten, List.map_ofFn, List.nodup_flatten] at hn
      by_cases hjj : j' = j
      · subst hjj; exact hne hj'.symm
      · have hpw := List.pairwise_ofFn.1 hn.2
        have m1 : p.2.1 ∈ (kids j).members.map fun p => p.2.1 := List.mem_map.2 ⟨p, hp, rfl⟩
        have m2 : p.2.1 ∈ (kids j').members.map fun p => p.2.1 := List.mem_map.2 ⟨p', hp', hpe'.trans hj'⟩
        rcases lt_or_gt_of_ne hjj with hlt | hlt
        · exact hpw hlt m2 m1
        · exact hpw hlt m1 m2)
    (fun p hp => by rw [b2]; exact (hh p hp).2)
    (fun j => by
      refine ⟨(preparedKid ls v (h₀.samplers (kids j).id)).spatial, ?_⟩
      rw [b5 _ (hkid' j).2, if_pos (by rw [hsnd]; exact List.mem_ofFn.2 ⟨j, rfl⟩), (hkid' j).1]
      rfl) (by rw [b3]; exact hg)
  rw [← hf] at a3
  have hids := gainsList_ids (Spec.Act.family kids R).members
    (fun i => (Spec.Act.family kids R).outcomes (x i) (u i)) (prk ++ [prl])
  refine ⟨h', fun j => (prk ++ [prl]).getD j [], ?_, a4, ?_, ?_, ?_, ?_⟩
  · refine (bind_of_ok b1).trans ?_
    exact a3.run
  · show lenIs (h'.samplers R.id).trueVals n = true
    rw [a3.latent]; simp [lenIs]
  · show lenIs (h'.samplers R.id).obsVals n = true
    rw [a3.obs]; simp [lenIs]
  · exact a3.stored h' _ le_rfl fun _ _ => rfl
  · refine changed_before a3.changed (fun a ha => ?_) b2 fun a => ?_
    · have ha : a ∉ (Spec.Act.family kids R).members.map fun p => p.2.1 := by rw [← hids]; exact ha
      have hne : a ≠ R.id := fun e => ha (by rw [e]; simp [Spec.Act.family])
      rw [b5 a hne, if_neg]
      rw [hsnd]
      intro hm
      obtain ⟨j, rfl⟩ := List.mem_ofFn.1 hm
      obtain ⟨p, hp, hpe⟩ := hkid j
      exact ha (List.mem_map.2 ⟨p, (linked_apart hL hp).1, hpe⟩)
    · by_cases ha : a = R.id
      · subst ha; rw [b4]; exact ⟨rfl, rfl, rfl, rfl⟩
      · rw [b5 a ha]
        split_ifs
        · exact ⟨rfl, rfl, rfl, rfl⟩
        · exact ⟨rfl, rfl, rfl, rfl⟩

/-! ### Sources of luminosities -/

theorem pyAssert_holds {σ : Type} (t : σ) : pyAssert true t = .ok () t := rfl

variable {y : Synth ℝ} {s : SurvSt ℝ G}

/-- **C84** (derived luminosities): a derived luminosity sampler is handed the positions only; it
and its secondaries are drawn before the other samplers and stored first, and the luminosity of an
object is computed from its values. -/
theorem C84_derived {shine : Spec.Seen → (Fin m → ℝ × ℝ) → ℝ × ℝ → ℝ} (hy : y.derived = some R.id)
    (hf : e.frames = k + 1)
    (hR : Spec.Leads P e.world s.heap false (fun j => (kids j).key) ok R)
    (hK : ∀ j, Spec.Sings P e.world k s.heap false (kids j)) (hL : Spec.Linked s.heap kids R)
    (hG : Spec.Glows e.world s.heap (fun j => (kids j).key) ok R shine)
    (hm : Measurable fun q : Spec.Seen × (Fin m → ℝ × ℝ) × (ℝ × ℝ) => shine q.1 q.2.1 q.2.2) :
    Spec.Lights P e y s (Spec.Act.lamp kids R shine) := by
  have mz : Measurable fun q : Spec.Place × ((∀ j, (kids j).κ) × Spec.Chance) =>
      (((q.1.1, q.1.2, 0), q.2) : Spec.Seen × ((∀ j, (kids j).κ) × Spec.Chance)) := by fun_prop
  have mo : Measurable fun q : Spec.Place × ((∀ j, (kids j).κ) × Spec.Chance) =>
      R.outcome (q.1.1, q.1.2, 0) (fun j => (kids j).own (q.1.1, q.1.2, 0) (q.2.1 j)) q.2.2 :=
    ((lead_outcome_measurable hR).comp (own_measurable hK)).comp mz
  refine ⟨family_law hR hK, ?_, fun j => ?_, fun n => ?_⟩
  · have m1 : Measurable fun q : Spec.Place × ((∀ j, (kids j).κ) × Spec.Chance) =>
        (((q.1.1, q.1.2, 0) : Spec.Seen), (fun j => (kids j).own (q.1.1, q.1.2, 0) (q.2.1 j) : Fin m → ℝ × ℝ)) :=
      (show Measurable fun z : Spec.Seen × (Fin m → ℝ × ℝ) × Spec.Chance => (z.1, z.2.1) by fun_prop).comp
        ((own_measurable hK).comp mz)
    have m2 := hm.comp ((measurable_fst.comp m1).prodMk ((measurable_snd.comp m1).prodMk
      ((measurable_fst.comp mo).prodMk (measurable_fst.comp (measurable_snd.comp mo)))))
    exact m2
  · refine getD_append_measurable (f := fun q : Spec.Place × ((∀ j, (kids j).κ) × Spec.Chance) =>
      [R.outcome (q.1.1, q.1.2, 0) (fun j => (kids j).own (q.1.1, q.1.2, 0) (q.2.1 j)) q.2.2]) (a := 1) (fun _ => rfl)
      (fun b => ?_) (fun b => (kids_outcomes_measurable hK b).comp mz) j
    cases b with
    | zero => exact mo
    | succ b => exact measurable_const
  · refine Samples.mono (family_samples hR hK hL n) fun _ g u g' hd sp x => ?_
    let z : Fin n → Spec.Seen := fun i => ((x i).1, (x i).2, 0)
    let h : Heap ℝ G := { s.heap with rng := g }
    let h1 : Heap ℝ G := h.modSampler R.id fun s => { s with spatial := some (Spec.positions x) }
    have hkid : ∀ j, ∃ p, p ∈ (kids j).members ∧ p.2.1 = (kids j).id := fun j => by
      obtain ⟨p, hp, hpe⟩ := List.mem_map.1 (hK j).lead
      exact ⟨p, hp, hpe⟩
    have hkeep : ∀ a, a ≠ R.id → h1.samplers a = s.heap.samplers a := fun a ha => by
      simp [h1, h, Heap.modSampler, ha]
    obtain ⟨h', prk, prl, p2, a1, a2, a3, a4, a5, a6, a7, a8⟩ := hd h1 z
      (by simp [h1, h, Heap.modSampler, Spec.handed, z])
      (fun j p hp _ => hkeep _ (linked_apart hL hp).2) (fun p _ => rfl)
      (fun j => by
        obtain ⟨p, hp, hpe⟩ := hkid j
        refine ⟨(s.heap.samplers (kids j).id).spatial, ?_⟩
        rw [hkeep _ (by rw [← hpe]; exact (linked_apart hL hp).2)]
        simp [Spec.handed]) rfl
    -- what is stored
    let DK := Spec.gainsList (List.ofFn fun j => (kids j).members).flatten
      (fun i => (List.ofFn fun j => (kids j).outcomes (z i) ((u i).1 j)).flatten) prk
    let r : Spec.Gain ℝ :=
      { key := R.key, id := R.id, sel := R.sel
        ts := List.ofFn fun i => ((Spec.Act.family kids R).own (z i) (u i)).1
        os := List.ofFn fun i => ((Spec.Act.family kids R).own (z i) (u i)).2
        mask := List.ofFn fun i => (R.outcome (z i) (fun j => (kids j).own (z i) ((u i).1 j)) (u i).2).2.2
        prob := prl }
    have hD : Spec.gainsList (Spec.Act.family kids R).members
        (fun i => (Spec.Act.family kids R).outcomes (z i) (u i)) (prk ++ [prl]) = DK ++ [r] :=
      gainsList_append (b := [(R.key, R.id, R.sel)])
        (B := fun i => [R.outcome (z i) (fun j => (kids j).own (z i) ((u i).1 j)) (u i).2]) (q := [prl])
        (List.ofFn fun j => (kids j).members).flatten
        (fun i => (List.ofFn fun j => (kids j).outcomes (z i) ((u i).1 j)).flatten) prk
        (fun i => flatten_length _ _ fun j => (hK j).length _ _) a1
    have hDL : Spec.gainsOf (Spec.Act.lamp kids R shine).members
        (fun i => (Spec.Act.lamp kids R shine).response (x i) (u i)) (fun j => (prl :: prk).getD j []) = r :: DK := by
      exact gainsOf_cons (R.key, R.id, R.sel) (List.ofFn fun j => (kids j).members).flatten
        (fun i => (Spec.Act.lamp kids R shine).response (x i) (u i)) (fun j => (prl :: prk).getD j [])
    rw [hD] at a3
    have hch : Spec.Changed n s.heap h' (r :: DK) := by
      have c1 := changed_mem a3.changed (E := r :: DK) (fun d => by simp [or_comm])
      refine changed_before c1 (fun a ha => ?_) rfl (fun a => ?_)
      · exact hkeep a fun e => ha (by simp [e, r])
      · by_cases ha : a = R.id <;> simp [h1, h, Heap.modSampler, ha]
    refine ⟨s.lum, h', fun j => (prl :: prk).getD j [], a4, by rw [hDL]; exact hch, fun loc hq hpl => ?_⟩
    have hname : (h'.samplers R.id).name = R.key := by
      rw [(hch.links R.id).1]; exact hR.name
    let own : SecC ℝ :=
      { name := (h'.samplers R.id).name, trueVals := (h'.samplers R.id).trueVals
        obsVals := (h'.samplers R.id).obsVals, selection := (h'.samplers R.id).selector
        prob := (h'.samplers R.id).probability }
    have hown : (own.name, own) = r.stored := by
      simp only [own, Spec.Gain.stored, r, hname, a3.latent, a3.obs, a6, a7]
    have q1 : lenIs (h'.samplers R.id).trueVals n = true := by rw [a3.latent]; simp [lenIs]
    have q2 : lenIs (h'.samplers R.id).obsVals n = true := by rw [a3.obs]; simp [lenIs]
    have hkey : R.key ≠ "" := hL.names (R.key, R.id, R.sel) (by simp [Spec.Act.family])
    have q3 := hG n z (fun i j => (kids j).own (z i) ((u i).1 j))
      (fun i => ((Spec.Act.family kids R).own (z i) (u i)).1)
      (fun i => ((Spec.Act.family kids R).own (z i) (u i)).2) p2 a2
    rw [← a5] at q3
    have q4 := a8 e.frames [(own.name, own)] (by rw [hf]; omega)
      (by rw [hown]; simp [Spec.Gain.stored, r, hkey])
      (by
        rw [hown]
        have := hL.keys
        simp only [Spec.Act.family, List.map_append, List.nodup_append] at this
        simp only [List.map_cons, List.map_nil, Spec.Gain.stored, r, List.singleton_append, List.nodup_cons]
        exact ⟨fun hin => this.2.2 _ hin _ (by simp) rfl, this.1⟩)
    refine ⟨{ loc with auxq := r.stored :: DK.map Spec.Gain.stored
                       truth := secTruths h' R.id (Dict.set loc.truth (h'.samplers R.id).name
                         (truthOf (h'.samplers R.id).params)) }, ?_, by rw [hDL]; rfl, hpl⟩
    unfold drawLuminosities
    rw [hy]
    show derivedLuminosity e n (Spec.positions x) R.id loc _ = _
    have k1 : onHeap (setSpatialValues R.id (Spec.positions x)) { s with sp := sp, heap := h } =
        .ok () { s with sp := sp, heap := h1 } := rfl
    have k2 : onHeap (samplerDraw e.world e.frames R.id n) { s with sp := sp, heap := h1 } =
        .ok () { s with sp := sp, heap := h' } := by
      unfold onHeap
      rw [hf, a3.run]
    unfold derivedLuminosity
    rw [bind_of_ok k1, bind_of_ok k2, bind_of_ok (get_apply _)]
    dsimp only
    rw [q1, q2]
    rw [bind_of_ok (pyAssert_holds _), bind_of_ok (pyAssert_holds _), bind_of_ok (liftE_of_ok _ q3), hq]
    have q5 : ((Dict.set ([] : Storage ℝ) own.name own : Storage ℝ)) = [(own.name, own)] := rfl
    have q6 := liftE_of_ok { s with sp := sp, heap := h' } q4
    exact (bind_of_ok q6).trans (by rw [hown]; rfl)

/-- **C84** (luminosity distributions): a luminosity distribution whose draws are independent with
one law is a source of luminosities without samplers. -/
theorem C84_distribution {nm : String} (hy : y.derived = none) (hn : y.lumName = some nm) {μ : Measure ℝ}
    (hμ : IsProbabilityMeasure μ)
    (hl : ∀ n, Spec.Samples P (Spec.iid n μ) fun _ g v g' => ∃ lum',
      e.lum.draw n { lum := s.lum, rng := g } = .ok (List.ofFn v) { lum := lum', rng := g' } ∧
      ∃ q o, e.lum.phi (List.ofFn v) lum'.params = .ok q o ∧ q.length = n) :
    Spec.Lights P e y s (Spec.Lamp.plain μ) := by
  refine ⟨hμ, measurable_snd, fun j => j.elim0, fun n => ?_⟩
  refine Samples.mono (hl n) fun _ g v g' hd sp x => ?_
  obtain ⟨lum', d1, q, o, d2, d3⟩ := hd
  refine ⟨{ params := o, probability := some q }, { s.heap with rng := g' }, fun j => j.elim0, rfl,
    ⟨fun _ _ => rfl, fun _ _ => rfl, fun _ => ⟨rfl, rfl, rfl, rfl⟩, fun d hd => by simp [Spec.gainsOf, Spec.Lamp.plain] at hd⟩,
    fun loc hq hpl => ?_⟩
  refine ⟨{ loc with prob := List.zipWith e.mul loc.prob q, truth := Dict.set loc.truth nm (truthOf o) }, ?_, ?_, ?_⟩
  · unfold drawLuminosities
    rw [hy, hn]
    show distLuminosity e n nm loc _ = _
    let s3 : SurvSt ℝ G := { s with sp := sp, heap := { s.heap with rng := g } }
    have e1 := onLum_of_ok (s := s3) d1
    have e2 : onLum (computeLumProbability e.lum (List.ofFn v))
        { s3 with lum := lum', heap := { s3.heap with rng := g' } } =
        .ok () { s with sp := sp, lum := { params := o, probability := some q }, heap := { s.heap with rng := g' } } := by
      refine onLum_of_ok (t := { lum := { params := o, probability := some q }, rng := g' }) ?_
      simp only [computeLumProbability, d2]
    have e3 : mulProb e loc.prob (some q) = .ok (List.zipWith e.mul loc.prob q) := by
      simp only [mulProb, optArray]
      exact inPlace_of_length _ (by rw [hpl, d3])
    unfold distLuminosity
    rw [bind_of_ok e1, bind_of_ok e2, bind_of_ok (get_apply _)]
    exact (bind_of_ok (liftE_of_ok _ e3)).trans rfl
  · simp [hq, Spec.gainsOf, Spec.Lamp.plain]
  · simp [hpl, d3]

end

end Popsynth
