import Verif.Props.Stan

/-!
# C32 (sub-populations)
-/

set_option autoImplicit false
set_option linter.unusedSectionVars false

namespace Popsynth

open Spec

variable {F G : Type}

/-! ### The loop that collects the known distances -/

theorem isNth_true_zero (m : List Bool) (i : Nat) : IsNth (true :: m) 0 i ↔ i = 0 := by
  constructor
  · rintro ⟨_, h⟩
    cases i with
    | zero => rfl
    | succ i => simp at h
  · rintro rfl; exact ⟨rfl, rfl⟩

theorem isNth_true_succ (m : List Bool) (j i : Nat) :
    IsNth (true :: m) (j + 1) i ↔ ∃ t, i = t + 1 ∧ IsNth m j t := by
  constructor
  · rintro ⟨h1, h2⟩
    cases i with
    | zero => simp at h2
    | succ t => exact ⟨t, rfl, by simpa using h1, by simpa using h2⟩
  · rintro ⟨t, rfl, h1, h2⟩
    exact ⟨by simpa using h1, by simpa using h2⟩

theorem isNth_false (m : List Bool) (j i : Nat) :
    IsNth (false :: m) j i ↔ ∃ t, i = t + 1 ∧ IsNth m j t := by
  constructor
  · rintro ⟨h1, h2⟩
    cases i with
    | zero => simp at h1
    | succ t => exact ⟨t, rfl, by simpa using h1, by simpa using h2⟩
  · rintro ⟨t, rfl, h1, h2⟩
    exact ⟨by simpa using h1, by simpa using h2⟩

theorem subKnown_ok [DecidableEq F] (ofNat : Nat → F) (K D : List F) (ss : List Bool) (i : Nat)
    (a : SubKnown F) (hD : i + ss.length = D.length) (ha : a.known.length = a.knownIdx.length) :
    ∃ r, subKnown ofNat K D i ss a = .ok r ∧ r.known.length = r.knownIdx.length ∧
      r.known.length + r.unknownIdx.length
        = a.known.length + a.unknownIdx.length + ss.count true ∧
      (∀ j d, (j, d) ∈ r.knownIdx.zip r.known ↔ (j, d) ∈ a.knownIdx.zip a.known ∨
        ∃ n t, j = a.itr + n ∧ IsNth ss n t ∧ ofNat (i + t) ∈ K ∧ D[i + t]? = some d) ∧
      (∀ j, j ∈ r.unknownIdx ↔ j ∈ a.unknownIdx ∨
        ∃ n t, j = a.itr + n ∧ IsNth ss n t ∧ ofNat (i + t) ∉ K) := by
  induction ss generalizing i a with
  | nil =>
    refine ⟨a, rfl, ha, by simp, fun j d => ?_, fun j => ?_⟩
    · constructor
      · exact .inl
      · rintro (h | ⟨n, t, _, h, _⟩)
        · exact h
        · exact absurd h.1 (by simp)
    · constructor
      · exact .inl
      · rintro (h | ⟨n, t, _, h, _⟩)
        · exact h
        · exact absurd h.1 (by simp)
  | cons b ss ih =>
    have hD' : (i + 1) + ss.length = D.length := by simpa [Nat.add_comm, Nat.add_left_comm] using hD
    cases b with
    | false =>
      obtain ⟨r, h1, h2, h3, h4, h5⟩ := ih (i + 1) a hD' ha
      refine ⟨r, ?_, h2, by rw [h3]; simp, fun j d => ?_, fun j => ?_⟩
      · simp only [subKnown, Bool.false_eq_true, if_false, bind, Except.bind]; exact h1
      · rw [h4]
        apply or_congr Iff.rfl
        constructor
        · rintro ⟨n, t, e, hn, hk, hd⟩
          exact ⟨n, t + 1, e, (isNth_false _ _ _).2 ⟨t, rfl, hn⟩,
            by rw [← Nat.add_assoc, Nat.add_right_comm]; exact hk,
            by rw [← Nat.add_assoc, Nat.add_right_comm]; exact hd⟩
        · rintro ⟨n, t, e, hn, hk, hd⟩
          obtain ⟨t', rfl, hn⟩ := (isNth_false _ _ _).1 hn
          exact ⟨n, t', e, hn, by rw [Nat.add_right_comm, Nat.add_assoc]; exact hk,
            by rw [Nat.add_right_comm, Nat.add_assoc]; exact hd⟩
      · rw [h5]
        apply or_congr Iff.rfl
        constructor
        · rintro ⟨n, t, e, hn, hk⟩
          exact ⟨n, t + 1, e, (isNth_false _ _ _).2 ⟨t, rfl, hn⟩,
            by rw [← Nat.add_assoc, Nat.add_right_comm]; exact hk⟩
        · rintro ⟨n, t, e, hn, hk⟩
          obtain ⟨t', rfl, hn⟩ := (isNth_false _ _ _).1 hn
          exact ⟨n, t', e, hn, by rw [Nat.add_right_comm, Nat.add_assoc]; exact hk⟩
    | true =>
      have hi : i < D.length := by simp at hD; omega
      by_cases hk : ofNat i ∈ K
      · obtain ⟨r, h1, h2, h3, h4, h5⟩ := ih (i + 1) { a with itr := a.itr + 1, known := a.known ++ [D[i]]
                                                              knownIdx := a.knownIdx ++ [a.itr] } hD'
          (by simp [ha])
        refine ⟨r, ?_, h2, by rw [h3]; simp; omega, fun j d => ?_, fun j => ?_⟩
        · simp only [subKnown, if_true, hk, List.getElem?_eq_getElem hi, bind, Except.bind]
          exact h1
        · rw [h4]
          simp only [List.zip_append ha.symm, List.mem_append, List.zip_cons_cons, List.zip_nil_left,
            List.mem_singleton, Prod.mk.injEq]
          constructor
          · rintro ((h | ⟨rfl, rfl⟩) | ⟨n, t, e, hn, hk', hd⟩)
            · exact .inl h
            · exact .inr ⟨0, 0, rfl, (isNth_true_zero _ _).2 rfl, hk, List.getElem?_eq_getElem hi⟩
            · exact .inr ⟨n + 1, t + 1, by omega, (isNth_true_succ _ _ _).2 ⟨t, rfl, hn⟩,
                by rw [← Nat.add_assoc, Nat.add_right_comm]; exact hk',
                by rw [← Nat.add_assoc, Nat.add_right_comm]; exact hd⟩
          · rintro (h | ⟨n, t, e, hn, hk', hd⟩)
            · exact .inl (.inl h)
            · cases n with
              | zero =>
                have := (isNth_true_zero _ _).1 hn
                subst this
                rw [Nat.add_zero, List.getElem?_eq_getElem hi] at hd
                exact .inl (.inr ⟨e, (Option.some.inj hd).symm⟩)
              | succ n =>
                obtain ⟨t', rfl, hn'⟩ := (isNth_true_succ _ _ _).1 hn
                exact .inr ⟨n, t', by omega, hn',
                  by rw [Nat.add_right_comm, Nat.add_assoc]; exact hk',
                  by rw [Nat.add_right_comm, Nat.add_assoc]; exact hd⟩
        · rw [h5]
          apply or_congr Iff.rfl
          constructor
          · rintro ⟨n, t, e, hn, hk'⟩
            simp only at e
            exact ⟨n + 1, t + 1, by omega, (isNth_true_succ _ _ _).2 ⟨t, rfl, hn⟩,
                by rw [← Nat.add_assoc, Nat.add_right_comm]; exact hk'⟩
          · rintro ⟨n, t, e, hn, hk'⟩
            cases n with
            | zero =>
              have := (isNth_true_zero _ _).1 hn
              subst this
              exact absurd hk hk'
            | succ n =>
              obtain ⟨t', rfl, hn'⟩ := (isNth_true_succ _ _ _).1 hn
              exact ⟨n, t', by simp only; omega, hn',
                by rw [Nat.add_right_comm, Nat.add_assoc]; exact hk'⟩
      · obtain ⟨r, h1, h2, h3, h4, h5⟩ := ih (i + 1) { a with itr := a.itr + 1
                                                              unknownIdx := a.unknownIdx ++ [a.itr] } hD' ha
        refine ⟨r, ?_, h2, by rw [h3]; simp; omega, fun j d => ?_, fun j => ?_⟩
        · simp only [subKnown, if_true, hk, if_false, bind, Except.bind]
          exact h1
        · rw [h4]
          apply or_congr Iff.rfl
          constructor
          · rintro ⟨n, t, e, hn, hk', hd⟩
            simp only at e
            exact ⟨n + 1, t + 1, by omega, (isNth_true_succ _ _ _).2 ⟨t, rfl, hn⟩,
                by rw [← Nat.add_assoc, Nat.add_right_comm]; exact hk',
                by rw [← Nat.add_assoc, Nat.add_right_comm]; exact hd⟩
          · rintro ⟨n, t, e, hn, hk', hd⟩
            cases n with
            | zero =>
              have := (isNth_true_zero _ _).1 hn
              subst this
              exact absurd hk' hk
            | succ n =>
              obtain ⟨t', rfl, hn'⟩ := (isNth_true_succ _ _ _).1 hn
              exact ⟨n, t', by simp only; omega, hn',
                by rw [Nat.add_right_comm, Nat.add_assoc]; exact hk',
                by rw [Nat.add_right_comm, Nat.add_assoc]; exact hd⟩
        · rw [h5]
          simp only [List.mem_append, List.mem_singleton]
          constructor
          · rintro ((h | rfl) | ⟨n, t, e, hn, hk'⟩)
            · exact .inl h
            · exact .inr ⟨0, 0, rfl, (isNth_true_zero _ _).2 rfl, hk⟩
            · exact .inr ⟨n + 1, t + 1, by omega, (isNth_true_succ _ _ _).2 ⟨t, rfl, hn⟩,
                by rw [← Nat.add_assoc, Nat.add_right_comm]; exact hk'⟩
          · rintro (h | ⟨n, t, e, hn, hk'⟩)
            · exact .inl (.inl h)
            · cases n with
              | zero => exact .inl (.inr e)
              | succ n =>
                obtain ⟨t', rfl, hn'⟩ := (isNth_true_succ _ _ _).1 hn
                exact .inr ⟨n, t', by omega, hn',
                  by rw [Nat.add_right_comm, Nat.add_assoc]; exact hk'⟩

/-! ### The auxiliary quantities -/

theorem subAux_ok (m : List Bool) (q : Storage F)
    (hq : ∀ k v, (k, v) ∈ q → (∃ o, v.obsVals = some o ∧ o.length = m.length) ∧
      ∃ t, v.trueVals = some t ∧ t.length = m.length) :
    ∃ q', subAux m q = .ok q' ∧ q'.map Prod.fst = q.map Prod.fst ∧
      (∀ k v', (k, v') ∈ q' → ∃ v o t, (k, v) ∈ q ∧ v.obsVals = some o ∧ v.trueVals = some t ∧
        v'.obsVals = some (entries o m true) ∧ v'.trueVals = some (entries t m true)) ∧
      (∀ k v, (k, v) ∈ q → ∃ v' o t, (k, v') ∈ q' ∧ v.obsVals = some o ∧ v.trueVals = some t ∧
        v'.obsVals = some (entries o m true) ∧ v'.trueVals = some (entries t m true)) := by
  induction q with
  | nil => exact ⟨[], rfl, rfl, fun _ _ h => (by cases h), fun _ _ h => (by cases h)⟩
  | cons p q ih =>
    obtain ⟨k, v⟩ := p
    obtain ⟨⟨o, ho, lo⟩, t, ht, lt⟩ := hq k v (by simp)
    obtain ⟨q', h1, h2, h3, h4⟩ := ih (fun k v h => hq k v (by simp [h]))
    refine ⟨(k, { v with trueVals := some (entries t m true), obsVals := some (entries o m true) }) :: q',
      ?_, by simp [h2], ?_, ?_⟩
    · simp only [subAux, ho, ht, optArray, maskIndex, lo, lt, if_true, bind, Except.bind, h1,
        pick_eq_entries]
      rfl
    · intro k' v' hm
      rcases List.mem_cons.1 hm with e | hm
      · cases e
        exact ⟨v, o, t, by simp, ho, ht, rfl, rfl⟩
      · obtain ⟨v, o, t, hm, r⟩ := h3 k' v' hm
        exact ⟨v, o, t, by simp [hm], r⟩
    · intro k' v' hm
      rcases List.mem_cons.1 hm with e | hm
      · cases e
        exact ⟨_, o, t, List.mem_cons_self, ho, ht, rfl, rfl⟩
      · obtain ⟨v, o, t, hm, r⟩ := h4 k' v' hm
        exact ⟨v, o, t, by simp [hm], r⟩

/-! ### C32 -/

/-- The mask of the chosen objects. -/
def Spec.chosen (P : Population F) (observed : Bool) : List Bool :=
  P.selection.map fun b => b == observed

theorem chosen_eq (P : Population F) (observed : Bool) :
    (if observed then P.selection else notMask P.selection) = chosen P observed := by
  cases observed with
  | true => simp [chosen]
  | false =>
    simp only [chosen, notMask, Bool.false_eq_true, if_false]
    apply List.map_congr_left
    intro b _
    cases b <;> rfl

theorem maskIndex_chosen {α : Type} (l : List α) (m : List Bool) (h : l.length = m.length) :
    maskIndex l m = .ok (entries l m true) := by
  unfold maskIndex
  rw [if_pos h, pick_eq_entries]

/-- A sub-population `Q` consists of the objects of `P` where `m` is true, in order, all of
them detected. -/
structure Spec.SubOf (P Q : Population F) (m : List Bool) : Prop where
  luminosities : Q.luminosities.obs = entries P.luminosities.obs m true ∧
    Q.luminosities.latent = entries P.luminosities.obs m true
  distances : Q.distances.obs = entries P.distances.obs m true ∧
    Q.distances.latent = entries P.distances.obs m true
  theta : Q.theta.obs = entries P.theta.obs m true
  phi : Q.phi.obs = entries P.phi.obs m true
  fluxes : Q.fluxes.obs = entries P.fluxes.obs m true ∧
    Q.fluxes.latent = entries P.fluxes.latent m true
  probability : Q.probability.map SimVar.obs = P.probability.map fun x => entries x.obs m true
  selection : Q.selection = List.replicate (m.count true) true
  counts : Q.nObjects = m.count true ∧ Q.nDetections = m.count true ∧ Q.nNonDetections = 0
  quantities : (P.auxiliary = none ∧ Q.auxiliary = none) ∨
    ∃ q q', P.auxiliary = some q ∧ Q.auxiliary = some q' ∧ q'.map Prod.fst = q.map Prod.fst ∧
      ∀ k v', (k, v') ∈ q' → ∃ v o t, (k, v) ∈ q ∧ v.obsVals = some o ∧ v.trueVals = some t ∧
        v'.obsVals = some (entries o m true) ∧ v'.trueVals = some (entries t m true)
  settings : Q.fluxSigma = P.fluxSigma ∧ Q.rMax = P.rMax ∧ Q.seed = P.seed ∧ Q.name = P.name ∧
    Q.nModel = P.nModel ∧ Q.truth = P.truth ∧ Q.lfParams = P.lfParams ∧
    Q.spatialParams = P.spatialParams ∧ Q.modelSpaces = P.modelSpaces ∧ Q.graph = P.graph ∧
    Q.spatialForm = P.spatialForm ∧ Q.lfForm = P.lfForm

theorem toSub_ok [DecidableEq F] (ofNat : Nat → F) (now : Shared F) (a : PopArgs F)
    (P : Population F) (h : mkPopulation a = .ok P) (observed : Bool)
    (hs : ∀ d, P.spacesNow now = some d → ∀ p ∈ d, p.2.length = P.nModel) :
    ∃ Q, toSub ofNat now P observed = .ok Q ∧ SubOf P Q (chosen P observed) ∧
      Q.popSynth = none ∧
      Q.knownDistances.length = Q.knownIdx.length ∧
      Q.knownDistances.length + Q.unknownIdx.length = Q.nDetections ∧
      (∀ j d, (j, d) ∈ Q.knownIdx.zip Q.knownDistances ↔ ∃ i, IsNth (chosen P observed) j i ∧
        ofNat i ∈ P.knownDistances ∧ P.distances.obs[i]? = some d) ∧
      (∀ j, j ∈ Q.unknownIdx ↔ ∃ i, IsNth (chosen P observed) j i ∧
        ofNat i ∉ P.knownDistances) := by
  have pk := mkPopulation_ok h
  have hlen : (chosen P observed).length = P.selection.length := by simp [chosen]
  have hsel : P.selection = a.selection := pk.rest.2.2.2.1
  have q1 := quantity_built h P.luminosities (.inl (by simp))
  have q2 := quantity_built h P.distances (.inl (by simp))
  have q3 := quantity_built h P.theta (.inl (by simp))
  have q4 := quantity_built h P.phi (.inl (by simp))
  have q5 := quantity_built h P.fluxes (.inl (by simp))
  generalize hm : chosen P observed = m at *
  have haux : P.auxiliary = a.aux := pk.rest.2.2.2.2.2.2.2.2.2.2.2.2.2.2.2.1
  have hA : ∃ x', subAuxOpt m P.auxiliary = .ok x' ∧
      ((P.auxiliary = none ∧ x' = none) ∨ ∃ q q', P.auxiliary = some q ∧ x' = some q' ∧
        q'.map Prod.fst = q.map Prod.fst ∧ GoodAux m.length [] q ∧
        ∀ k v', (k, v') ∈ q' → ∃ v o t, (k, v) ∈ q ∧ v.obsVals = some o ∧ v.trueVals = some t ∧
        v'.obsVals = some (entries o m true) ∧ v'.trueVals = some (entries t m true)) := by
    cases hq : P.auxiliary with
    | none => exact ⟨none, rfl, .inl ⟨rfl, rfl⟩⟩
    | some q =>
      have ha := pk.aux
      rw [← haux, hq] at ha
      have g := ((addAttrs_ok_iff _ _ _ _ _ _).1 ha).1
      rw [← hsel, ← hlen] at g
      obtain ⟨q', e1, e2, e3, _⟩ := subAux_ok m q (fun k v hm => ⟨(g.1 k v hm).1, (g.1 k v hm).2.1⟩)
      refine ⟨some q', ?_, .inr ⟨q, q', rfl, rfl, e2, g, e3⟩⟩
      simp only [subAuxOpt, e1, bind, Except.bind]
      rfl
  obtain ⟨x', hx', hxq⟩ := hA
  obtain ⟨r, k1, k2, k3, k4, k5⟩ := subKnown_ok ofNat P.knownDistances P.distances.obs m 0 {}
    (by rw [Nat.zero_add, hlen, q2.2.1]) rfl
  have hP : ∃ p, subProb m P.probability = .ok p ∧
      p = P.probability.map fun x => entries x.obs m true := by
    cases hp : P.probability with
    | none => exact ⟨none, rfl, rfl⟩
    | some x =>
      have q6 := quantity_built h x (.inr (.inl hp))
      refine ⟨some (entries x.obs m true), ?_, rfl⟩
      simp only [subProb, maskIndex_chosen x.obs m (by rw [q6.2.1, hlen]), bind, Except.bind]
      rfl
  obtain ⟨p, hp, ep⟩ := hP
  have len : ∀ l : List F, l.length = P.selection.length →
      (entries l m true).length = (List.replicate (countTrue m) true).length := by
    intro l hl
    rw [length_entries _ _ _ (by rw [hl, hlen]), List.length_replicate, countTrue_eq]
  have hgood : GoodArgs ({
      luminosities := entries P.luminosities.obs m true, distances := entries P.distances.obs m true
      knownDistances := r.known, knownIdx := r.knownIdx
      unknownIdx := r.unknownIdx, fluxes := entries P.fluxes.latent m true
      fluxObs := entries P.fluxes.obs m true
      selection := List.replicate (countTrue m) true, fluxSigma := P.fluxSigma
      rMax := P.rMax, nModel := P.nModel, lfParams := P.lfParams, spatialParams := P.spatialParams
      spacesNow := (P.spacesNow now).getD [], modelSpaces := P.modelSpaces, seed := P.seed
      name := P.name, aux := x', truth := P.truth, graph := P.graph
      theta := entries P.theta.obs m true, phi := entries P.phi.obs m true, popSynth := none
      probability := p, spatialForm := P.spatialForm, lfForm := P.lfForm } : PopArgs F) := by
    refine ⟨?_, ?_, ?_, ?_, ?_⟩
    · intro l hl
      simp only [List.mem_cons, List.not_mem_nil, or_false] at hl
      rcases hl with rfl | rfl | rfl | rfl | rfl | rfl
      · exact len _ q1.2.1
      · exact len _ q2.2.1
      · exact len _ q3.2.1
      · exact len _ q4.2.1
      · exact len _ q5.2.2
      · exact len _ q5.2.1
    · intro p' hp'
      simp only [ep] at hp'
      cases hpp : P.probability with
      | none => rw [hpp] at hp'; cases hp'
      | some x =>
        rw [hpp] at hp'
        cases hp'
        have q6 := quantity_built h x (.inr (.inl hpp))
        exact len _ q6.2.1
    · simp only
      rw [k3]
      simp [countTrue_eq]
    · intro q'' hq''
      simp only at hq''
      rcases hxq with ⟨_, e⟩ | ⟨q, q', e1, e2, e3, g, e4⟩
      · rw [e] at hq''; cases hq''
      · rw [e2] at hq''; cases hq''
        refine ⟨?_, by rw [e3]; exact g.2⟩
        intro k v' hm'
        obtain ⟨v, o, t, hv, ho, ht, eo, et⟩ := e4 k v' hm'
        obtain ⟨⟨o', ho', lo⟩, ⟨t', ht', lt⟩, c, d⟩ := g.1 k v hv
        rw [ho] at ho'; cases ho'
        rw [ht] at ht'; cases ht'
        exact ⟨⟨_, eo, len o (by rw [lo, hlen])⟩, ⟨_, et, len t (by rw [lt, hlen])⟩, c, d⟩
    · intro _ k v hkv
      simp only at hkv
      cases hd : P.spacesNow now with
      | none => rw [hd] at hkv; cases hkv
      | some d => rw [hd] at hkv; exact hs d hd (k, v) hkv
  obtain ⟨Q, hQ⟩ := (C30_construction _).2 hgood
  have qk := mkPopulation_ok hQ
  refine ⟨Q, ?_, ?_, qk.rest.2.2.2.2.2.2.2.2.2.2.2.2.2.2.1, ?_, ?_, ?_, ?_⟩
  · unfold toSub
    simp only [chosen_eq, hm]
    simp only [hx', k1, hp, maskIndex_chosen _ m (q1.2.1.trans hlen.symm),
      maskIndex_chosen _ m (q2.2.1.trans hlen.symm), maskIndex_chosen _ m (q3.2.1.trans hlen.symm),
      maskIndex_chosen _ m (q4.2.1.trans hlen.symm), maskIndex_chosen _ m (q5.2.1.trans hlen.symm),
      maskIndex_chosen _ m (q5.2.2.trans hlen.symm), bind, Except.bind]
    exact hQ
  · obtain ⟨r1, r2, r3, r4, r5, r6, r7, r8, r9, r10, r11, r12, r13, r14, r15, r16, r17, r18⟩ := qk.rest
    refine ⟨?_, ?_, ?_, ?_, ?_, ?_, ?_, ?_, ?_, ⟨r5, r6, r7, r9, r8, r13, r10, r11, r12, r14, r17, r18⟩⟩
    · rw [qk.luminosities]; exact ⟨rfl, rfl⟩
    · rw [qk.distances]; exact ⟨rfl, rfl⟩
    · rw [qk.theta]
    · rw [qk.phi]
    · rw [qk.fluxes]; exact ⟨rfl, rfl⟩
    · rw [qk.probability, ep]
      cases P.probability <;> rfl
    · rw [r4, countTrue_eq]
    · obtain ⟨c1, c2, c3, _⟩ := qk.counts
      have e : countTrue (List.replicate (countTrue m) true) = m.count true := by
        rw [countTrue_eq, List.count_replicate_self, countTrue_eq]
      rw [c1, c2, c3]
      simp only [List.length_replicate, countTrue_eq, List.count_replicate_self, Nat.sub_self,
        and_self]
    · rw [r16]
      rcases hxq with ⟨e1, e2⟩ | ⟨q, q', e1, e2, e3, g, e4⟩
      · exact .inl ⟨e1, e2⟩
      · exact .inr ⟨q, q', e1, e2, e3, e4⟩
  · rw [qk.rest.1, qk.rest.2.1]; exact k2
  · rw [qk.rest.1, qk.rest.2.2.1, qk.counts.2.1]; exact qk.known
  · intro j d
    rw [qk.rest.1, qk.rest.2.1]
    show (j, d) ∈ r.knownIdx.zip r.known ↔ _
    rw [k4]
    constructor
    · rintro (hz | ⟨n, t, e, hn, hk, hd⟩)
      · cases hz
      · simp only [Nat.zero_add] at e hk hd
        subst e
        exact ⟨t, hn, hk, hd⟩
    · rintro ⟨i, hn, hk, hd⟩
      exact .inr ⟨j, i, by simp, hn, by rw [Nat.zero_add]; exact hk, by rw [Nat.zero_add]; exact hd⟩
  · intro j
    rw [qk.rest.2.2.1]
    show j ∈ r.unknownIdx ↔ _
    rw [k5]
    constructor
    · rintro (hz | ⟨n, t, e, hn, hk⟩)
      · cases hz
      · simp only [Nat.zero_add] at e hk
        subst e
        exact ⟨t, hn, hk⟩
    · rintro ⟨i, hn, hk⟩
      exact .inr ⟨j, i, by simp, hn, by rw [Nat.zero_add]; exact hk⟩

/-- **C32** (partial): for every population and both modes, `to_sub_population` returns a
population of exactly the chosen objects, in order, with their values, all detected.
*Missing*: which distances are known (`C32_violated_known`), and writing it to a file
(`C32_violated_write`).  (The model spaces must still have the length they had when the
population was built; they are shared with the synth.) -/
theorem C32_objects_partial [DecidableEq F] (ofNat : Nat → F) (now : Shared F) (a : PopArgs F)
    (P : Population F) (h : mkPopulation a = .ok P) (observed : Bool)
    (hs : ∀ d, P.spacesNow now = some d → ∀ p ∈ d, p.2.length = P.nModel) :
    ∃ Q, toSub ofNat now P observed = .ok Q ∧ SubOf P Q (chosen P observed) ∧
      Q.knownDistances.length = Q.knownIdx.length ∧
      Q.knownDistances.length + Q.unknownIdx.length = Q.nDetections := by
  obtain ⟨Q, h1, h2, _, h3, h4, _⟩ := toSub_ok ofNat now a P h observed hs
  exact ⟨Q, h1, h2, h3, h4⟩

/-- **C32 is violated**: in the sub-population the distance of object number `j`, at
position `i` of the original population, is known iff the *number* `i` happens to be one of
the known *distances*.  So whenever no known distance equals `i`, it becomes unknown, even
if it was known. -/
theorem C32_violated_known [DecidableEq F] (ofNat : Nat → F) (now : Shared F) (a : PopArgs F)
    (P : Population F) (h : mkPopulation a = .ok P) (observed : Bool)
    (hs : ∀ d, P.spacesNow now = some d → ∀ p ∈ d, p.2.length = P.nModel) :
    ∃ Q, toSub ofNat now P observed = .ok Q ∧
      ∀ j i, IsNth (chosen P observed) j i →
        (j ∈ Q.unknownIdx ↔ ofNat i ∉ P.knownDistances) := by
  obtain ⟨Q, h1, _, _, _, _, _, h2⟩ := toSub_ok ofNat now a P h observed hs
  refine ⟨Q, h1, fun j i hn => ?_⟩
  rw [h2 j]
  constructor
  · rintro ⟨i', hn', hk⟩
    have : i' = i := by
      have e1 := selectionIndex_get _ _ _ hn
      have e2 := selectionIndex_get _ _ _ hn'
      rw [e1] at e2
      exact (Option.some.inj e2).symm
    exact this ▸ hk
  · intro hk; exact ⟨i, hn, hk⟩

/-- In the example survey both distances (2 and 3) of the two detections are known; in its
sub-population of detections only one of them is. -/
example : ((okVal (drawSurvey SurveyExample.env SurveyExample.synth SurveyExample.args
      SurveyExample.st)).bind fun P =>
        (toSub id (sharedOf SurveyExample.synth SurveyExample.final) P true).toOption.map fun Q =>
          (P.knownIdx, Q.distances.obs, Q.knownIdx, Q.unknownIdx))
    = some ([0, 1], [2, 3], [1], [0]) := by decide +kernel

end Popsynth
