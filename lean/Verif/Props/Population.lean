import Verif.Props.SimVar
import Verif.Model.PopulationOps

/-!
# Populations: C30 (counts), C33 (protected attributes)
-/

set_option autoImplicit false
set_option linter.unusedSectionVars false

namespace Popsynth

open Spec

variable {F : Type}

/-! ### The attributes of the auxiliary quantities -/

/-- The quantities a population can turn into attributes: both arrays are there with one
entry per object, names are distinct, not taken, and not names of properties. -/
def Spec.GoodAux (n : Nat) (taken : List String) (q : Storage F) : Prop :=
  (∀ k v, (k, v) ∈ q → (∃ o, v.obsVals = some o ∧ o.length = n) ∧
    (∃ t, v.trueVals = some t ∧ t.length = n) ∧ k ∉ taken ∧ k ∉ readOnlyNames) ∧
  (q.map Prod.fst).Nodup

theorem mkSimVar_of (o t : List F) (m : List Bool) (h1 : m.length = o.length)
    (h2 : t.length = o.length) : mkSimVar o t m = .ok { obs := o, latent := t, selection := m } := by
  simp [mkSimVar, h1, h2]

theorem setAttr_ok_iff (ro prot : List String) (a a' : Dict (SimVar F)) (k : String)
    (v : SimVar F) : setAttr ro prot a k v = .ok a' ↔ k ∉ prot ∧ k ∉ ro ∧ a' = Dict.set a k v := by
  unfold setAttr
  by_cases h1 : k ∈ prot
  · simp [h1]
  · by_cases h2 : k ∈ ro
    · simp [h1, h2]
    · simp only [h1, h2, if_false, not_false_eq_true, true_and]
      constructor
      · intro h; cases h; rfl
      · rintro rfl; rfl

theorem setAttr_error (ro prot : List String) (a : Dict (SimVar F)) (k : String) (v : SimVar F)
    (e : Err) (h : setAttr ro prot a k v = .error e) : e = .attribute := by
  unfold setAttr at h
  split at h
  · cases h; rfl
  · split at h
    · cases h; rfl
    · cases h

/-- The attribute made from a quantity. -/
def quantityVar (m : List Bool) (v : SecC F) : SimVar F :=
  { obs := v.obsVals.getD [], latent := v.trueVals.getD [], selection := m }

/-- What the loop over the quantities does. -/
theorem addAttrs_ok_iff (m : List Bool) (q : Storage F) (attrs : Dict (SimVar F))
    (prot : List String) (attrs' : Dict (SimVar F)) (prot' : List String) :
    addAttrs m q attrs prot = .ok (attrs', prot') ↔
      GoodAux m.length prot q ∧ prot' = prot ++ q.map Prod.fst ∧
      attrs' = q.foldl (fun a p => Dict.set a p.1 (quantityVar m p.2)) attrs := by
  induction q generalizing attrs prot with
  | nil =>
    simp only [addAttrs, List.map_nil, List.append_nil, List.foldl_nil]
    constructor
    · intro h; cases h; exact ⟨⟨fun k v h => (by cases h), List.nodup_nil⟩, rfl, rfl⟩
    · rintro ⟨_, rfl, rfl⟩; rfl
  | cons p q ih =>
    obtain ⟨k, v⟩ := p
    simp only [addAttrs, except_bind_ok_iff]
    constructor
    · rintro ⟨o, ho, t, ht, x, hx, a1, ha, h⟩
      obtain ⟨g, e1, e2⟩ := (ih _ _).1 h
      have ho' : v.obsVals = some o := by
        unfold optArray at ho; split at ho <;> cases ho; assumption
      have ht' : v.trueVals = some t := by
        unfold optArray at ht; split at ht <;> cases ht; assumption
      obtain ⟨l1, l2, rfl⟩ := mkSimVar_ok hx
      obtain ⟨n1, n2, rfl⟩ := (setAttr_ok_iff _ _ _ _ _ _).1 ha
      refine ⟨⟨?_, ?_⟩, by simp [e1], ?_⟩
      · intro k' v' hm
        rcases List.mem_cons.1 hm with e | hm
        · cases e
          exact ⟨⟨o, ho', l1.symm⟩, ⟨t, ht', by rw [l2, ← l1]⟩, n1, n2⟩
        · obtain ⟨a, b, c, d⟩ := g.1 k' v' hm
          exact ⟨a, b, (fun hc => c (by simp [hc])), d⟩
      · rw [List.map_cons, List.nodup_cons]
        refine ⟨fun hm => ?_, g.2⟩
        obtain ⟨⟨k', v'⟩, hm', e⟩ := List.mem_map.1 hm
        exact (g.1 k' v' hm').2.2.1 (List.mem_append.2 (.inr (List.mem_singleton.2 e)))
      · rw [e2, List.foldl_cons]
        simp [quantityVar, ho', ht']
    · rintro ⟨g, e1, e2⟩
      obtain ⟨⟨o, ho, lo⟩, ⟨t, ht, lt⟩, n1, n2⟩ := g.1 k v (by simp)
      refine ⟨o, by rw [ho]; rfl, t, by rw [ht]; rfl, _, mkSimVar_of o t m lo.symm (by omega), _,
        (setAttr_ok_iff _ _ _ _ _ _).2 ⟨n1, n2, rfl⟩, (ih _ _).2 ⟨⟨?_, ?_⟩, ?_, ?_⟩⟩
      · intro k' v' hm
        obtain ⟨a, b, c, d⟩ := g.1 k' v' (by simp [hm])
        refine ⟨a, b, fun hc => ?_, d⟩
        rcases List.mem_append.1 hc with hc | hc
        · exact c hc
        · rw [List.mem_singleton] at hc
          subst hc
          have := g.2
          rw [List.map_cons, List.nodup_cons] at this
          exact this.1 (List.mem_map.2 ⟨_, hm, rfl⟩)
      · have := g.2
        rw [List.map_cons, List.nodup_cons] at this
        exact this.2
      · simp [e1]
      · rw [e2, List.foldl_cons]
        simp [quantityVar, ho, ht]

theorem foldl_set_get? {α β : Type} (f : β → α) (q : Dict β) (d : Dict α) (k : String) (v : β)
    (hn : (q.map Prod.fst).Nodup) (h : (k, v) ∈ q) :
    Dict.get? (q.foldl (fun a p => Dict.set a p.1 (f p.2)) d) k = some (f v) := by
  have keep : ∀ (q : Dict β) (d : Dict α), k ∉ q.map Prod.fst →
      Dict.get? (q.foldl (fun a p => Dict.set a p.1 (f p.2)) d) k = Dict.get? d k := by
    intro q
    induction q with
    | nil => intro d _; rfl
    | cons p q ih =>
      intro d hk
      rw [List.foldl_cons, ih _ (fun hm => hk (by simp [hm]))]
      exact Dict.get?_set_ne _ _ (fun e => hk (by simp [e]))
  induction q generalizing d with
  | nil => cases h
  | cons p q ih =>
    rw [List.map_cons, List.nodup_cons] at hn
    rw [List.foldl_cons]
    rcases List.mem_cons.1 h with e | h
    · subst e
      rw [keep q _ hn.1, Dict.get?_set_self]
    · exact ih _ hn.2 h

theorem foldl_set_get?_other {α β : Type} (f : β → α) (q : Dict β) (d : Dict α) (k : String)
    (hk : k ∉ q.map Prod.fst) :
    Dict.get? (q.foldl (fun a p => Dict.set a p.1 (f p.2)) d) k = Dict.get? d k := by
  induction q generalizing d with
  | nil => rfl
  | cons p q ih =>
    rw [List.foldl_cons, ih _ (fun hm => hk (by simp [hm]))]
    exact Dict.get?_set_ne _ _ (fun e => hk (by simp [e]))

theorem foldl_set_keys {α β : Type} (f : β → α) (q : Dict β) (d : Dict α) (k : String) :
    k ∈ Dict.keys (q.foldl (fun a p => Dict.set a p.1 (f p.2)) d) ↔
      k ∈ Dict.keys d ∨ k ∈ q.map Prod.fst := by
  induction q generalizing d with
  | nil => simp
  | cons p q ih =>
    rw [List.foldl_cons, ih, ← Dict.get?_isSome_iff, ← Dict.get?_isSome_iff]
    by_cases e : p.1 = k
    · subst e; simp [Dict.get?_set_self]
    · rw [Dict.get?_set_ne _ _ e]
      simp [Ne.symm e]

/-! ### C30 -/

/-- Arguments a population can be built from. -/
def Spec.GoodArgs (a : PopArgs F) : Prop :=
  (∀ l ∈ [a.luminosities, a.distances, a.theta, a.phi, a.fluxes, a.fluxObs],
    l.length = a.selection.length) ∧
  (∀ p, a.probability = some p → p.length = a.selection.length) ∧
  a.knownDistances.length + a.unknownIdx.length = a.selection.count true ∧
  (∀ q, a.aux = some q → GoodAux a.selection.length [] q) ∧
  (a.modelSpaces.isSome → ∀ k v, (k, v) ∈ a.spacesNow → v.length = a.nModel)

/-- The quantities of a population. -/
def Spec.IsQuantity (P : Population F) (x : SimVar F) : Prop :=
  x ∈ [P.luminosities, P.distances, P.theta, P.phi, P.fluxes] ∨ P.probability = some x ∨
    ∃ k, Dict.get? P.attrs k = some x

theorem countTrue_eq (m : List Bool) : countTrue m = m.count true := by
  induction m with
  | nil => rfl
  | cons b m ih => cases b <;> simp [countTrue_cons, ih]; omega

/-- **C30**: a population is constructed exactly from consistent arguments. -/
theorem C30_construction (a : PopArgs F) : (∃ P, mkPopulation a = .ok P) ↔ GoodArgs a := by
  constructor
  · rintro ⟨P, h⟩
    have pk := mkPopulation_ok h
    refine ⟨?_, pk.lenProb, by rw [pk.known, countTrue_eq], ?_, fun hs k v hv => pk.spaces hs _ hv⟩
    · intro l hl
      simp only [List.mem_cons, List.not_mem_nil, or_false] at hl
      rcases hl with rfl | rfl | rfl | rfl | rfl | rfl
      · exact pk.lenLum
      · exact pk.lenDist
      · exact pk.lenTheta
      · exact pk.lenPhi
      · exact pk.lenFluxes
      · exact pk.lenFluxObs
    · intro q hq
      have ha := pk.aux
      rw [hq] at ha
      exact ((addAttrs_ok_iff _ _ _ _ _ _).1 ha).1
  · rintro ⟨hl, hp, hk, ha, hs⟩
    have l1 := hl a.luminosities (by simp)
    have l2 := hl a.distances (by simp)
    have l3 := hl a.theta (by simp)
    have l4 := hl a.phi (by simp)
    have l5 := hl a.fluxes (by simp)
    have l6 := hl a.fluxObs (by simp)
    have hk' : excAssert (a.knownDistances.length + a.unknownIdx.length == countTrue a.selection)
        = .ok () := by simp [excAssert, hk, countTrue_eq]
    have hs' : excAssert (!(a.modelSpaces.isSome &&
        a.spacesNow.any (fun p => p.2.length != a.nModel))) = .ok () := by
      unfold excAssert
      rw [if_pos]
      cases hm : a.modelSpaces.isSome with
      | false => rfl
      | true =>
        rw [Bool.true_and, Bool.not_eq_true', List.any_eq_false]
        intro p hp
        have := hs hm p.1 p.2 hp
        simp [this]
    have hpr : ∃ pr, optSimVar a.probability a.selection = .ok pr := by
      cases hq : a.probability with
      | none => exact ⟨none, rfl⟩
      | some p =>
        refine ⟨some { obs := p, latent := p, selection := a.selection }, ?_⟩
        have := hp p hq
        simp only [optSimVar, mkSimVar_of p p a.selection this.symm rfl]
        rfl
    obtain ⟨pr, hpr⟩ := hpr
    have hax : ∃ r, auxAttrs a.selection a.aux = .ok r := by
      cases hq : a.aux with
      | none => exact ⟨([], []), rfl⟩
      | some q => exact ⟨(_, _), (addAttrs_ok_iff _ _ _ _ _ _).2 ⟨ha q hq, rfl, rfl⟩⟩
    obtain ⟨⟨at', prot⟩, hax⟩ := hax
    unfold mkPopulation
    simp only [mkSimVar_of _ _ _ l1.symm rfl, mkSimVar_of _ _ _ l2.symm rfl,
      mkSimVar_of _ _ _ l3.symm rfl, mkSimVar_of _ _ _ l4.symm rfl,
      mkSimVar_of a.fluxObs a.fluxes a.selection l6.symm (by omega), hk', hs', hpr, hax,
      bind, Except.bind]
    exact ⟨_, rfl⟩

theorem quantity_built {a : PopArgs F} {P : Population F} (h : mkPopulation a = .ok P)
    (x : SimVar F) (hx : IsQuantity P x) :
    x.selection = P.selection ∧ x.obs.length = P.selection.length ∧
      x.latent.length = P.selection.length := by
  have pk := mkPopulation_ok h
  have hsel : P.selection = a.selection := pk.rest.2.2.2.1
  rw [hsel]
  rcases hx with hx | hx | ⟨k, hx⟩
  · simp only [List.mem_cons, List.not_mem_nil, or_false] at hx
    rcases hx with rfl | rfl | rfl | rfl | rfl
    · rw [pk.luminosities]; exact ⟨rfl, pk.lenLum, pk.lenLum⟩
    · rw [pk.distances]; exact ⟨rfl, pk.lenDist, pk.lenDist⟩
    · rw [pk.theta]; exact ⟨rfl, pk.lenTheta, pk.lenTheta⟩
    · rw [pk.phi]; exact ⟨rfl, pk.lenPhi, pk.lenPhi⟩
    · rw [pk.fluxes]; exact ⟨rfl, pk.lenFluxObs, pk.lenFluxes⟩
  · rw [pk.probability] at hx
    cases hq : a.probability with
    | none => rw [hq] at hx; cases hx
    | some p =>
      rw [hq] at hx
      simp only [Option.map_some, Option.some.injEq] at hx
      subst hx
      exact ⟨rfl, pk.lenProb p hq, pk.lenProb p hq⟩
  · have ha := pk.aux
    cases hq : a.aux with
    | none =>
      rw [hq] at ha
      have : P.attrs = [] := by
        have := Except.ok.inj ha
        exact (Prod.mk.inj this).1.symm
      rw [this] at hx; cases hx
    | some q =>
      rw [hq] at ha
      obtain ⟨g, _, e⟩ := (addAttrs_ok_iff _ _ _ _ _ _).1 ha
      have hk : k ∈ Dict.keys P.attrs := (Dict.get?_isSome_iff _ _).1 (by rw [hx]; rfl)
      rw [e, foldl_set_keys (quantityVar a.selection)] at hk
      rcases hk with hk | hk
      · cases hk
      obtain ⟨⟨k', v⟩, hm, rfl⟩ := List.mem_map.1 hk
      rw [e, foldl_set_get? (quantityVar a.selection) q [] k' v g.2 hm] at hx
      cases hx
      obtain ⟨⟨o, ho, lo⟩, ⟨t, ht, lt⟩, _⟩ := g.1 k' v hm
      simp [quantityVar, ho, ht, lo, lt]

/-- **C30 (detections).** A population says that it has detections exactly when some object was
selected, that is, when its number of detections is positive. -/
theorem C30_has_detections (a : PopArgs F) (P : Population F) (h : mkPopulation a = .ok P) :
    (P.hasDetections = true ↔ true ∈ a.selection) ∧ (P.hasDetections = true ↔ 0 < P.nDetections) := by
  obtain ⟨-, c2, -, c4⟩ := (mkPopulation_ok h).counts
  have : P.hasDetections = true ↔ 0 < P.nDetections := by
    rw [c2, Nat.pos_iff_ne_zero, Ne, ← c4]
    simp [Population.hasDetections]
  exact ⟨by rw [this, c2, countTrue_eq, List.count_pos_iff], this⟩

/-- **C30**: in every population that can be constructed, the detections and
non-detections add up to the objects, the selected and non-selected parts of every
quantity have these lengths (observed and latent values, whatever the dtype), and the
known and unknown distances add up to the detections. -/
theorem C30_counts (a : PopArgs F) (P : Population F) (h : mkPopulation a = .ok P) :
    P.nObjects = a.selection.length ∧ P.nDetections = a.selection.count true ∧
    P.nObjects = P.nDetections + P.nNonDetections ∧
    P.knownDistances.length + P.unknownIdx.length = P.nDetections ∧
    ∀ x, IsQuantity P x → ∀ dt, ∃ y z, (x.toSVar dt).selected = .ok y ∧
      (x.toSVar dt).nonSelected = .ok z ∧
      y.obs.length = P.nDetections ∧ y.latent.length = P.nDetections ∧
      z.obs.length = P.nNonDetections ∧ z.latent.length = P.nNonDetections := by
  have pk := mkPopulation_ok h
  obtain ⟨c1, c2, c3, _⟩ := pk.counts
  have hsum : a.selection.count true ≤ a.selection.length := by
    have := count_true_add_false a.selection; omega
  refine ⟨c1, by rw [c2, countTrue_eq], by rw [c1, c2, c3, countTrue_eq]; omega, ?_, ?_⟩
  · rw [pk.rest.1, pk.rest.2.2.1, pk.known, c2]
  · intro x hx dt
    obtain ⟨e1, e2, e3⟩ := quantity_built h x hx
    have hsel : P.selection = a.selection := pk.rest.2.2.2.1
    have hb : Built (x.toSVar dt) := ⟨e3.trans e2.symm, (congrArg List.length e1).trans e2.symm⟩
    obtain ⟨y, z, h1, h2, b1, b2, _, _, _, _, _, _, l1, l2, _⟩ := C34_split (x.toSVar dt) hb rfl
    have hs : (x.toSVar dt).sel = a.selection := e1.trans hsel
    rw [hs] at l1 l2
    have l2' : z.obs.length = P.nNonDetections := by
      rw [l2, c3, countTrue_eq]
      have := count_true_add_false a.selection
      omega
    have l1' : y.obs.length = P.nDetections := by rw [l1, c2, countTrue_eq]
    exact ⟨y, z, h1, h2, l1', b1.1.trans l1', l2', b2.1.trans l2'⟩

/-! ### C33 -/

/-- A history of attribute assignments; refused ones (`AttributeError`) leave the
population as it is. -/
def assignAll (P : Population F) : List (String × SimVar F) → Population F
  | [] => P
  | (k, v) :: l => match P.assign k v with
    | .ok P' => assignAll P' l
    | .error _ => assignAll P l

theorem assign_ok {P P' : Population F} {k : String} {v : SimVar F} (h : P.assign k v = .ok P') :
    k ∉ P.protectedNames ∧ k ∉ readOnlyNames ∧ P' = { P with attrs := Dict.set P.attrs k v } := by
  unfold Population.assign at h
  obtain ⟨a, ha, h⟩ := (except_bind_ok_iff _ _ _).1 h
  obtain ⟨h1, h2, rfl⟩ := (setAttr_ok_iff _ _ _ _ _ _).1 ha
  cases h
  exact ⟨h1, h2, rfl⟩

theorem assignAll_keeps (P : Population F) (l : List (String × SimVar F)) :
    (assignAll P l).protectedNames = P.protectedNames ∧
    (∀ k ∈ P.protectedNames, Dict.get? (assignAll P l).attrs k = Dict.get? P.attrs k) ∧
    (assignAll P l).luminosities = P.luminosities ∧ (assignAll P l).distances = P.distances ∧
    (assignAll P l).fluxes = P.fluxes ∧ (assignAll P l).theta = P.theta ∧
    (assignAll P l).phi = P.phi ∧ (assignAll P l).selection = P.selection ∧
    (assignAll P l).knownDistances = P.knownDistances ∧
    (assignAll P l).auxiliary = P.auxiliary := by
  induction l generalizing P with
  | nil => exact ⟨rfl, fun _ _ => rfl, rfl, rfl, rfl, rfl, rfl, rfl, rfl, rfl⟩
  | cons p l ih =>
    obtain ⟨k, v⟩ := p
    simp only [assignAll]
    cases h : P.assign k v with
    | error e => exact ih P
    | ok P' =>
      obtain ⟨h1, _, rfl⟩ := assign_ok h
      obtain ⟨i1, i2, i3⟩ := ih { P with attrs := Dict.set P.attrs k v }
      refine ⟨i1, fun j hj => ?_, i3⟩
      show Dict.get? (assignAll { P with attrs := Dict.set P.attrs k v } l).attrs j = _
      rw [i2 j hj]
      exact Dict.get?_set_ne _ _ (fun e => h1 (e ▸ hj))

/-- **C33** (partial): after construction every auxiliary quantity is found under its own
name, with its observed and true values and the population's selection; no history of
assignments changes that, every attempt to reassign it raises `AttributeError`; and
quantities never hide the population's properties, nor do assignments.  *Missing*: a
quantity can hide a method (`C33_violated_method`), and internal names with a leading
underscore are not modelled. -/
theorem C33_protected_partial (a : PopArgs F) (P : Population F) (q : Storage F)
    (h : mkPopulation a = .ok P) (hq : a.aux = some q) (ops : List (String × SimVar F)) :
    (∀ k v, (k, v) ∈ q → ∃ x, (assignAll P ops).lookup k = .attr x ∧
      v.obsVals = some x.obs ∧ v.trueVals = some x.latent ∧ x.selection = P.selection) ∧
    (∀ k v x, (k, v) ∈ q → (assignAll P ops).assign k x = .error .attribute) ∧
    (∀ k ∈ readOnlyNames, (assignAll P ops).lookup k = .property ∧ k ∉ q.map Prod.fst) := by
  have pk := mkPopulation_ok h
  have ha := pk.aux
  rw [hq] at ha
  obtain ⟨g, ep, ea⟩ := (addAttrs_ok_iff _ _ _ _ _ _).1 ha
  obtain ⟨k1, k2, _⟩ := assignAll_keeps P ops
  have hprot : ∀ k v, (k, v) ∈ q → k ∈ P.protectedNames := by
    intro k v hm
    rw [ep]
    exact List.mem_append.2 (.inr (List.mem_map.2 ⟨_, hm, rfl⟩))
  refine ⟨?_, ?_, ?_⟩
  · intro k v hm
    obtain ⟨⟨o, ho, lo⟩, ⟨t, ht, lt⟩, _, hro⟩ := g.1 k v hm
    refine ⟨{ obs := o, latent := t, selection := a.selection }, ?_, ho, ht, pk.rest.2.2.2.1.symm⟩
    unfold Population.lookup
    rw [if_neg hro, k2 k (hprot k v hm), ea,
      foldl_set_get? (quantityVar a.selection) q [] k v g.2 hm]
    simp [quantityVar, ho, ht]
  · intro k v x hm
    unfold Population.assign setAttr
    rw [k1, if_pos (hprot k v hm)]
    rfl
  · intro k hk
    refine ⟨by unfold Population.lookup; rw [if_pos hk], fun hm => ?_⟩
    obtain ⟨⟨k', v⟩, hm', rfl⟩ := List.mem_map.1 hm
    exact (g.1 k' v hm').2.2.2 hk

/-- A population with one object and one quantity of the given name. -/
def tinyArgs (name : String) : PopArgs Int :=
  { luminosities := [1], distances := [2], knownDistances := [2], knownIdx := [0], unknownIdx := [],
    fluxes := [3], fluxObs := [4], selection := [true], fluxSigma := 0, rMax := 5, nModel := 2,
    lfParams := none, spatialParams := none, spacesNow := [("x", [1, 2])],
    modelSpaces := some (.own [("x", [1, 2])]), seed := 1, name := "tiny"
    aux := some [(name, { name, trueVals := some [7], obsVals := some [8], selection := 0, prob := [] })]
    truth := [], graph := none, theta := [0], phi := [0], popSynth := none, probability := none }

theorem tiny_good (name : String) (h : name ∉ readOnlyNames) : GoodArgs (tinyArgs name) := by
  refine ⟨?_, ?_, rfl, ?_, ?_⟩
  · intro l hl
    simp only [tinyArgs, List.mem_cons, List.not_mem_nil, or_false] at hl
    rcases hl with rfl | rfl | rfl | rfl | rfl | rfl <;> rfl
  · intro p hp; cases hp
  · intro q hq
    cases hq
    refine ⟨?_, by simp⟩
    intro k v hm
    simp only [List.mem_singleton, Prod.mk.injEq] at hm
    obtain ⟨rfl, rfl⟩ := hm
    exact ⟨⟨[8], rfl, rfl⟩, ⟨[7], rfl, rfl⟩, by simp, h⟩
  · intro _ k v hm
    simp only [tinyArgs, List.mem_singleton, Prod.mk.injEq] at hm
    obtain ⟨rfl, rfl⟩ := hm
    rfl

example : ∃ P, mkPopulation (tinyArgs "mass") = .ok P :=
  (C30_construction _).2 (tiny_good "mass" (by decide))

example : (mkPopulation (tinyArgs "mass")).toOption.map (fun P => (P.nObjects, P.nDetections,
    P.nNonDetections)) = some (1, 1, 0) := by decide +kernel

/-- Two known distances for one detection are refused. -/
example : ¬ ∃ P, mkPopulation { tinyArgs "mass" with knownDistances := [2, 2] } = .ok P := by
  rw [C30_construction]
  rintro ⟨_, _, h, _⟩
  revert h
  decide

/-- **C33 is violated** for methods: any name that is a method of `Population` but not a
property is accepted as the name of a quantity, and the method can no longer be called. -/
theorem C33_violated_method (a : PopArgs F) (P : Population F) (q : Storage F) (k : String)
    (v : SecC F) (h : mkPopulation a = .ok P) (hq : a.aux = some q) (hm : (k, v) ∈ q) :
    P.lookup k ≠ .method := by
  obtain ⟨x, hx, _⟩ := (C33_protected_partial a P q h hq []).1 k v hm
  intro hc
  have hx : P.lookup k = .attr x := hx
  rw [hx] at hc; cases hc

/-- What a population reports under fixed names. -/
def Spec.resultNames : List String :=
  ["distances", "known_distances", "theta", "phi", "ra", "dec", "luminosities",
   "luminosities_latent", "fluxes", "fluxes_latent", "fluxes_observed",
   "selected_fluxes_latent", "selected_fluxes_observed", "selected_distances",
   "hidden_fluxes_latent", "hidden_fluxes_observed", "hidden_distances", "selection",
   "n_objects", "n_detections", "n_non_detections", "has_detections", "hard_cut",
   "distance_probability", "probability", "flux_sigma", "truth", "luminosity_parameters",
   "spatial_parameters", "graph", "pop_synth"]

/-- What a population can be asked to do. -/
def Spec.actionNames : List String :=
  ["to_stan_data", "to_sub_population", "writeto", "addto", "from_file", "from_group", "display",
   "display_fluxes", "display_true_fluxes", "display_obs_fluxes", "display_luminosities",
   "display_distances", "display_flux_sphere", "display_obs_fluxes_sphere",
   "display_hidden_fluxes_sphere"]

/-- **C33 (fixed names).** A quantity cannot have the name of anything that a population
reports, and such a name can never be assigned; what a population can be asked to do stays
available as long as no quantity and no assignment uses its name; every other name that is not
a quantity and was not assigned is unknown. -/
theorem C33_fixed_names (a : PopArgs F) (P : Population F) (q : Storage F)
    (h : mkPopulation a = .ok P) (hq : a.aux = some q) (ops : List (String × SimVar F)) :
    (∀ k ∈ Spec.resultNames, (∀ v, (k, v) ∉ q) ∧ (assignAll P ops).lookup k = .property ∧
      ∀ x, (assignAll P ops).assign k x = .error .attribute) ∧
    (∀ k, (∀ v, (k, v) ∉ q) → (∀ x, (k, x) ∉ ops) →
      (k ∈ Spec.actionNames → (assignAll P ops).lookup k = .method) ∧
      (k ∉ Spec.actionNames → k ∉ Spec.resultNames → (assignAll P ops).lookup k = .nothing)) := by
  have hr : ∀ k, k ∈ Spec.resultNames ↔ k ∈ readOnlyNames := by
    intro k
    simp only [Spec.resultNames, readOnlyNames, List.mem_cons, List.not_mem_nil, or_false]
    constructor <;> (intro h; rcases h with rfl | rfl | rfl | rfl | rfl | rfl | rfl | rfl | rfl | rfl |
      rfl | rfl | rfl | rfl | rfl | rfl | rfl | rfl | rfl | rfl | rfl | rfl | rfl | rfl | rfl | rfl |
      rfl | rfl | rfl | rfl | rfl <;> decide)
  have hm : ∀ k, k ∈ Spec.actionNames ↔ k ∈ methodNames := by
    intro k
    simp only [Spec.actionNames, methodNames, List.mem_cons, List.not_mem_nil, or_false]
    constructor <;> (intro h; rcases h with rfl | rfl | rfl | rfl | rfl | rfl | rfl | rfl | rfl | rfl |
      rfl | rfl | rfl | rfl | rfl <;> decide)
  obtain ⟨-, -, h3⟩ := C33_protected_partial a P q h hq ops
  constructor
  · intro k hk
    obtain ⟨l1, l2⟩ := h3 k ((hr k).1 hk)
    refine ⟨fun v hv => l2 (List.mem_map.2 ⟨_, hv, rfl⟩), l1, fun x => ?_⟩
    unfold Population.assign setAttr
    split
    · rfl
    · rw [if_pos ((hr k).1 hk)]; rfl
  · intro k hkq hko
    -- the name is not among the attributes
    have hattrs : Dict.get? (assignAll P ops).attrs k = none := by
      have h0 : Dict.get? P.attrs k = none := by
        have pk := mkPopulation_ok h
        have ha := pk.aux
        rw [hq] at ha
        obtain ⟨g, ep, ea⟩ := (addAttrs_ok_iff _ _ _ _ _ _).1 ha
        rw [ea]
        have : ∀ (q : Storage F) (d : Dict (SimVar F)), (∀ v, (k, v) ∉ q) → Dict.get? d k = none →
            Dict.get? (q.foldl (fun d p => Dict.set d p.1 (quantityVar a.selection p.2)) d) k = none := by
          intro q
          induction q with
          | nil => intro d _ hd; exact hd
          | cons p q ih =>
            intro d hp hd
            refine ih _ (fun v hv => hp v (by simp [hv])) ?_
            rw [Dict.get?_set_ne _ _ (fun e => hp p.2 (by subst e; simp))]
            exact hd
        exact this q [] hkq rfl
      have hall : ∀ (ops : List (String × SimVar F)) (P : Population F), (∀ x, (k, x) ∉ ops) →
          Dict.get? (assignAll P ops).attrs k = Dict.get? P.attrs k := by
        intro ops
        induction ops with
        | nil => intro P _; rfl
        | cons p ops ih =>
          intro P hp
          obtain ⟨n, x⟩ := p
          simp only [assignAll]
          cases hx : P.assign n x with
          | error e => exact ih P fun y hy => hp y (by simp [hy])
          | ok P' =>
            obtain ⟨-, -, rfl⟩ := assign_ok hx
            rw [ih _ fun y hy => hp y (by simp [hy])]
            exact Dict.get?_set_ne _ _ (fun e => hp x (by subst e; simp))
      rw [hall ops P hko, h0]
    constructor
    · intro hk
      have hnr : k ∉ readOnlyNames := by
        have : ∀ j ∈ methodNames, j ∉ readOnlyNames := by decide
        exact this k ((hm k).1 hk)
      unfold Population.lookup
      rw [if_neg hnr, hattrs]
      simp only
      rw [if_pos ((hm k).1 hk)]
    · intro hk hnk
      unfold Population.lookup
      rw [if_neg (fun h => hnk ((hr k).2 h)), hattrs]
      simp only
      rw [if_neg (fun h => hk ((hm k).2 h))]

/-- Such populations exist: a quantity called `to_stan_data`. -/
example : ∃ P, mkPopulation (tinyArgs "to_stan_data") = .ok P ∧ "to_stan_data" ∈ methodNames ∧
    P.lookup "to_stan_data" ≠ .method := by
  obtain ⟨P, hP⟩ := (C30_construction _).2 (tiny_good "to_stan_data" (by decide))
  exact ⟨P, hP, by decide, C33_violated_method _ P _ _ _ hP rfl (List.mem_singleton.2 rfl)⟩

end Popsynth
