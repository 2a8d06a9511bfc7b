import Verif.Props.ConfigMore

/-!
# The order of the keys of a configuration (C43)

`write_to` (population_synth.py:186-200) dumps the dictionary with sorted keys, HDF5 groups
are iterated in alphabetical order: the dictionary `from_dict` gets has the same content as
the one `to_dict` gave, but its keys may come in another order.
-/

set_option autoImplicit false
set_option linter.unusedSectionVars false

namespace Popsynth

open Spec

variable {F : Type} [LE F] [DecidableLE F]

namespace Spec

/-- The same keys, in any order, with related values. -/
def SameItems {α : Type} (r : String → α → α → Prop) (d d' : Dict α) : Prop :=
  (Dict.keys d).Nodup ∧ (Dict.keys d').Nodup ∧
  ∀ k, Opt (r k) (Dict.get? d k) (Dict.get? d' k)

/-- A parameter dictionary in another order. -/
def ParamsReordered (v v' : PVal F) : Prop :=
  v = v' ∨ ∃ d d', v = .dict d ∧ v' = .dict d' ∧ SameItems (fun _ a b => a = b) d d'

/-- The section of a distribution or selection in another order, except that the first key
stays first. -/
def SectionReordered (v v' : PVal F) : Prop :=
  v = v' ∨ ∃ d d', v = .dict d ∧ v' = .dict d' ∧ (Dict.keys d).head? = (Dict.keys d').head? ∧
    SameItems (fun k a b => ParamsReordered a b ∧ (k = "is_rate" → a = b)) d d'

/-- The entry of a sampler in another order. -/
def EntryReordered (v v' : PVal F) : Prop :=
  ∃ d d', v = .dict d ∧ v' = .dict d' ∧
    SameItems (fun k a b => if k = "selection" then SectionReordered a b else a = b) d d'

/-- The section of the samplers in another order. -/
def AuxReordered (v v' : PVal F) : Prop :=
  ∃ d d', v = .dict d ∧ v' = .dict d' ∧ SameItems (fun _ => EntryReordered) d d'

/-- A configuration in another order. -/
def Reordered (d d' : Dict (PVal F)) : Prop :=
  SameItems (fun k => if k = "auxiliary samplers" then AuxReordered else SectionReordered) d d'

/-- The same parameter values. -/
def SameValues (o o' : Obj F) : Prop := ∀ k, Dict.get? o.storage k = Dict.get? o'.storage k

def EqDist (c c' : CDist F) : Prop :=
  c.cls = c'.cls ∧ c.isRate = c'.isRate ∧ SameValues c.obj c'.obj

def EqSel (c c' : CSel F) : Prop :=
  c.cls = c'.cls ∧ c.flags = c'.flags ∧ SameValues c.obj c'.obj

/-- The same sampler; not compared: the names of its parents, which are only displayed. -/
def EqSampler (c c' : CSampler F) : Prop :=
  c.cls = c'.cls ∧ c.name = c'.name ∧ c.obsName = c'.obsName ∧ c.observed = c'.observed ∧
  c.secs = c'.secs ∧ c.isSecondary = c'.isSecondary ∧ SameValues c.obj c'.obj ∧ EqSel c.sel c'.sel

/-- The same synthesizer except that the attached samplers may be in another order. -/
structure EqSynth (y y' : CSynth F) : Prop where
  seed : y.seed = y'.seed
  spatial : EqDist y.spatial y'.spatial
  lum : Opt EqDist y.lum y'.lum
  fluxSel : Opt EqSel y.fluxSel y'.fluxSel
  distSel : Opt EqSel y.distSel y'.distSel
  spatSel : Opt EqSel y.spatSel y'.spatSel
  objs : ∀ k, Opt EqSampler (Dict.get? y.objs k) (Dict.get? y'.objs k)
  aux : y.aux.Perm y'.aux
  derived : y.derived = y'.derived

end Spec

/-! ### Dictionaries in another order -/

theorem Opt.symm {α : Type} {r s : α → α → Prop} (h : ∀ a b, r a b → s b a) {x y : Option α}
    (hxy : Opt r x y) : Opt s y x := by
  cases x <;> cases y
  · trivial
  · exact hxy
  · exact hxy
  · exact h _ _ hxy

theorem opt_cases {α : Type} {r : α → α → Prop} {x y : Option α} (h : Opt r x y) :
    (x = none ∧ y = none) ∨ ∃ a b, x = some a ∧ y = some b ∧ r a b := by
  cases x <;> cases y
  · exact .inl ⟨rfl, rfl⟩
  · exact h.elim
  · exact h.elim
  · exact .inr ⟨_, _, rfl, rfl, h⟩

theorem hasKey_iff {α : Type} (d : Dict α) (k : String) : Dict.has d k = true ↔ k ∈ Dict.keys d := by
  unfold Dict.has
  exact Dict.get?_isSome_iff d k

theorem Spec.SameItems.symm {α : Type} {r s : String → α → α → Prop}
    (h : ∀ k a b, r k a b → s k b a) {d d' : Dict α} (hd : SameItems r d d') :
    SameItems s d' d :=
  ⟨hd.2.1, hd.1, fun k => Opt.symm (h k) (hd.2.2 k)⟩

theorem Spec.SameItems.get {α : Type} {r : String → α → α → Prop} {d d' : Dict α}
    (h : SameItems r d d') {k : String} {v : α} (hk : Dict.get? d k = some v) :
    ∃ v', Dict.get? d' k = some v' ∧ r k v v' := by
  have := h.2.2 k
  rw [hk] at this
  cases h' : Dict.get? d' k with
  | none => rw [h'] at this; exact this.elim
  | some v' => rw [h'] at this; exact ⟨v', rfl, this⟩

theorem Spec.SameItems.getNone {α : Type} {r : String → α → α → Prop} {d d' : Dict α}
    (h : SameItems r d d') {k : String} (hk : Dict.get? d k = none) :
    Dict.get? d' k = none := by
  have := h.2.2 k
  rw [hk] at this
  cases h' : Dict.get? d' k with
  | none => rfl
  | some v' => rw [h'] at this; exact this.elim

theorem Spec.SameItems.mem {α : Type} {r : String → α → α → Prop} {d d' : Dict α}
    (h : SameItems r d d') {k : String} {v : α} (hm : (k, v) ∈ d') :
    ∃ v', (k, v') ∈ d ∧ r k v' v := by
  have hg := Dict.get?_of_mem h.2.1 hm
  have := h.2.2 k
  rw [hg] at this
  cases h' : Dict.get? d k with
  | none => rw [h'] at this; exact this.elim
  | some v' => rw [h'] at this; exact ⟨v', Dict.mem_of_get? h', this⟩

theorem Spec.SameItems.mem' {α : Type} {r : String → α → α → Prop} {d d' : Dict α}
    (h : SameItems r d d') {k : String} {v : α} (hm : (k, v) ∈ d) :
    ∃ v', (k, v') ∈ d' ∧ r k v v' := by
  obtain ⟨v', h1, h2⟩ := h.get (Dict.get?_of_mem h.1 hm)
  exact ⟨v', Dict.mem_of_get? h1, h2⟩

theorem opt_eq {α : Type} {x y : Option α} (h : Opt (fun a b => a = b) x y) : x = y := by
  cases x <;> cases y
  · rfl
  · exact h.elim
  · exact h.elim
  · exact congrArg some h

theorem get?_erase {α : Type} (d : Dict α) (hn : (Dict.keys d).Nodup) (k k' : String) :
    Dict.get? (Dict.erase d k) k' = if k = k' then none else Dict.get? d k' := by
  by_cases e : k = k'
  · subst e; simp [get?_erase_self d k hn]
  · rw [if_neg e]
    clear hn
    induction d with
    | nil => rfl
    | cons p d ih =>
      obtain ⟨a, v⟩ := p
      by_cases ea : a = k
      · subst ea; simp only [Dict.erase, if_pos, Dict.get?, if_neg e]
      · simp only [Dict.erase, if_neg ea, Dict.get?, ih]

theorem nodup_erase {α : Type} (d : Dict α) (k : String) (hn : (Dict.keys d).Nodup) :
    (Dict.keys (Dict.erase d k)).Nodup := by
  induction d with
  | nil => exact hn
  | cons p d ih =>
    obtain ⟨a, v⟩ := p
    simp only [Dict.keys, List.map_cons, List.nodup_cons] at hn
    by_cases ea : a = k
    · simp only [Dict.erase, if_pos ea]; exact hn.2
    · simp only [Dict.erase, if_neg ea, Dict.keys, List.map_cons, List.nodup_cons]
      exact ⟨fun h => hn.1 (keys_erase_sub d k a h), ih hn.2⟩

/-! ### Sections -/

theorem setParams_reordered (C : Conv F) (ok : String → Option (ParamDecl F))
    {ps ps' : Dict (PVal F)} (h : SameItems (fun _ a b => a = b) ps ps') {o : Obj F}
    (ho : setParams C ok {} ps = .ok o) :
    ∃ o', setParams C ok {} ps' = .ok o' ∧ SameValues o o' := by
  obtain ⟨o', ho'⟩ := (setParams_ok_iff C ok {} ps').2 (by
    intro k v dc hm hd
    obtain ⟨v', hm', rfl⟩ := h.mem hm
    exact (setParams_ok_iff C ok {} ps).1 ⟨o, ho⟩ k v' dc hm' hd)
  refine ⟨o', ho', fun k => ?_⟩
  obtain ⟨a1, a2⟩ := setParams_get? C ok {} o ps h.1 ho k
  obtain ⟨b1, b2⟩ := setParams_get? C ok {} o' ps' h.2.1 ho' k
  cases hok : ok k with
  | none => rw [a2 (.inr hok), b2 (.inr hok)]
  | some dc =>
    cases hg : Dict.get? ps k with
    | none =>
      have hg' := h.getNone hg
      rw [a2 (.inl fun v hm => by rw [Dict.get?_of_mem h.1 hm] at hg; cases hg),
        b2 (.inl fun v hm => by rw [Dict.get?_of_mem h.2.1 hm] at hg'; cases hg')]
    | some v =>
      obtain ⟨v', hg', rfl⟩ := h.get hg
      obtain ⟨x, hx, e⟩ := a1 v dc (Dict.mem_of_get? hg) hok
      obtain ⟨x', hx', e'⟩ := b1 v dc (Dict.mem_of_get? hg') hok
      rw [hx] at hx'; cases hx'
      rw [e, e']

theorem Spec.SameValues.refl (o : Obj F) : SameValues o o := fun _ => rfl

theorem Spec.EqSel.refl (c : CSel F) : EqSel c c := ⟨rfl, rfl, .refl _⟩

theorem Spec.EqDist.refl (c : CDist F) : EqDist c c := ⟨rfl, rfl, .refl _⟩

theorem firstItem_reordered {d d' : Dict (PVal F)}
    (hh : (Dict.keys d).head? = (Dict.keys d').head?)
    (h : SameItems (fun k a b => ParamsReordered a b ∧ (k = "is_rate" → a = b)) d d') {p : String × PVal F}
    (hp : firstItem d = .ok p) :
    ∃ v', firstItem d' = .ok (p.1, v') ∧ ParamsReordered p.2 v' := by
  cases d with
  | nil => cases hp
  | cons q d =>
    obtain ⟨k, v⟩ := q
    cases hp
    cases d' with
    | nil => cases hh
    | cons q' d' =>
      obtain ⟨k', v'⟩ := q'
      simp only [Dict.keys, List.map_cons, List.head?_cons, Option.some.injEq] at hh
      subst hh
      have := h.2.2 k
      simp only [Dict.get?, if_pos, Opt] at this
      exact ⟨v', rfl, this.1⟩

theorem loadDist_reordered (R : Registry F) (C : Conv F) {v v' : PVal F}
    (h : SectionReordered v v') {r : CDist F × DistCls F} (hr : loadDist R C v = .ok r) :
    ∃ r', loadDist R C v' = .ok r' ∧ EqDist r.1 r'.1 ∧ r.2 = r'.2 := by
  rcases h with rfl | ⟨d, d', rfl, rfl, hh, hs⟩
  · exact ⟨r, hr, .refl _, rfl⟩
  · unfold loadDist at hr ⊢
    obtain ⟨_, e, hr⟩ := (except_bind_ok_iff _ _ _).1 hr
    cases e
    obtain ⟨⟨nm, ps⟩, hf, hr⟩ := (except_bind_ok_iff _ _ _).1 hr
    obtain ⟨c, hc, hr⟩ := (except_bind_ok_iff _ _ _).1 hr
    obtain ⟨ps', hf', hps⟩ := firstItem_reordered hh hs hf
    simp only at hc hps hf' hr
    cases hct : c.ctorOk with
    | false => simp [hct, bind, Except.bind] at hr
    | true =>
      simp only [hct, Bool.not_true, Bool.false_eq_true, if_false] at hr
      obtain ⟨pi, hpi, hr⟩ := (except_bind_ok_iff _ _ _).1 hr
      obtain ⟨o, ho, hr⟩ := (except_bind_ok_iff _ _ _).1 hr
      cases hr
      have main : ∃ pi' o', ps'.items = .ok pi' ∧ setParams C (Dict.get? c.params) {} pi' = .ok o' ∧
          SameValues o o' := by
        rcases hps with rfl | ⟨q, q', rfl, rfl, hq⟩
        · exact ⟨pi, o, hpi, ho, .refl _⟩
        · cases hpi
          obtain ⟨o', h1, h2⟩ := setParams_reordered C _ hq ho
          exact ⟨q', o', rfl, h1, h2⟩
      obtain ⟨pi', o', g1, g2, g3⟩ := main
      refine ⟨({ cls := nm, obj := o', isRate := c.rate0 }, c), ?_, ⟨rfl, rfl, g3⟩, rfl⟩
      have e1 : (PVal.dict d').items = .ok d' := rfl
      simp only [e1, hf', hc, hct, g1, g2, bind, Except.bind, pure, Except.pure, Bool.not_true,
        Bool.false_eq_true, if_false]

theorem loadRate_reordered {v v' : PVal F} (h : SectionReordered v v')
    {x x' : CDist F × DistCls F} (h1 : EqDist x.1 x'.1) (h2 : x.2 = x'.2)
    {c : CDist F} (hc : loadRate v x = .ok c) :
    ∃ c', loadRate v' x' = .ok c' ∧ EqDist c c' := by
  unfold loadRate at hc ⊢
  rw [← h2]
  cases hk : x.2.cosmo with
  | false =>
    simp only [hk, Bool.false_eq_true, if_false] at hc ⊢
    cases hc
    exact ⟨_, rfl, h1⟩
  | true =>
    simp only [hk, if_true] at hc ⊢
    obtain ⟨t, ht, hc⟩ := (except_bind_ok_iff _ _ _).1 hc
    obtain ⟨r, hr, hc⟩ := (except_bind_ok_iff _ _ _).1 hc
    cases hc
    have main : ∃ t', v'.items = .ok t' ∧ lookup t' "is_rate" = .ok r := by
      rcases h with rfl | ⟨d, d', rfl, rfl, _, hd⟩
      · exact ⟨t, ht, hr⟩
      · cases ht
        rw [lookup_ok_iff] at hr
        obtain ⟨r', h1, _, h2⟩ := hd.get hr
        exact ⟨d', rfl, by rw [lookup_ok_iff, h1, h2 rfl]⟩
    obtain ⟨t', ht', hr'⟩ := main
    refine ⟨{ x'.1 with isRate := r }, ?_, ⟨h1.1, rfl, h1.2.2⟩⟩
    simp only [ht', hr', bind, Except.bind, pure, Except.pure]

theorem loadSel_reordered (R : Registry F) (C : Conv F) (own : Bool) (flag : SelFlags → SelFlags)
    {v v' : PVal F} (h : SectionReordered v v') {s : Option (CSel F)}
    (hs : loadSel R C own flag v = .ok s) :
    ∃ s', loadSel R C own flag v' = .ok s' ∧ Opt EqSel s s' := by
  rcases h with rfl | ⟨d, d', rfl, rfl, hh, hd⟩
  · refine ⟨s, hs, ?_⟩
    cases s
    · trivial
    · exact EqSel.refl _
  · simp only [loadSel] at hs ⊢
    obtain ⟨_, e, hs⟩ := (except_bind_ok_iff _ _ _).1 hs
    cases e
    obtain ⟨⟨nm, ps⟩, hf, hs⟩ := (except_bind_ok_iff _ _ _).1 hs
    obtain ⟨c, hc, hs⟩ := (except_bind_ok_iff _ _ _).1 hs
    obtain ⟨ps', hf', hps⟩ := firstItem_reordered hh hd hf
    simp only at hc hps hf' hs
    cases hct : c.ctorOk with
    | false => simp [hct, bind, Except.bind] at hs
    | true =>
      simp only [hct, Bool.not_true, Bool.false_eq_true, if_false] at hs
      obtain ⟨pi, hpi, hs⟩ := (except_bind_ok_iff _ _ _).1 hs
      obtain ⟨o, ho, hs⟩ := (except_bind_ok_iff _ _ _).1 hs
      cases hs
      have main : ∃ pi' o', paramItems ps' = .ok pi' ∧ setParams C
          (fun k => if own && !(k ∈ c.own) then none else Dict.get? c.params k) {} pi' = .ok o' ∧
          SameValues o o' := by
        rcases hps with rfl | ⟨q, q', rfl, rfl, hq⟩
        · exact ⟨pi, o, hpi, ho, .refl _⟩
        · cases hpi
          obtain ⟨o', h1, h2⟩ := setParams_reordered C _ hq ho
          exact ⟨q', o', rfl, h1, h2⟩
      obtain ⟨pi', o', g1, g2, g3⟩ := main
      refine ⟨some { cls := nm, obj := o', flags := flag c.flags0 }, ?_, ⟨rfl, rfl, g3⟩⟩
      have e1 : (PVal.dict d').items = .ok d' := rfl
      simp only [e1, hf', hc, hct, g1, g2, bind, Except.bind, pure, Except.pure, Bool.not_true,
        Bool.false_eq_true, if_false]

theorem loadOptSel_reordered (R : Registry F) (C : Conv F) (flag : SelFlags → SelFlags)
    {d d' : Dict (PVal F)} (h : Reordered d d') {k : String} (hk : k ≠ "auxiliary samplers")
    {s : Option (CSel F)} (hs : loadOptSel R C flag d k = .ok s) :
    ∃ s', loadOptSel R C flag d' k = .ok s' ∧ Opt EqSel s s' := by
  unfold loadOptSel at hs ⊢
  cases hg : Dict.get? d k with
  | none =>
    rw [h.getNone hg]
    rw [hg] at hs
    cases hs
    exact ⟨none, rfl, trivial⟩
  | some v =>
    obtain ⟨v', hg', hv⟩ := h.get hg
    rw [if_neg hk] at hv
    rw [hg']
    rw [hg] at hs
    exact loadSel_reordered R C false flag hv hs

theorem loadDists_reordered (R : Registry F) (C : Conv F) {d d' : Dict (PVal F)}
    (h : Reordered d d') {seed : Int} {sp : CDist F} {lum : Option (CDist F)}
    (hd : loadDists R C d = .ok (seed, sp, lum)) :
    ∃ sp' lum', loadDists R C d' = .ok (seed, sp', lum') ∧ EqDist sp sp' ∧ Opt EqDist lum lum' := by
  unfold loadDists at hd ⊢
  obtain ⟨l, hl, hd⟩ := (except_bind_ok_iff _ _ _).1 hd
  obtain ⟨sv, hsv, hd⟩ := (except_bind_ok_iff _ _ _).1 hd
  obtain ⟨x, hx, hd⟩ := (except_bind_ok_iff _ _ _).1 hd
  obtain ⟨spd, hspd, hd⟩ := (except_bind_ok_iff _ _ _).1 hd
  obtain ⟨sd, hsd, hd⟩ := (except_bind_ok_iff _ _ _).1 hd
  obtain ⟨n, hn, hd⟩ := (except_bind_ok_iff _ _ _).1 hd
  have hlum : ∃ l', loadLum R C d' = .ok l' ∧ Opt (fun a b => EqDist a.1 b.1 ∧ a.2 = b.2) l l' := by
    unfold loadLum at hl ⊢
    cases hg : Dict.get? d "luminosity distribution" with
    | none =>
      rw [h.getNone hg]
      rw [hg] at hl
      cases hl
      exact ⟨none, rfl, trivial⟩
    | some v =>
      obtain ⟨v', hg', hv⟩ := h.get hg
      rw [if_neg (by decide)] at hv
      rw [hg']
      rw [hg] at hl
      obtain ⟨r, hr, hl⟩ := (except_bind_ok_iff _ _ _).1 hl
      cases hl
      obtain ⟨r', g1, g2⟩ := loadDist_reordered R C hv hr
      exact ⟨some r', (except_bind_ok_iff _ _ _).2 ⟨r', g1, rfl⟩, g2⟩
  obtain ⟨l', hl', hll⟩ := hlum
  rw [lookup_ok_iff] at hsv hsd
  obtain ⟨sv', hsv', hv⟩ := h.get hsv
  rw [if_neg (by decide)] at hv
  obtain ⟨x', hx', e1, e2⟩ := loadDist_reordered R C hv hx
  obtain ⟨spd', hspd', e3⟩ := loadRate_reordered hv e1 e2 hspd
  obtain ⟨sd', hsd', hsv2⟩ := h.get hsd
  rw [if_neg (by decide)] at hsv2
  have hn' : C.int sd' = .ok n := by
    rcases hsv2 with rfl | ⟨q, q', rfl, rfl, _⟩
    · exact hn
    · cases hn
  cases hspa : x.2.spatial with
  | false => simp [hspa, bind, Except.bind] at hd
  | true =>
    simp only [hspa, Bool.not_true, Bool.false_eq_true, if_false] at hd
    have hgo : ∃ lum', (match l' with
        | none => (pure (n, spd', none) : Except Err (Int × CDist F × Option (CDist F)))
        | some l => do
          if !l.2.luminosity then .error .runtime
          pure (n, spd', some l.1)) = .ok (seed, spd', lum') ∧ sp = spd ∧ Opt EqDist lum lum' := by
      cases l with
      | none =>
        cases l' with
        | some b => exact hll.elim
        | none => cases hd; exact ⟨none, rfl, rfl, trivial⟩
      | some a =>
        cases l' with
        | none => exact hll.elim
        | some b =>
          cases hal : a.2.luminosity with
          | false => simp [hal, bind, Except.bind] at hd
          | true =>
            simp only [hal, Bool.not_true, Bool.false_eq_true, if_false] at hd
            cases hd
            refine ⟨some b.1, ?_, rfl, hll.1⟩
            have : b.2.luminosity = true := by rw [← hll.2]; exact hal
            simp only [this, Bool.not_true, Bool.false_eq_true, if_false]
            rfl
    obtain ⟨lum', g1, rfl, g3⟩ := hgo
    refine ⟨spd', lum', ?_, e3, g3⟩
    refine (except_bind_ok_iff _ _ _).2 ⟨l', hl', ?_⟩
    refine (except_bind_ok_iff _ _ _).2 ⟨sv', (lookup_ok_iff ..).2 hsv', ?_⟩
    refine (except_bind_ok_iff _ _ _).2 ⟨x', hx', ?_⟩
    refine (except_bind_ok_iff _ _ _).2 ⟨spd', hspd', ?_⟩
    refine (except_bind_ok_iff _ _ _).2 ⟨sd', (lookup_ok_iff ..).2 hsd', ?_⟩
    refine (except_bind_ok_iff _ _ _).2 ⟨n, hn', ?_⟩
    rw [← e2]
    simp only [hspa, Bool.not_true, Bool.false_eq_true, if_false]
    exact g1

theorem loadHead_reordered (R : Registry F) (C : Conv F) {d d' : Dict (PVal F)}
    (h : Reordered d d') {y : CSynth F} (hy : loadHead R C d = .ok y) :
    ∃ y', loadHead R C d' = .ok y' ∧ EqSynth y y' ∧ y.aux = [] ∧ y'.aux = [] ∧
      y.objs = [] ∧ y'.objs = [] ∧ y.derived = none ∧ y'.derived = none := by
  unfold loadHead at hy ⊢
  obtain ⟨⟨seed, sp, lum⟩, h1, hy⟩ := (except_bind_ok_iff _ _ _).1 hy
  obtain ⟨fs, h2, hy⟩ := (except_bind_ok_iff _ _ _).1 hy
  obtain ⟨ds, h3, hy⟩ := (except_bind_ok_iff _ _ _).1 hy
  obtain ⟨ss, h4, hy⟩ := (except_bind_ok_iff _ _ _).1 hy
  cases hy
  obtain ⟨sp', lum', g1, g2, g3⟩ := loadDists_reordered R C h h1
  obtain ⟨fs', i1, i2⟩ := loadOptSel_reordered R C _ h (by decide) h2
  obtain ⟨ds', j1, j2⟩ := loadOptSel_reordered R C _ h (by decide) h3
  obtain ⟨ss', k1, k2⟩ := loadOptSel_reordered R C _ h (by decide) h4
  refine ⟨{ seed, spatial := sp', lum := lum', fluxSel := fs', distSel := ds', spatSel := ss' },
    ?_, ?_, rfl, rfl, rfl, rfl, rfl, rfl⟩
  · refine (except_bind_ok_iff _ _ _).2 ⟨(seed, sp', lum'), g1, ?_⟩
    refine (except_bind_ok_iff _ _ _).2 ⟨fs', i1, ?_⟩
    refine (except_bind_ok_iff _ _ _).2 ⟨ds', j1, ?_⟩
    exact (except_bind_ok_iff _ _ _).2 ⟨ss', k1, rfl⟩
  · exact ⟨rfl, g2, g3, i2, j2, k2, fun _ => trivial, .refl _, rfl⟩

/-! ### Entries of samplers -/

theorem construct_fields (R : Registry F) (cls obj : String) (observed : PVal F)
    (init : List String) {c : CSampler F} (h : construct R cls obj observed init = .ok c) :
    c.secs = [] ∧ c.isSecondary = false := by
  unfold construct at h
  obtain ⟨k, _, h⟩ := (except_bind_ok_iff _ _ _).1 h
  repeat' split at h
  all_goals first | (cases h; exact ⟨rfl, rfl⟩) | cases h

/-- Two loaded entries: the same sampler and the same list of secondaries. -/
def EqLoaded (r r' : CSampler F × Option (List (Option String))) : Prop :=
  EqSampler r.1 r'.1 ∧ r.2 = r'.2 ∧ r.1.secs = [] ∧ r.1.isSecondary = false

theorem finishEntry_reordered (R : Registry F) (C : Conv F) (obj : String) (type obs : PVal F)
    (sec init : Option (PVal F)) {sel sel' : Option (PVal F)} {ps ps' : Dict (PVal F)}
    (hsel : Opt SectionReordered sel sel') (hps : SameItems (fun _ a b => a = b) ps ps')
    {r : CSampler F × Option (List (Option String))}
    (h : finishEntry R C obj type obs sel sec init ps = .ok r) :
    ∃ r', finishEntry R C obj type obs sel' sec init ps' = .ok r' ∧ EqLoaded r r' := by
  unfold finishEntry at h ⊢
  obtain ⟨s, h1, h⟩ := (except_bind_ok_iff _ _ _).1 h
  obtain ⟨i, h2, h⟩ := (except_bind_ok_iff _ _ _).1 h
  obtain ⟨cls, h3, h⟩ := (except_bind_ok_iff _ _ _).1 h
  obtain ⟨c, h4, h⟩ := (except_bind_ok_iff _ _ _).1 h
  obtain ⟨o, h5, h⟩ := (except_bind_ok_iff _ _ _).1 h
  obtain ⟨o', g1, g2⟩ := setParams_reordered C _ hps h5
  obtain ⟨q1, q2⟩ := construct_fields R cls obj obs i h4
  have main : ∃ r', (match sel' with
      | none => (pure ({ c with obj := o' }, s) :
          Except Err (CSampler F × Option (List (Option String))))
      | some v => do
        let s1 ← loadSel R C true (fun f => { f with obs := true }) v
        match s1 with
        | none => pure ({ c with obj := o' }, s)
        | some s1 => pure ({ c with obj := o', sel := s1 }, s)) = .ok r' ∧ EqLoaded r r' := by
    cases sel with
    | none =>
      cases sel' with
      | some v => exact hsel.elim
      | none =>
        cases h
        exact ⟨_, rfl, ⟨rfl, rfl, rfl, rfl, rfl, rfl, g2, .refl _⟩, rfl, q1, q2⟩
    | some v =>
      cases sel' with
      | none => exact hsel.elim
      | some v' =>
        obtain ⟨s1, k1, h⟩ := (except_bind_ok_iff _ _ _).1 h
        obtain ⟨s1', k2, k3⟩ := loadSel_reordered R C true _ hsel k1
        cases s1 with
        | none =>
          cases s1' with
          | some _ => exact k3.elim
          | none =>
            cases h
            exact ⟨_, (except_bind_ok_iff _ _ _).2 ⟨none, k2, rfl⟩,
              ⟨rfl, rfl, rfl, rfl, rfl, rfl, g2, .refl _⟩, rfl, q1, q2⟩
        | some a =>
          cases s1' with
          | none => exact k3.elim
          | some b =>
            cases h
            exact ⟨_, (except_bind_ok_iff _ _ _).2 ⟨some b, k2, rfl⟩,
              ⟨rfl, rfl, rfl, rfl, rfl, rfl, g2, k3⟩, rfl, q1, q2⟩
  obtain ⟨r', m1, m2⟩ := main
  refine ⟨r', ?_, m2⟩
  refine (except_bind_ok_iff _ _ _).2 ⟨s, h1, ?_⟩
  refine (except_bind_ok_iff _ _ _).2 ⟨i, h2, ?_⟩
  refine (except_bind_ok_iff _ _ _).2 ⟨cls, h3, ?_⟩
  refine (except_bind_ok_iff _ _ _).2 ⟨c, h4, ?_⟩
  exact (except_bind_ok_iff _ _ _).2 ⟨o', g1, m1⟩

/-- What is left of an entry. -/
def leftOver (d : Dict (PVal F)) : Dict (PVal F) :=
  ["type", "observed", "selection", "secondary", "init variables"].foldl Dict.erase d

theorem erase_of_none {α : Type} (d : Dict α) (k : String) (h : Dict.get? d k = none) :
    Dict.erase d k = d := by
  induction d with
  | nil => rfl
  | cons p d ih =>
    obtain ⟨a, v⟩ := p
    by_cases e : a = k
    · simp [Dict.get?, e] at h
    · simp only [Dict.get?, if_neg e] at h
      simp only [Dict.erase, if_neg e, ih h]

theorem popOpt_eq (k : String) (d : Dict (PVal F)) :
    popOpt k d = .ok (Dict.get? d k) (Dict.erase d k) := by
  unfold popOpt
  cases h : Dict.get? d k with
  | none => simp only; rw [erase_of_none d k h]
  | some v => rfl

theorem loadEntry_outcome (R : Registry F) (C : Conv F) (obj : String) (d : Dict (PVal F))
    (hn : (Dict.keys d).Nodup) :
    outcome (loadEntry R C obj d) = (do
      let t ← lookup d "type"
      let o ← lookup d "observed"
      finishEntry R C obj t o (Dict.get? d "selection") (Dict.get? d "secondary")
        (Dict.get? d "init variables") (leftOver d)) := by
  unfold loadEntry lookup
  rw [bind_apply]
  cases h1 : Dict.get? d "type" with
  | none => simp only [popKey, h1]; rfl
  | some t =>
    have n1 := nodup_erase d "type" hn
    have n2 := nodup_erase _ "observed" n1
    have n3 := nodup_erase _ "selection" n2
    have n4 := nodup_erase _ "secondary" n3
    simp only [popKey, h1, bind_apply]
    have e2 : Dict.get? (Dict.erase d "type") "observed" = Dict.get? d "observed" := by
      rw [get?_erase d hn]; rfl
    cases h2 : Dict.get? d "observed" with
    | none => rw [e2, h2]; rfl
    | some o =>
      rw [e2, h2]
      simp only [popOpt_eq, bind_apply, get_apply, liftE_apply]
      rw [get?_erase _ n3, get?_erase _ n2, get?_erase _ n2, get?_erase _ n1, get?_erase _ n1,
        get?_erase _ n1, get?_erase d hn, get?_erase d hn, get?_erase d hn]
      simp only [show ("secondary" = "init variables") = False by decide,
        show ("selection" = "init variables") = False by decide,
        show ("observed" = "init variables") = False by decide,
        show ("type" = "init variables") = False by decide,
        show ("selection" = "secondary") = False by decide,
        show ("observed" = "secondary") = False by decide,
        show ("type" = "secondary") = False by decide,
        show ("observed" = "selection") = False by decide,
        show ("type" = "selection") = False by decide, if_false]
      simp only [leftOver, List.foldl_cons, List.foldl_nil, bind, Except.bind]
      cases finishEntry R C obj t o (Dict.get? d "selection") (Dict.get? d "secondary")
        (Dict.get? d "init variables") _ <;> rfl

theorem leftOver_reordered {d d' : Dict (PVal F)}
    (h : SameItems (fun k a b => if k = "selection" then SectionReordered a b else a = b) d d') :
    SameItems (fun _ a b => a = b) (leftOver d) (leftOver d') := by
  have key : ∀ (l : List String) (d : Dict (PVal F)), (Dict.keys d).Nodup →
      (Dict.keys (l.foldl Dict.erase d)).Nodup ∧
      ∀ k, Dict.get? (l.foldl Dict.erase d) k = if k ∈ l then none else Dict.get? d k := by
    intro l
    induction l with
    | nil => intro d hd; exact ⟨hd, fun k => by simp⟩
    | cons a l ih =>
      intro d hd
      obtain ⟨i1, i2⟩ := ih _ (nodup_erase d a hd)
      refine ⟨i1, fun k => ?_⟩
      simp only [List.foldl_cons]
      rw [i2 k, get?_erase d hd]
      by_cases e1 : k ∈ l <;> by_cases e2 : a = k
      · simp [e1]
      · simp [e1]
      · simp [e2]
      · simp [e1, e2, Ne.symm e2]
  obtain ⟨a1, a2⟩ := key ["type", "observed", "selection", "secondary", "init variables"] d h.1
  obtain ⟨b1, b2⟩ := key ["type", "observed", "selection", "secondary", "init variables"] d' h.2.1
  refine ⟨a1, b1, fun k => ?_⟩
  unfold leftOver
  rw [a2 k, b2 k]
  by_cases e : k ∈ ["type", "observed", "selection", "secondary", "init variables"]
  · rw [if_pos e, if_pos e]; trivial
  · rw [if_neg e, if_neg e]
    have := h.2.2 k
    have hk : k ≠ "selection" := by rintro rfl; exact e (by decide)
    simp only [if_neg hk] at this
    exact this

theorem onEntry_reordered (R : Registry F) (C : Conv F) (obj : String) {v v' : PVal F}
    (h : EntryReordered v v') {r : CSampler F × Option (List (Option String))}
    (hr : (onEntry R C obj v).1 = .ok r) :
    ∃ r', (onEntry R C obj v').1 = .ok r' ∧ EqLoaded r r' := by
  obtain ⟨d, d', rfl, rfl, hd⟩ := h
  have out : ∀ d, (onEntry R C obj (.dict d)).1 = outcome (loadEntry R C obj d) := by
    intro d
    simp only [onEntry]
    cases loadEntry R C obj d <;> rfl
  rw [out] at hr ⊢
  rw [loadEntry_outcome R C obj _ hd.1] at hr
  rw [loadEntry_outcome R C obj _ hd.2.1]
  obtain ⟨t, h1, hr⟩ := (except_bind_ok_iff _ _ _).1 hr
  obtain ⟨o, h2, hr⟩ := (except_bind_ok_iff _ _ _).1 hr
  rw [lookup_ok_iff] at h1 h2
  obtain ⟨t', g1, e1⟩ := hd.get h1
  obtain ⟨o', g2, e2⟩ := hd.get h2
  rw [if_neg (by decide)] at e1 e2
  subst e1; subst e2
  have same : ∀ k, k ≠ "selection" → Dict.get? d' k = Dict.get? d k := by
    intro k hk
    have := hd.2.2 k
    simp only [if_neg hk] at this
    exact (opt_eq this).symm
  have hsel : Opt SectionReordered (Dict.get? d "selection") (Dict.get? d' "selection") := by
    have := hd.2.2 "selection"
    simp only [if_true] at this
    exact this
  obtain ⟨r', k1, k2⟩ := finishEntry_reordered R C obj t o _ _ hsel (leftOver_reordered hd) hr
  refine ⟨r', ?_, k2⟩
  refine (except_bind_ok_iff _ _ _).2 ⟨t, (lookup_ok_iff ..).2 g1, ?_⟩
  refine (except_bind_ok_iff _ _ _).2 ⟨o, (lookup_ok_iff ..).2 g2, ?_⟩
  rw [same "secondary" (by decide), same "init variables" (by decide)]
  exact k1

theorem loadEntries_iff (R : Registry F) (C : Conv F) (es : Dict (PVal F)) :
    ((∃ rs, (loadEntries R C es).1 = .ok rs) ↔
      ∀ k v, (k, v) ∈ es → ∃ r, (onEntry R C k v).1 = .ok r) ∧
    ∀ rs, (loadEntries R C es).1 = .ok rs → Dict.keys rs = Dict.keys es ∧
      ∀ k r, (k, r) ∈ rs → ∃ v, (k, v) ∈ es ∧ (onEntry R C k v).1 = .ok r := by
  induction es with
  | nil =>
    refine ⟨⟨fun _ k v hm => (by simp at hm), fun _ => ⟨[], rfl⟩⟩, fun rs h => ?_⟩
    cases h
    exact ⟨rfl, fun k r hm => by simp at hm⟩
  | cons p es ih =>
    obtain ⟨k, v⟩ := p
    simp only [loadEntries]
    cases ho : onEntry R C k v with
    | mk a w =>
      cases a with
      | error e =>
        refine ⟨⟨fun h => ?_, fun h => ?_⟩, fun rs h => ?_⟩
        · obtain ⟨rs, h⟩ := h; cases h
        · obtain ⟨r, hr⟩ := h k v (List.mem_cons_self ..)
          rw [ho] at hr; cases hr
        · cases h
      | ok r =>
        cases hl : loadEntries R C es with
        | mk b w' =>
          rw [hl] at ih
          cases b with
          | error e =>
            refine ⟨⟨fun h => ?_, fun h => ?_⟩, fun rs h => ?_⟩
            · obtain ⟨rs, h⟩ := h; cases h
            · obtain ⟨rs, hr⟩ := ih.1.2 fun k' v' hm => h k' v' (List.mem_cons_of_mem _ hm)
              cases hr
            · cases h
          | ok rs =>
            refine ⟨⟨fun _ => ?_, fun _ => ⟨_, rfl⟩⟩, fun rs' h => ?_⟩
            · intro k' v' hm
              rcases List.mem_cons.1 hm with e | hm
              · cases e; exact ⟨r, by rw [ho]⟩
              · exact ih.1.1 ⟨rs, rfl⟩ k' v' hm
            · cases h
              obtain ⟨i1, i2⟩ := ih.2 rs rfl
              refine ⟨by simp only [Dict.keys, List.map_cons] at i1 ⊢; rw [i1], ?_⟩
              intro k' r' hm
              rcases List.mem_cons.1 hm with e | hm
              · cases e; exact ⟨v, List.mem_cons_self .., by rw [ho]⟩
              · obtain ⟨v', j1, j2⟩ := i2 k' r' hm
                exact ⟨v', List.mem_cons_of_mem _ j1, j2⟩

theorem loadEntries_reordered (R : Registry F) (C : Conv F) {es es' : Dict (PVal F)}
    (h : SameItems (fun _ => EntryReordered) es es')
    {rs : Dict (CSampler F × Option (List (Option String)))}
    (hrs : (loadEntries R C es).1 = .ok rs) :
    ∃ rs', (loadEntries R C es').1 = .ok rs' ∧ SameItems (fun _ => EqLoaded) rs rs' := by
  obtain ⟨a1, a2⟩ := loadEntries_iff R C es
  obtain ⟨b1, b2⟩ := loadEntries_iff R C es'
  obtain ⟨k1, k2⟩ := a2 rs hrs
  obtain ⟨rs', hrs'⟩ := b1.2 (by
    intro k v hm
    obtain ⟨v', hm', hv⟩ := h.mem hm
    obtain ⟨r, hr⟩ := a1.1 ⟨rs, hrs⟩ k v' hm'
    obtain ⟨r', hr', _⟩ := onEntry_reordered R C k hv hr
    exact ⟨r', hr'⟩)
  obtain ⟨l1, l2⟩ := b2 rs' hrs'
  have n1 : (Dict.keys rs).Nodup := by rw [k1]; exact h.1
  have n2 : (Dict.keys rs').Nodup := by rw [l1]; exact h.2.1
  refine ⟨rs', hrs', n1, n2, fun k => ?_⟩
  cases hg : Dict.get? rs k with
  | none =>
    rw [Dict.get?_eq_none_iff, k1, ← Dict.get?_eq_none_iff] at hg
    have := h.getNone hg
    rw [Dict.get?_eq_none_iff, ← l1, ← Dict.get?_eq_none_iff] at this
    rw [this]; trivial
  | some r =>
    obtain ⟨v, hm, hr⟩ := k2 k r (Dict.mem_of_get? hg)
    obtain ⟨v', hm', hv⟩ := h.mem' hm
    obtain ⟨r', hr', he⟩ := onEntry_reordered R C k hv hr
    cases hg' : Dict.get? rs' k with
    | none =>
      rw [Dict.get?_eq_none_iff, l1] at hg'
      exact (hg' (List.mem_map.2 ⟨_, hm', rfl⟩)).elim
    | some r2 =>
      obtain ⟨v2, hm2, hr2⟩ := l2 k r2 (Dict.mem_of_get? hg')
      have e1 := Dict.get?_of_mem h.2.1 hm'
      rw [Dict.get?_of_mem h.2.1 hm2] at e1
      cases e1
      rw [hr'] at hr2
      cases hr2
      exact he

/-! ### Attaching -/

/-- Is the sampler at this address a derived luminosity sampler? -/
def derivedAt (R : Registry F) (objs : Dict (CSampler F)) (k : String) : Bool :=
  match Dict.get? objs k with
  | none => false
  | some c => R.derived c.cls

/-- The last one wins. -/
def lastOr (l : List String) (x : Option String) : Option String :=
  match l.getLast? with
  | none => x
  | some k => some k

theorem lastOr_cons (k : String) (l : List String) (x : Option String) :
    lastOr (k :: l) x = lastOr l (some k) := by
  unfold lastOr
  cases l with
  | nil => rfl
  | cons a l => simp [List.getLast?_cons]

theorem attach_fold (R : Registry F) (l : List String) (y y' : CSynth F)
    (hex : ∀ k ∈ l, ∃ c, Dict.get? y.objs k = some c ∧
      (R.derived c.cls = false → c.isSecondary = false)) :
    l.foldlM (attachOne R) y = .ok y' ↔
      ((l.filter fun k => !derivedAt R y.objs k).map (nameAt y.objs)).Nodup ∧
      (∀ k ∈ l.filter fun k => !derivedAt R y.objs k, nameAt y.objs k ∉ Dict.keys y.aux) ∧
      y' = { y with
        aux := y.aux ++ (l.filter fun k => !derivedAt R y.objs k).map fun k => (nameAt y.objs k, k)
        derived := lastOr (l.filter (derivedAt R y.objs)) y.derived } := by
  induction l generalizing y with
  | nil =>
    simp only [List.foldlM_nil, pure, Except.pure, Except.ok.injEq, List.filter_nil, List.map_nil,
      List.nodup_nil, List.not_mem_nil, false_implies, implies_true, true_and, List.append_nil]
    exact ⟨fun h => h ▸ rfl, fun h => h ▸ rfl⟩
  | cons k l ih =>
    obtain ⟨c, hc, hs⟩ := hex k (List.mem_cons_self ..)
    have hlook : lookup y.objs k = .ok c := (lookup_ok_iff ..).2 hc
    have hnm : nameAt y.objs k = c.name := by unfold nameAt; rw [hc]
    rw [List.foldlM_cons]
    cases hd : R.derived c.cls with
    | true =>
      have hda : derivedAt R y.objs k = true := by unfold derivedAt; rw [hc]; exact hd
      have h1 : attachOne R y k = .ok { y with derived := some k } := by
        simp only [attachOne, hlook, hd, bind, Except.bind, pure, Except.pure, if_true]
      rw [h1]
      have := ih { y with derived := some k } fun k' hk' => hex k' (List.mem_cons_of_mem _ hk')
      simp only [bind, Except.bind]
      rw [this]
      simp only [List.filter_cons, hda, Bool.not_true, Bool.false_eq_true, if_false, if_true,
        lastOr_cons]
    | false =>
      have hda : derivedAt R y.objs k = false := by unfold derivedAt; rw [hc]; exact hd
      simp only [List.filter_cons, hda, Bool.not_false, Bool.false_eq_true, if_false, if_true,
        List.map_cons, List.nodup_cons]
      by_cases hm : c.name ∈ Dict.keys y.aux
      · have hhas : Dict.has y.aux c.name = true := (hasKey_iff _ _).2 hm
        have h1 : attachOne R y k = .error .runtime := by
          simp only [attachOne, hlook, hd, hs hd, hhas, bind, Except.bind, Bool.false_eq_true,
            if_false, if_true]
        rw [h1]
        constructor
        · intro h; cases h
        · rintro ⟨_, h, _⟩
          exact absurd (by rw [hnm]; exact hm) (h k (List.mem_cons_self ..))
      · have hhas : Dict.has y.aux c.name = false := by
          cases hb : Dict.has y.aux c.name with
          | false => rfl
          | true => exact absurd ((hasKey_iff _ _).1 hb) hm
        have h1 : attachOne R y k = .ok { y with aux := y.aux ++ [(c.name, k)] } := by
          simp only [attachOne, hlook, hd, hs hd, hhas, bind, Except.bind, Bool.false_eq_true,
            if_false, pure, Except.pure, Dict.set_append_of_not_mem _ _ _ hm]
        rw [h1]
        have := ih { y with aux := y.aux ++ [(c.name, k)] } fun k' hk' =>
          hex k' (List.mem_cons_of_mem _ hk')
        simp only [bind, Except.bind]
        rw [this]
        simp only [hnm, List.append_assoc, List.singleton_append]
        constructor
        · rintro ⟨a1, a2, rfl⟩
          refine ⟨⟨?_, a1⟩, ?_, rfl⟩
          · intro hmem
            obtain ⟨k', hk', e⟩ := List.mem_map.1 hmem
            exact a2 k' hk' (by rw [e]; simp [Dict.keys])
          · intro k' hk'
            rcases List.mem_cons.1 hk' with rfl | hk'
            · rw [hnm]; exact hm
            · exact fun h => a2 k' hk' (by
                simp only [Dict.keys, List.map_append, List.mem_append] at h ⊢; exact .inl h)
        · rintro ⟨⟨b1, b2⟩, b3, rfl⟩
          refine ⟨b2, ?_, rfl⟩
          intro k' hk' hmem
          simp only [Dict.keys, List.map_append, List.map_cons, List.map_nil, List.mem_append,
            List.mem_singleton] at hmem
          rcases hmem with hmem | hmem
          · exact b3 k' (List.mem_cons_of_mem _ hk') hmem
          · exact b1 (List.mem_map.2 ⟨k', hk', hmem⟩)

theorem active_sub (l : List (Option String)) (s : String) (h : s ∈ active l) : some s ∈ l := by
  induction l with
  | nil => simp [active] at h
  | cons x l ih =>
    cases x with
    | none => simp [active] at h
    | some a =>
      simp only [active, List.mem_cons] at h
      rcases h with rfl | h
      · exact List.mem_cons_self ..
      · exact List.mem_cons_of_mem _ (ih h)

/-- The lists of secondaries in the loaded entries. -/
def listsOf (rs : Dict (CSampler F × Option (List (Option String)))) :
    List (String × List (Option String)) :=
  rs.filterMap fun p => p.2.2.map fun l => (p.1, l)

theorem mem_listsOf (rs : Dict (CSampler F × Option (List (Option String)))) (k : String)
    (l : List (Option String)) : (k, l) ∈ listsOf rs ↔ ∃ c, (k, (c, some l)) ∈ rs := by
  unfold listsOf
  rw [List.mem_filterMap]
  constructor
  · rintro ⟨⟨k', c, o⟩, hm, he⟩
    cases o with
    | none => cases he
    | some l' => cases he; exact ⟨c, hm⟩
  · rintro ⟨c, hm⟩
    exact ⟨_, hm, rfl⟩

theorem listsOf_keys_sub (rs : Dict (CSampler F × Option (List (Option String)))) (k : String)
    (h : k ∈ (listsOf rs).map Prod.fst) : k ∈ Dict.keys rs := by
  obtain ⟨⟨k', l⟩, hm, rfl⟩ := List.mem_map.1 h
  obtain ⟨c, hc⟩ := (mem_listsOf rs k' l).1 hm
  exact List.mem_map.2 ⟨_, hc, rfl⟩

theorem nodup_listsOf (rs : Dict (CSampler F × Option (List (Option String))))
    (h : (Dict.keys rs).Nodup) : ((listsOf rs).map Prod.fst).Nodup := by
  induction rs with
  | nil => simp [listsOf]
  | cons p rs ih =>
    obtain ⟨k, c, o⟩ := p
    simp only [Dict.keys, List.map_cons, List.nodup_cons] at h
    cases o with
    | none => exact ih h.2
    | some l =>
      have e : listsOf ((k, (c, some l)) :: rs) = (k, l) :: listsOf rs := rfl
      rw [e]
      simp only [List.map_cons, List.nodup_cons]
      exact ⟨fun hm => h.1 (listsOf_keys_sub rs k hm), ih h.2⟩

theorem get?_map_fst (rs : Dict (CSampler F × Option (List (Option String)))) (k : String) :
    Dict.get? (rs.map fun p => (p.1, p.2.1)) k = (Dict.get? rs k).map (·.1) := by
  induction rs with
  | nil => rfl
  | cons p rs ih =>
    obtain ⟨a, c, o⟩ := p
    by_cases e : a = k
    · simp [Dict.get?, e]
    · simp [Dict.get?, e, ih]

theorem keys_map_fst (rs : Dict (CSampler F × Option (List (Option String)))) :
    Dict.keys (rs.map fun p => (p.1, p.2.1)) = Dict.keys rs := by
  simp [Dict.keys, List.map_map, Function.comp_def]

theorem mem_listsOf_reordered {rs rs' : Dict (CSampler F × Option (List (Option String)))}
    (h : SameItems (fun _ => EqLoaded) rs rs') (k : String) (l : List (Option String)) :
    (k, l) ∈ listsOf rs ↔ (k, l) ∈ listsOf rs' := by
  rw [mem_listsOf, mem_listsOf]
  constructor
  · rintro ⟨c, hm⟩
    obtain ⟨⟨c', o⟩, hm', he⟩ := h.mem' hm
    have : some l = o := he.2.1
    subst this
    exact ⟨c', hm'⟩
  · rintro ⟨c, hm⟩
    obtain ⟨⟨c', o⟩, hm', he⟩ := h.mem hm
    have : o = some l := he.2.1
    subst this
    exact ⟨c', hm'⟩

theorem nodup_perm {l l' : List String} (h : l.Nodup) (h' : l'.Nodup) (hm : ∀ a, a ∈ l ↔ a ∈ l') :
    l.Perm l' := (List.perm_ext_iff_of_nodup h h').2 hm

theorem perm_small {l l' : List String} (hp : l.Perm l') (hn : l.Nodup)
    (h : ∀ a ∈ l, ∀ b ∈ l, a = b) : l = l' := by
  cases l with
  | nil => exact (List.Perm.nil_eq hp)
  | cons a l =>
    cases l with
    | nil => exact (List.perm_singleton.1 hp.symm).symm
    | cons b l =>
      have := h a (by simp) b (by simp)
      subst this
      simp at hn

theorem attach_reordered (R : Registry F) {y0 y0' y : CSynth F}
    {rs rs' : Dict (CSampler F × Option (List (Option String)))}
    (hy0 : EqSynth y0 y0') (ha : y0.aux = []) (ha' : y0'.aux = []) (hd0 : y0.derived = none)
    (hd0' : y0'.derived = none) (h : SameItems (fun _ => EqLoaded) rs rs')
    (hy : attach R y0 rs = .ok y)
    (hder : ∀ i j, derivedAt R y.objs i = true → derivedAt R y.objs j = true → i = j) :
    ∃ y', attach R y0' rs' = .ok y' ∧ EqSynth y y' := by
  unfold attach at hy ⊢
  obtain ⟨objs, hl, hf⟩ := (except_bind_ok_iff _ _ _).1 hy
  change linkEntries (listsOf rs) _ = _ at hl
  change List.foldlM (attachOne R) _ ((rs.map (·.1)).filter fun k =>
    !(k ∈ ((listsOf rs).flatMap (·.2)).filterMap id)) = _ at hf
  have hkeys : ∀ k, k ∈ Dict.keys rs ↔ k ∈ Dict.keys rs' := by
    intro k
    rw [← Dict.get?_isSome_iff, ← Dict.get?_isSome_iff]
    rcases opt_cases (h.2.2 k) with ⟨h1, h2⟩ | ⟨a, b, h1, h2, _⟩
    · rw [h1, h2]
    · rw [h1, h2]; simp
  have hlists := mem_listsOf_reordered h
  have hlk := (linkEntries_spec (listsOf rs) (rs.map fun p => (p.1, p.2.1))).2 objs hl
  have hlok := (linkEntries_spec (listsOf rs) (rs.map fun p => (p.1, p.2.1))).1.1 ⟨objs, hl⟩
  obtain ⟨objs', hl'⟩ := (linkEntries_spec (listsOf rs') (rs'.map fun p => (p.1, p.2.1))).1.2 (by
    intro p l hm s hs
    have := hlok p l ((hlists p l).2 hm) s hs
    rw [keys_map_fst, hkeys, hkeys] at this
    rw [keys_map_fst]
    exact this)
  have hlk' := (linkEntries_spec (listsOf rs') (rs'.map fun p => (p.1, p.2.1))).2 objs' hl'
  -- names
  have hname0 : nameAt (rs.map fun p => (p.1, p.2.1)) = nameAt (rs'.map fun p => (p.1, p.2.1)) := by
    funext k
    unfold nameAt
    rw [get?_map_fst, get?_map_fst]
    rcases opt_cases (h.2.2 k) with ⟨h1, h2⟩ | ⟨a, b, h1, h2, hr⟩
    · rw [h1, h2]
    · rw [h1, h2]; exact hr.1.2.1
  -- secondaries
  have hact : ∀ k, k ∈ ((listsOf rs).flatMap fun q => active q.2) ↔
      k ∈ ((listsOf rs').flatMap fun q => active q.2) := by
    intro k
    rw [List.mem_flatMap, List.mem_flatMap]
    constructor
    · rintro ⟨⟨p, l⟩, h1, h2⟩; exact ⟨(p, l), (hlists p l).1 h1, h2⟩
    · rintro ⟨⟨p, l⟩, h1, h2⟩; exact ⟨(p, l), (hlists p l).2 h1, h2⟩
  have hdrop : ∀ k, k ∈ ((listsOf rs).flatMap (·.2)).filterMap id ↔
      k ∈ ((listsOf rs').flatMap (·.2)).filterMap id := by
    intro k
    simp only [List.mem_filterMap, List.mem_flatMap, id_eq]
    constructor
    · rintro ⟨x, ⟨⟨p, l⟩, h1, h2⟩, h3⟩; exact ⟨x, ⟨(p, l), (hlists p l).1 h1, h2⟩, h3⟩
    · rintro ⟨x, ⟨⟨p, l⟩, h1, h2⟩, h3⟩; exact ⟨x, ⟨(p, l), (hlists p l).2 h1, h2⟩, h3⟩
  have hsecs : ∀ nm k d, secsAll nm (listsOf rs) k d = secsAll nm (listsOf rs') k d := by
    intro nm k d
    by_cases hm : k ∈ (listsOf rs).map Prod.fst
    · obtain ⟨⟨k', l⟩, hm', rfl⟩ := List.mem_map.1 hm
      rw [secsAll_mem nm _ k' l d (nodup_listsOf rs h.1) hm',
        secsAll_mem nm _ k' l d (nodup_listsOf rs' h.2.1) ((hlists k' l).1 hm')]
    · rw [secsAll_not_mem nm _ k d hm, secsAll_not_mem nm _ k d (by
        intro hm'
        obtain ⟨⟨k', l⟩, hm'', rfl⟩ := List.mem_map.1 hm'
        exact hm (List.mem_map.2 ⟨(k', l), (hlists k' l).2 hm'', rfl⟩))]
  -- the linked samplers
  have hobjs : ∀ k, Opt EqSampler (Dict.get? objs k) (Dict.get? objs' k) := by
    intro k
    cases hk : Dict.get? rs k with
    | none =>
      have hk' := h.getNone hk
      have e1 : Dict.get? objs k = none := by
        rw [Dict.get?_eq_none_iff, hlk.keys, keys_map_fst, ← Dict.get?_eq_none_iff]; exact hk
      have e2 : Dict.get? objs' k = none := by
        rw [Dict.get?_eq_none_iff, hlk'.keys, keys_map_fst, ← Dict.get?_eq_none_iff]; exact hk'
      rw [e1, e2]; trivial
    | some r =>
      obtain ⟨r', hk', hr⟩ := h.get hk
      obtain ⟨c, g1, g2, g3, g4⟩ := hlk.get k r.1 (by rw [get?_map_fst, hk]; rfl)
      obtain ⟨c', g1', g2', g3', g4'⟩ := hlk'.get k r'.1 (by rw [get?_map_fst, hk']; rfl)
      rw [g1, g1']
      obtain ⟨a1, a2, a3, a4, a5, a6, a7, a8⟩ := hr.1
      obtain ⟨b1, b2, b3, b4, b5, b6⟩ := g2
      obtain ⟨b1', b2', b3', b4', b5', b6'⟩ := g2'
      refine ⟨?_, ?_, ?_, ?_, ?_, ?_, ?_, ?_⟩
      · rw [b1, b1', a1]
      · rw [b2, b2', a2]
      · rw [b3, b3', a3]
      · rw [b4, b4', a4]
      · rw [g3, g3', a5, hname0, hsecs]
      · rw [g4, g4', a6]
        congr 1
        rw [decide_eq_decide]
        exact hact k
      · rw [b5, b5']; exact a7
      · rw [b6, b6']; exact a8
  have hname : nameAt objs = nameAt objs' := by rw [hlk.nameAt, hlk'.nameAt, hname0]
  have hderAt : derivedAt R objs = derivedAt R objs' := by
    funext k
    unfold derivedAt
    rcases opt_cases (hobjs k) with ⟨h1, h2⟩ | ⟨a, b, h1, h2, hr⟩
    · rw [h1, h2]
    · rw [h1, h2]; simp only [hr.1]
  -- the roots
  have hex : ∀ (rs : Dict (CSampler F × Option (List (Option String)))) (objs : Dict (CSampler F)),
      (∀ k r, Dict.get? rs k = some r → r.1.isSecondary = false) →
      Linked (rs.map fun p => (p.1, p.2.1)) objs
        (secsAll (nameAt (rs.map fun p => (p.1, p.2.1))) (listsOf rs))
        ((listsOf rs).flatMap fun q => active q.2) →
      ∀ k ∈ ((rs.map (·.1)).filter fun k =>
        !(k ∈ ((listsOf rs).flatMap (·.2)).filterMap id)),
      ∃ c, Dict.get? objs k = some c ∧ (R.derived c.cls = false → c.isSecondary = false) := by
    intro rs objs hsec hlk k hk
    rw [List.mem_filter] at hk
    obtain ⟨hk1, hk2⟩ := hk
    obtain ⟨r, hr⟩ := Option.isSome_iff_exists.1 ((Dict.get?_isSome_iff rs k).2 hk1)
    obtain ⟨c, g1, g2, g3, g4⟩ := hlk.get k r.1 (by rw [get?_map_fst, hr]; rfl)
    refine ⟨c, g1, fun _ => ?_⟩
    rw [g4, hsec k r hr, Bool.false_or, decide_eq_false_iff_not]
    intro hm
    obtain ⟨⟨p, l⟩, hp, hq⟩ := List.mem_flatMap.1 hm
    have hin : k ∈ ((listsOf rs).flatMap (·.2)).filterMap id :=
      List.mem_filterMap.2 ⟨some k, List.mem_flatMap.2 ⟨(p, l), hp, active_sub l k hq⟩, rfl⟩
    rw [decide_eq_true hin] at hk2
    cases hk2
  have hs1 : ∀ k r, Dict.get? rs k = some r → r.1.isSecondary = false := by
    intro k r hr
    obtain ⟨r', _, hr'⟩ := h.get hr
    exact hr'.2.2.2
  have hs2 : ∀ k r, Dict.get? rs' k = some r → r.1.isSecondary = false := by
    intro k r hr
    obtain ⟨r', _, hr'⟩ := h.mem (Dict.mem_of_get? hr)
    rw [← hr'.1.2.2.2.2.2.1]; exact hr'.2.2.2
  have hroots : ((rs.map (·.1)).filter fun k =>
        !(k ∈ ((listsOf rs).flatMap (·.2)).filterMap id)).Perm
      ((rs'.map (·.1)).filter fun k =>
        !(k ∈ ((listsOf rs').flatMap (·.2)).filterMap id)) := by
    refine nodup_perm (List.Pairwise.filter _ h.1) (List.Pairwise.filter _ h.2.1) fun k => ?_
    rw [List.mem_filter, List.mem_filter]
    refine and_congr (hkeys k) ?_
    rw [Bool.not_eq_true', Bool.not_eq_true', decide_eq_false_iff_not, decide_eq_false_iff_not,
      hdrop]
  have hex1 := hex rs objs hs1 hlk
  have hex2 := hex rs' objs' hs2 hlk'
  have hndr : ((rs.map (·.1)).filter fun k =>
        !(k ∈ ((listsOf rs).flatMap (·.2)).filterMap id)).Nodup := List.Pairwise.filter _ h.1
  generalize ((rs.map (·.1)).filter fun k =>
        !(k ∈ ((listsOf rs).flatMap (·.2)).filterMap id)) = roots at *
  generalize hroots' : ((rs'.map (·.1)).filter fun k =>
        !(k ∈ ((listsOf rs').flatMap (·.2)).filterMap id)) = roots' at *
  obtain ⟨f1, f2, f3⟩ := (attach_fold R roots { y0 with objs := objs } y hex1).1 hf
  simp only [ha, hd0, List.nil_append] at f1 f2 f3
  have hplain : (roots.filter fun k => !derivedAt R objs k).Perm
      (roots'.filter fun k => !derivedAt R objs' k) := by
    rw [← hderAt]; exact hroots.filter _
  have hderl : roots.filter (derivedAt R objs) = roots'.filter (derivedAt R objs') := by
    rw [← hderAt]
    refine perm_small (hroots.filter _) (List.Pairwise.filter _ hndr) ?_
    intro a ha b hb
    rw [List.mem_filter] at ha hb
    rw [f3] at hder
    exact hder a b ha.2 hb.2
  refine ⟨{ y0' with
      objs := objs'
      aux := (roots'.filter fun k => !derivedAt R objs' k).map fun k => (nameAt objs' k, k)
      derived := lastOr (roots'.filter (derivedAt R objs')) none }, ?_, ?_⟩
  · refine (except_bind_ok_iff _ _ _).2 ⟨objs', hl', ?_⟩
    have := (attach_fold R roots' { y0' with objs := objs' } { y0' with
      objs := objs'
      aux := (roots'.filter fun k => !derivedAt R objs' k).map fun k => (nameAt objs' k, k)
      derived := lastOr (roots'.filter (derivedAt R objs')) none } hex2).2 ?_
    · rw [← this, ← hroots']; rfl
    · simp only [ha', hd0', List.nil_append]
      refine ⟨?_, fun k _ => by simp [Dict.keys], trivial⟩
      rw [← hname]
      exact (hplain.map _).nodup f1
  · rw [f3]
    refine ⟨hy0.seed, hy0.spatial, hy0.lum, hy0.fluxSel, hy0.distSel, hy0.spatSel, hobjs, ?_, ?_⟩
    · simp only [hname]
      exact hplain.map _
    · simp only [hderl]

/-- **C43** (partial): the order of the keys of a configuration does not matter.  If `d'` has
the same content as `d`, in any order, `from_dict` succeeds for both and gives the same
synthesizer, except for the order in which the samplers are attached.  The full claim has
neither the assumption that the first key of every distribution and selection section stays
first (false otherwise, `C43_violated_first`) nor the exception for the order of the samplers
(`C43_violated_order`) nor the assumption of at most one derived luminosity sampler
(`C43_violated_derived`). -/
theorem C43_order_partial (R : Registry F) (C : Conv F) (d d' e : Dict (PVal F)) (y : CSynth F)
    (h : Reordered d d') (hy : fromDict R C d = .ok y e)
    (hder : ∀ i j, derivedAt R y.objs i = true → derivedAt R y.objs j = true → i = j) :
    ∃ y' e', fromDict R C d' = .ok y' e' ∧ EqSynth y y' := by
  rw [fromDict_eq] at hy ⊢
  unfold fromDictD at hy ⊢
  cases hh : loadHead R C d with
  | error e => rw [hh] at hy; cases hy
  | ok y0 =>
    rw [hh] at hy
    obtain ⟨y0', h0, heq, a1, a2, o1, o2, d1, d2⟩ := loadHead_reordered R C h hh
    rw [h0]
    simp only at hy ⊢
    cases hg : Dict.get? d "auxiliary samplers" with
    | none =>
      rw [hg] at hy
      rw [h.getNone hg]
      cases hy
      exact ⟨y0', d', rfl, heq⟩
    | some v =>
      rw [hg] at hy
      obtain ⟨v', hg', hv⟩ := h.get hg
      rw [if_pos rfl] at hv
      obtain ⟨q, q', rfl, rfl, hq⟩ := hv
      rw [hg']
      simp only [PVal.items] at hy ⊢
      cases hl : (loadEntries R C q).1 with
      | error e => rw [hl] at hy; cases hy
      | ok rs =>
        rw [hl] at hy
        obtain ⟨rs', hl', hrs⟩ := loadEntries_reordered R C hq hl
        rw [hl']
        simp only at hy ⊢
        cases hat : attach R y0 rs with
        | error e => rw [hat] at hy; cases hy
        | ok y1 =>
          rw [hat] at hy
          cases hy
          obtain ⟨y', g1, g2⟩ := attach_reordered R heq a1 a2 d1 d2 hrs hat hder
          rw [g1]
          exact ⟨y', _, rfl, g2⟩

/-! ### Examples and counterexamples -/

namespace ConfigExample

/-- A spatial section with the class first, as `to_dict` writes it, of a user's class whose
name starts with a lower case letter. -/
def sfr : PVal Int := .dict [("mySFR", .dict [("a", .int 2), ("r0", .int 5)]), ("is_rate", .bool true)]

/-- The same section with sorted keys. -/
def sfrSorted : PVal Int :=
  .dict [("is_rate", .bool true), ("mySFR", .dict [("a", .int 2), ("r0", .int 5)])]

def reg' : Registry Int := { reg with
  dists := ("mySFR", { params := [("r0", { vmin := some 0 }), ("a", { vmin := some 0 })]
                       spatial := true, luminosity := false, cosmo := true
                       rate0 := .bool true }) :: reg.dists }

/-- A configuration with two samplers and one secondary. -/
def conf (sp : PVal Int) : Dict (PVal Int) :=
  [("seed", .int 1234), ("spatial distribution", sp),
   ("auxiliary samplers", .dict [
      ("x", .dict [("type", .str "NormalAuxSampler"), ("observed", .bool true), ("mu", .int 3),
                   ("tau", .int 4), ("secondary", .list [.str "s"])]),
      ("s", .dict [("type", .str "NormalAuxSampler"), ("observed", .bool false)]),
      ("a", .dict [("type", .str "NormalAuxSampler"), ("observed", .bool true),
                   ("selection", .dict [("LowerBound", .dict [("boundary", .int 7)])])])])]

/-- The same with every dictionary sorted. -/
def confSorted (sp : PVal Int) : Dict (PVal Int) :=
  [("auxiliary samplers", .dict [
      ("a", .dict [("observed", .bool true),
                   ("selection", .dict [("LowerBound", .dict [("boundary", .int 7)])]),
                   ("type", .str "NormalAuxSampler")]),
      ("s", .dict [("observed", .bool false), ("type", .str "NormalAuxSampler")]),
      ("x", .dict [("mu", .int 3), ("observed", .bool true), ("secondary", .list [.str "s"]),
                   ("tau", .int 4), ("type", .str "NormalAuxSampler")])]),
   ("seed", .int 1234), ("spatial distribution", sp)]

/-- A dictionary with the same items, up to order, by checking the finitely many keys. -/
theorem sameItems_of {α : Type} {r : String → α → α → Prop} {d d' : Dict α}
    (h1 : (Dict.keys d).Nodup) (h2 : (Dict.keys d').Nodup)
    (h3 : ∀ k, k ∈ Dict.keys d' → k ∈ Dict.keys d)
    (h4 : ∀ p ∈ d, ∃ v', Dict.get? d' p.1 = some v' ∧ r p.1 p.2 v') : SameItems r d d' := by
  refine ⟨h1, h2, fun k => ?_⟩
  cases hg : Dict.get? d k with
  | none =>
    have : Dict.get? d' k = none := by
      rw [Dict.get?_eq_none_iff] at hg ⊢
      exact fun h => hg (h3 k h)
    rw [this]; trivial
  | some v =>
    obtain ⟨v', e, hr⟩ := h4 (k, v) (Dict.mem_of_get? hg)
    rw [e]; exact hr

theorem conf_reordered (sp : PVal Int) : Reordered (conf sp) (confSorted sp) := by
  refine sameItems_of (by simp [conf, Dict.keys]) (by simp [confSorted, Dict.keys])
    (by simp [conf, confSorted, Dict.keys]) ?_
  intro p hp
  simp only [conf, List.mem_cons, List.not_mem_nil, or_false] at hp
  rcases hp with rfl | rfl | rfl
  · exact ⟨_, rfl, .inl rfl⟩
  · exact ⟨_, rfl, .inl rfl⟩
  · refine ⟨_, rfl, _, _, rfl, rfl, sameItems_of (by decide) (by decide) (by decide) ?_⟩
    intro p hp
    simp only [List.mem_cons, List.not_mem_nil, or_false] at hp
    rcases hp with rfl | rfl | rfl <;>
      refine ⟨_, rfl, _, _, rfl, rfl, sameItems_of (by decide) (by decide) (by decide) ?_⟩ <;>
      intro p hp <;> simp only [List.mem_cons, List.not_mem_nil, or_false] at hp
    · rcases hp with rfl | rfl | rfl | rfl | rfl <;> exact ⟨_, rfl, rfl⟩
    · rcases hp with rfl | rfl <;> exact ⟨_, rfl, rfl⟩
    · rcases hp with rfl | rfl | rfl
      · exact ⟨_, rfl, rfl⟩
      · exact ⟨_, rfl, rfl⟩
      · exact ⟨_, rfl, .inl rfl⟩

end ConfigExample

open ConfigExample

/-- Sorting every dictionary of the example gives the same synthesizer up to the order of the
samplers. -/
example : ∃ y e y' e', fromDict reg' conv (conf sfr) = .ok y e ∧
    fromDict reg' conv (confSorted sfr) = .ok y' e' ∧ EqSynth y y' := by
  have h : ∃ y e, fromDict reg' conv (conf sfr) = .ok y e ∧
      y.objs.map (fun p => reg'.derived p.2.cls) = [false, false, false] := ⟨_, _, rfl, rfl⟩
  obtain ⟨y, e, h1, h2⟩ := h
  obtain ⟨y', e', h3, h4⟩ := C43_order_partial reg' conv _ _ e y (conf_reordered sfr) h1 (by
    intro i j hi _
    unfold derivedAt at hi
    cases hg : Dict.get? y.objs i with
    | none => rw [hg] at hi; cases hi
    | some c =>
      rw [hg] at hi
      have : reg'.derived c.cls ∈ y.objs.map (fun p => reg'.derived p.2.cls) :=
        List.mem_map.2 ⟨_, Dict.mem_of_get? hg, rfl⟩
      rw [h2] at this
      simp only at hi this
      rw [hi] at this
      simp at this)
  exact ⟨y, e, y', e', h1, h3, h4⟩

/-- **C43 is violated** for the order of the samplers: the dictionary `d'` has the content of
`d` with sorted keys; `x` is attached before `a` for the one and after it for the other, and
drawing uses the random numbers in that order. -/
theorem C43_violated_order :
    Reordered (conf sfr) (confSorted sfr) ∧
    ∃ y e y' e', fromDict reg' conv (conf sfr) = .ok y e ∧
      fromDict reg' conv (confSorted sfr) = .ok y' e' ∧
      y.aux = [("x", "x"), ("a", "a")] ∧ y'.aux = [("a", "a"), ("x", "x")] :=
  ⟨conf_reordered sfr, _, _, _, _, rfl, rfl, rfl, rfl⟩

/-- **C43 is violated** for sections: `from_dict` takes the first key of a section for the name
of the class (population_synth.py:390, 431, 470, 510, 671).  In the section of a cosmological
distribution whose class has a name in lower case, sorting puts `is_rate` first, and
`KeyError` is raised. -/
theorem C43_violated_first :
    (∃ d d', sfr = .dict d ∧ sfrSorted = .dict d' ∧
      (∀ k, Dict.get? d k = Dict.get? d' k)) ∧
    (∃ y e, fromDict reg' conv (conf sfr) = .ok y e) ∧
    outcome (fromDict reg' conv (conf sfrSorted)) = .error .key := by
  refine ⟨⟨_, _, rfl, rfl, fun k => ?_⟩, ⟨_, _, rfl⟩, rfl⟩
  simp only [Dict.get?]
  by_cases h1 : "mySFR" = k
  · subst h1; rfl
  · by_cases h2 : "is_rate" = k
    · subst h2; rfl
    · simp [h1, h2]

/-- Two derived luminosity samplers. -/
def ConfigExample.twoDerived (k k' : String) : Dict (PVal Int) :=
  [("seed", .int 1234), ("spatial distribution", sfr),
   ("auxiliary samplers", .dict [
      (k, .dict [("type", .str "MyLuminosity"), ("observed", .bool false)]),
      (k', .dict [("type", .str "MyLuminosity"), ("observed", .bool false)])])]

/-- **C43 is violated** with two derived luminosity samplers: the one that comes last is used. -/
theorem C43_violated_derived :
    Reordered (twoDerived "b" "a") (twoDerived "a" "b") ∧
    ∃ y e y' e', fromDict reg' conv (twoDerived "b" "a") = .ok y e ∧
      fromDict reg' conv (twoDerived "a" "b") = .ok y' e' ∧
      y.derived = some "a" ∧ y'.derived = some "b" := by
  refine ⟨?_, _, _, _, _, rfl, rfl, rfl, rfl⟩
  refine sameItems_of (by simp [twoDerived, Dict.keys]) (by simp [twoDerived, Dict.keys])
    (by simp [twoDerived, Dict.keys]) ?_
  intro p hp
  simp only [twoDerived, List.mem_cons, List.not_mem_nil, or_false] at hp
  rcases hp with rfl | rfl | rfl
  · exact ⟨_, rfl, .inl rfl⟩
  · exact ⟨_, rfl, .inl rfl⟩
  · refine ⟨_, rfl, _, _, rfl, rfl, sameItems_of (by decide) (by decide) (by decide) ?_⟩
    intro p hp
    simp only [List.mem_cons, List.not_mem_nil, or_false] at hp
    rcases hp with rfl | rfl <;>
      refine ⟨_, rfl, _, _, rfl, rfl, sameItems_of (by decide) (by decide) (by decide) ?_⟩ <;>
      intro p hp <;> simp only [List.mem_cons, List.not_mem_nil, or_false] at hp <;>
      rcases hp with rfl | rfl <;> exact ⟨_, rfl, rfl⟩

end Popsynth
