import Verif.Model.Config
import Verif.Lemmas.Py
import Verif.Lemmas.Param
import Verif.Lemmas.Survey

/-! Helper lemmas about `to_dict` and `from_dict`. -/

set_option autoImplicit false
set_option linter.unusedSectionVars false

namespace Popsynth

variable {F : Type} [LE F] [DecidableLE F]

namespace Spec

/-- The declaration lets the value be assigned. -/
def Admits (dc : ParamDecl F) (x : F) : Prop :=
  dc.free = true ∧ (∀ m, dc.vmin = some m → m ≤ x) ∧ (∀ m, dc.vmax = some m → x ≤ m)

end Spec

theorem setParam_ok_iff (C : Conv F) (dc : ParamDecl F) (o o' : Obj F) (k : String) (v : PVal F) :
    setParam C dc o k v = .ok o' ↔ ∃ x, C.float v = .ok x ∧ Spec.Admits dc x ∧
      o' = { touchNorm dc k o with storage := Dict.set o.storage k (some x) } := by
  unfold setParam
  rw [except_bind_ok_iff]
  refine exists_congr fun x => and_congr_right fun _ => ?_
  have hb : Spec.Admits dc x ↔ dc.free = true ∧ Spec.InBounds dc (some x) := by
    rw [← check_ok_iff]
    unfold Spec.Admits checkMin checkMax
    refine and_congr_right fun _ => ?_
    cases h1 : dc.vmin <;> cases h2 : dc.vmax <;> simp <;> (repeat' split) <;> simp_all
  by_cases h : dc.free = true ∧ Spec.InBounds dc (some x)
  · rw [paramSet_accept dc dc.free k (some x) o h.1 h.2]
    constructor
    · intro e; cases e; exact ⟨hb.2 h, rfl⟩
    · rintro ⟨_, rfl⟩; rfl
  · obtain ⟨e, _, he⟩ := paramSet_reject dc dc.free k (some x) o h
    rw [he]
    constructor
    · intro e; cases e
    · rintro ⟨ha, _⟩; exact absurd (hb.1 ha) h

/-- Setting parameters succeeds exactly if every declared one is given a number its
declaration admits. -/
theorem setParams_ok_iff (C : Conv F) (ok : String → Option (ParamDecl F)) (o : Obj F)
    (ps : Dict (PVal F)) :
    (∃ o', setParams C ok o ps = .ok o') ↔
      ∀ k v dc, (k, v) ∈ ps → ok k = some dc → ∃ x, C.float v = .ok x ∧ Spec.Admits dc x := by
  induction ps generalizing o with
  | nil => simp [setParams]
  | cons p ps ih =>
    obtain ⟨k, v⟩ := p
    cases hk : ok k with
    | none =>
      simp only [setParams, hk, ih]
      constructor
      · intro h k' v' dc hm hd
        rcases List.mem_cons.1 hm with e | hm
        · cases e; rw [hk] at hd; cases hd
        · exact h k' v' dc hm hd
      · exact fun h k' v' dc hm hd => h k' v' dc (List.mem_cons_of_mem _ hm) hd
    | some dc =>
      simp only [setParams, hk]
      constructor
      · rintro ⟨o', h⟩
        obtain ⟨o1, h1, h2⟩ := (except_bind_ok_iff _ _ _).1 h
        obtain ⟨x, hx, ha, _⟩ := (setParam_ok_iff ..).1 h1
        intro k' v' dc' hm hd
        rcases List.mem_cons.1 hm with e | hm
        · cases e; rw [hk] at hd; cases hd; exact ⟨x, hx, ha⟩
        · exact (ih o1).1 ⟨o', h2⟩ k' v' dc' hm hd
      · intro h
        obtain ⟨x, hx, ha⟩ := h k v dc (List.mem_cons_self ..) hk
        have h1 := (setParam_ok_iff C dc o _ k v).2 ⟨x, hx, ha, rfl⟩
        obtain ⟨o', h2⟩ := (ih _).2 fun k' v' dc' hm hd =>
          h k' v' dc' (List.mem_cons_of_mem _ hm) hd
        exact ⟨o', (except_bind_ok_iff _ _ _).2 ⟨_, h1, h2⟩⟩

/-- The storage after setting parameters. -/
theorem setParams_get? (C : Conv F) (ok : String → Option (ParamDecl F)) (o o' : Obj F)
    (ps : Dict (PVal F)) (hn : (Dict.keys ps).Nodup) (h : setParams C ok o ps = .ok o')
    (k : String) :
    (∀ v dc, (k, v) ∈ ps → ok k = some dc → ∃ x, C.float v = .ok x ∧
      Dict.get? o'.storage k = some (some x)) ∧
    ((∀ v, (k, v) ∉ ps) ∨ ok k = none → Dict.get? o'.storage k = Dict.get? o.storage k) := by
  induction ps generalizing o with
  | nil =>
    cases h
    exact ⟨fun v dc hm => (by simp at hm), fun _ => rfl⟩
  | cons p ps ih =>
    obtain ⟨k1, v1⟩ := p
    simp only [Dict.keys, List.map_cons, List.nodup_cons] at hn
    have hk1 : ∀ v, (k1, v) ∉ ps := fun v hm => hn.1 (List.mem_map.2 ⟨_, hm, rfl⟩)
    cases hok : ok k1 with
    | none =>
      simp only [setParams, hok] at h
      obtain ⟨i1, i2⟩ := ih o hn.2 h
      refine ⟨fun v dc hm hd => ?_, fun hc => i2 ?_⟩
      · rcases List.mem_cons.1 hm with e | hm
        · cases e; rw [hok] at hd; cases hd
        · exact i1 v dc hm hd
      · rcases hc with hc | hc
        · exact .inl fun v hm => hc v (List.mem_cons_of_mem _ hm)
        · exact .inr hc
    | some dc1 =>
      simp only [setParams, hok] at h
      obtain ⟨o1, h1, h2⟩ := (except_bind_ok_iff _ _ _).1 h
      obtain ⟨x, hx, ha, rfl⟩ := (setParam_ok_iff ..).1 h1
      obtain ⟨i1, i2⟩ := ih _ hn.2 h2
      refine ⟨fun v dc hm hd => ?_, fun hc => ?_⟩
      · rcases List.mem_cons.1 hm with e | hm
        · cases e
          exact ⟨x, hx, by rw [i2 (.inl hk1)]; exact Dict.get?_set_self ..⟩
        · exact i1 v dc hm hd
      · have hne : k1 ≠ k := by
          rintro rfl
          rcases hc with hc | hc
          · exact hc v1 (List.mem_cons_self ..)
          · rw [hok] at hc; cases hc
        rw [i2 ?_]
        · exact Dict.get?_set_ne _ _ hne
        · rcases hc with hc | hc
          · exact .inl fun v hm => hc v (List.mem_cons_of_mem _ hm)
          · exact .inr hc

/-- Setting exactly the recorded values reproduces them. -/
theorem setParams_truth (C : Conv F) (ok : String → Option (ParamDecl F)) (l : Dict F) (o : Obj F)
    (hn : (Dict.keys l).Nodup) (hd : ∀ k ∈ Dict.keys l, k ∉ Dict.keys o.storage)
    (hok : ∀ k v, (k, v) ∈ l → ∃ dc, ok k = some dc ∧ Spec.Admits dc v) :
    ∃ o', setParams C ok o (l.map fun p => (p.1, PVal.num p.2)) = .ok o' ∧
      o'.storage = o.storage ++ l.map fun p => (p.1, some p.2) := by
  induction l generalizing o with
  | nil => exact ⟨o, rfl, by simp⟩
  | cons p l ih =>
    obtain ⟨k, v⟩ := p
    simp only [Dict.keys, List.map_cons, List.nodup_cons] at hn
    obtain ⟨dc, h1, ha⟩ := hok k v (List.mem_cons_self ..)
    have hk : k ∉ Dict.keys o.storage := hd k (by simp [Dict.keys])
    have h2 := (setParam_ok_iff C dc o _ k (.num v)).2 ⟨v, rfl, ha, rfl⟩
    have hset := Dict.set_append_of_not_mem o.storage k (some v) hk
    obtain ⟨o', h3, h4⟩ := ih { touchNorm dc k o with storage := Dict.set o.storage k (some v) }
      hn.2 (by
        intro k' hk'
        rw [Dict.keys_set, if_neg hk]
        intro hm
        rcases List.mem_append.1 hm with hm | hm
        · exact hd k' (List.mem_cons_of_mem _ hk') hm
        · simp at hm; subst hm; exact hn.1 hk')
      (fun k' v' hm => hok k' v' (List.mem_cons_of_mem _ hm))
    refine ⟨o', ?_, ?_⟩
    · simp only [List.map_cons, setParams, h1]
      exact (except_bind_ok_iff _ _ _).2 ⟨_, h2, h3⟩
    · rw [h4, hset]; simp

theorem truthOf_some (l : Dict F) (n : Option String) :
    truthOf ({ storage := l.map fun p => (p.1, some p.2), norm := n } : Obj F) = l := by
  induction l with
  | nil => rfl
  | cons p l ih =>
    simp only [truthOf, List.map_cons, List.filterMap_cons, Option.map_some] at ih ⊢
    rw [ih]

theorem truthOf_of_storage (o : Obj F) (l : Dict F)
    (h : o.storage = l.map fun p => (p.1, some p.2)) : truthOf o = l := by
  have := truthOf_some l o.norm
  rw [← h] at this
  exact this

theorem keys_truthOf_sub (o : Obj F) (k : String) (h : k ∈ Dict.keys (truthOf o)) :
    k ∈ Dict.keys o.storage := by
  obtain ⟨⟨k', v⟩, hm, rfl⟩ := List.mem_map.1 h
  obtain ⟨⟨k2, v2⟩, hm2, he⟩ := List.mem_filterMap.1 hm
  cases v2 with
  | none => cases he
  | some x => cases he; exact List.mem_map.2 ⟨_, hm2, rfl⟩

theorem nodup_truthOf (o : Obj F) (h : (Dict.keys o.storage).Nodup) :
    (Dict.keys (truthOf o)).Nodup := by
  obtain ⟨st, nm⟩ := o
  simp only at h
  induction st with
  | nil => simp [truthOf, Dict.keys]
  | cons p st ih =>
    obtain ⟨k, v⟩ := p
    simp only [Dict.keys, List.map_cons, List.nodup_cons] at h
    cases v with
    | none => exact ih h.2
    | some x =>
      have e : truthOf ({ storage := (k, some x) :: st, norm := nm } : Obj F)
          = (k, x) :: truthOf { storage := st, norm := nm } := rfl
      rw [e]
      simp only [Dict.keys, List.map_cons, List.nodup_cons]
      exact ⟨fun hm => h.1 (keys_truthOf_sub _ _ hm), ih h.2⟩

/-! ### Linking -/

theorem get?_modAt {α : Type} (d : Dict α) (k k' : String) (f : α → α) :
    Dict.get? (modAt d k f) k' = if k = k' then (Dict.get? d k').map f else Dict.get? d k' := by
  unfold modAt
  cases h : Dict.get? d k with
  | none =>
    by_cases e : k = k'
    · subst e; simp [h]
    · simp [e]
  | some v =>
    simp only [Dict.get?_set]
    by_cases e : k = k'
    · subst e; simp [h]
    · simp [e]

theorem keys_modAt {α : Type} (d : Dict α) (k : String) (f : α → α) :
    Dict.keys (modAt d k f) = Dict.keys d := by
  unfold modAt
  cases h : Dict.get? d k with
  | none => rfl
  | some v =>
    simp only [Dict.keys_set]
    rw [if_pos ((Dict.get?_isSome_iff d k).1 (by rw [h]; rfl))]

theorem lookup_ok_iff {α : Type} (d : Dict α) (k : String) (v : α) :
    lookup d k = .ok v ↔ Dict.get? d k = some v := by
  unfold lookup
  cases Dict.get? d k <;> simp

/-- What linking leaves unchanged of a sampler. -/
def sameCore (c c' : CSampler F) : Prop :=
  c'.cls = c.cls ∧ c'.name = c.name ∧ c'.obsName = c.obsName ∧ c'.observed = c.observed ∧
  c'.obj = c.obj ∧ c'.sel = c.sel

theorem sameCore.refl (c : CSampler F) : sameCore c c := ⟨rfl, rfl, rfl, rfl, rfl, rfl⟩

theorem sameCore.trans {a b c : CSampler F} (h : sameCore a b) (h' : sameCore b c) :
    sameCore a c :=
  ⟨h'.1.trans h.1, h'.2.1.trans h.2.1, h'.2.2.1.trans h.2.2.1, h'.2.2.2.1.trans h.2.2.2.1,
    h'.2.2.2.2.1.trans h.2.2.2.2.1, h'.2.2.2.2.2.trans h.2.2.2.2.2⟩

/-- The names a list of secondaries links: those before the first `None`. -/
def active : List (Option String) → List String
  | [] => []
  | none :: _ => []
  | some s :: rest => s :: active rest

/-- The name of the sampler at an address. -/
def nameAt (objs : Dict (CSampler F)) (k : String) : String :=
  match Dict.get? objs k with
  | none => ""
  | some c => c.name

/-- How `objs` became `objs'`: the same samplers, except that the one at `k` got the
secondaries `secs k` and those at addresses in `S` are marked as secondaries. -/
structure Linked (objs objs' : Dict (CSampler F)) (secs : String → Dict String → Dict String)
    (S : List String) : Prop where
  keys : Dict.keys objs' = Dict.keys objs
  get : ∀ k c, Dict.get? objs k = some c → ∃ c', Dict.get? objs' k = some c' ∧ sameCore c c' ∧
    c'.secs = secs k c.secs ∧ c'.isSecondary = (c.isSecondary || decide (k ∈ S))

theorem Linked.nameAt {objs objs' : Dict (CSampler F)} {secs : String → Dict String → Dict String}
    {S : List String} (h : Linked objs objs' secs S) : nameAt objs' = nameAt objs := by
  funext k
  unfold Popsynth.nameAt
  cases hk : Dict.get? objs k with
  | none =>
    rw [Dict.get?_eq_none_iff, ← h.keys, ← Dict.get?_eq_none_iff] at hk
    rw [hk]
  | some c =>
    obtain ⟨c', h1, h2, _⟩ := h.get k c hk
    rw [h1]; exact h2.2.1

theorem Linked.refl (objs : Dict (CSampler F)) : Linked objs objs (fun _ s => s) [] :=
  ⟨rfl, fun _ c hc => ⟨c, hc, sameCore.refl c, rfl, by simp⟩⟩

theorem Linked.trans {a b c : Dict (CSampler F)} {f g : String → Dict String → Dict String}
    {S T : List String} (h : Linked a b f S) (h' : Linked b c g T) :
    Linked a c (fun k s => g k (f k s)) (S ++ T) := by
  refine ⟨h'.keys.trans h.keys, fun k x hx => ?_⟩
  obtain ⟨x1, h1, h2, h3, h4⟩ := h.get k x hx
  obtain ⟨x2, i1, i2, i3, i4⟩ := h'.get k x1 h1
  refine ⟨x2, i1, h2.trans i2, by rw [i3, h3], ?_⟩
  rw [i4, h4, Bool.or_assoc]
  congr 1
  by_cases e1 : k ∈ S <;> by_cases e2 : k ∈ T <;> simp [e1, e2]

/-- One call of `set_secondary_sampler`. -/
theorem link_spec (objs : Dict (CSampler F)) (p s : String) :
    ((∃ o, link objs p s = .ok o) ↔ p ∈ Dict.keys objs ∧ s ∈ Dict.keys objs) ∧
    ∀ o, link objs p s = .ok o → Linked objs o
      (fun k d => if k = p then Dict.set d (nameAt objs s) s else d) [s] := by
  constructor
  · rw [← Dict.get?_isSome_iff, ← Dict.get?_isSome_iff]
    unfold link lookup
    cases h1 : Dict.get? objs p with
    | none => simp [bind, Except.bind]
    | some cp =>
      cases h2 : Dict.get? objs s with
      | none => simp [bind, Except.bind]
      | some cs => simp [bind, Except.bind, pure, Except.pure]
  · intro o h
    unfold link at h
    obtain ⟨cp, h1, h⟩ := (except_bind_ok_iff _ _ _).1 h
    obtain ⟨cs, h2, h⟩ := (except_bind_ok_iff _ _ _).1 h
    rw [lookup_ok_iff] at h1 h2
    cases h
    have hnm : nameAt objs s = cs.name := by unfold nameAt; rw [h2]
    rw [hnm]
    refine ⟨by rw [keys_modAt, keys_modAt], fun k c hc => ?_⟩
    rw [get?_modAt, get?_modAt, hc]
    by_cases e1 : s = k <;> by_cases e2 : p = k
    · subst e1; subst e2
      simp only [if_pos, Option.map_some]
      exact ⟨_, rfl, ⟨rfl, rfl, rfl, rfl, rfl, rfl⟩, rfl, by simp⟩
    · have e2' : k ≠ p := Ne.symm e2
      subst e1
      simp only [if_pos, if_neg e2, if_neg e2', Option.map_some]
      exact ⟨_, rfl, ⟨rfl, rfl, rfl, rfl, rfl, rfl⟩, rfl, by simp⟩
    · have e1' : k ≠ s := Ne.symm e1
      subst e2
      simp only [if_pos, if_neg e1, Option.map_some]
      exact ⟨_, rfl, ⟨rfl, rfl, rfl, rfl, rfl, rfl⟩, rfl, by simp [e1']⟩
    · have e2' : k ≠ p := Ne.symm e2
      have e1' : k ≠ s := Ne.symm e1
      simp only [if_neg e1, if_neg e2, if_neg e2']
      exact ⟨_, rfl, sameCore.refl c, rfl, by simp [e1']⟩

/-- The secondaries of the sampler at `k` after linking the list `l` to the one at `p`. -/
def secsFor (nm : String → String) (p : String) (l : List (Option String)) (k : String)
    (d : Dict String) : Dict String :=
  if k = p then (active l).foldl (fun d n => Dict.set d (nm n) n) d else d

theorem linkAll_spec (p : String) (l : List (Option String)) (objs : Dict (CSampler F)) :
    ((∃ o, linkAll p l objs = .ok o) ↔
      ∀ s ∈ active l, p ∈ Dict.keys objs ∧ s ∈ Dict.keys objs) ∧
    ∀ o, linkAll p l objs = .ok o →
      Linked objs o (secsFor (nameAt objs) p l) (active l) := by
  induction l generalizing objs with
  | nil =>
    refine ⟨⟨fun _ s hs => (by simp [active] at hs), fun _ => ⟨objs, rfl⟩⟩, fun o h => ?_⟩
    cases h
    have := Linked.refl objs
    have e : (fun (_ : String) (s : Dict String) => s) = secsFor (nameAt objs) p [] := by
      funext k d; simp [secsFor, active]
    rw [e] at this
    exact this
  | cons x l ih =>
    cases x with
    | none =>
      refine ⟨⟨fun _ s hs => (by simp [active] at hs), fun _ => ⟨objs, rfl⟩⟩, fun o h => ?_⟩
      cases h
      have := Linked.refl objs
      have e : (fun (_ : String) (s : Dict String) => s) = secsFor (nameAt objs) p (none :: l) := by
        funext k d; simp [secsFor, active]
      rw [e] at this
      exact this
    | some s =>
      obtain ⟨l1, l2⟩ := link_spec objs p s
      constructor
      · constructor
        · rintro ⟨o, h⟩ s' hs'
          obtain ⟨o1, h1, h2⟩ := (except_bind_ok_iff _ _ _).1 h
          have hl := l2 o1 h1
          rcases List.mem_cons.1 hs' with rfl | hs'
          · exact l1.1 ⟨o1, h1⟩
          · have := (ih o1).1.1 ⟨o, h2⟩ s' hs'
            rw [hl.keys] at this
            exact this
        · intro h
          obtain ⟨o1, h1⟩ := l1.2 (h s (List.mem_cons_self ..))
          have hl := l2 o1 h1
          obtain ⟨o, h2⟩ := (ih o1).1.2 (by
            rw [hl.keys]
            exact fun s' hs' => h s' (List.mem_cons_of_mem _ hs'))
          exact ⟨o, (except_bind_ok_iff _ _ _).2 ⟨o1, h1, h2⟩⟩
      · intro o h
        obtain ⟨o1, h1, h2⟩ := (except_bind_ok_iff _ _ _).1 h
        have hl := l2 o1 h1
        have hr := (ih o1).2 o h2
        have ht := hl.trans hr
        rw [hl.nameAt] at ht
        have e : (fun (k : String) (d : Dict String) => secsFor (nameAt objs) p l k
            (if k = p then Dict.set d (nameAt objs s) s else d)) =
            secsFor (nameAt objs) p (some s :: l) := by
          funext k d
          unfold secsFor
          by_cases e : k = p <;> simp [e, active]
        rw [e] at ht
        exact ht

/-- The secondaries of the sampler at `k` after all lists have been linked. -/
def secsAll (nm : String → String) (lists : List (String × List (Option String))) (k : String)
    (d : Dict String) : Dict String :=
  lists.foldl (fun d q => secsFor nm q.1 q.2 k d) d

theorem linkEntries_spec (lists : List (String × List (Option String)))
    (objs : Dict (CSampler F)) :
    ((∃ o, linkEntries lists objs = .ok o) ↔
      ∀ p l, (p, l) ∈ lists → ∀ s ∈ active l, p ∈ Dict.keys objs ∧ s ∈ Dict.keys objs) ∧
    ∀ o, linkEntries lists objs = .ok o →
      Linked objs o (secsAll (nameAt objs) lists) (lists.flatMap fun q => active q.2) := by
  induction lists generalizing objs with
  | nil =>
    refine ⟨⟨fun _ p l hm => (by simp at hm), fun _ => ⟨objs, rfl⟩⟩, fun o h => ?_⟩
    cases h
    exact Linked.refl objs
  | cons x lists ih =>
    obtain ⟨p, l⟩ := x
    obtain ⟨l1, l2⟩ := linkAll_spec p l objs
    constructor
    · constructor
      · rintro ⟨o, h⟩ p' l' hm s' hs'
        obtain ⟨o1, h1, h2⟩ := (except_bind_ok_iff _ _ _).1 h
        have hl := l2 o1 h1
        rcases List.mem_cons.1 hm with e | hm
        · cases e; exact l1.1 ⟨o1, h1⟩ s' hs'
        · have := (ih o1).1.1 ⟨o, h2⟩ p' l' hm s' hs'
          rw [hl.keys] at this
          exact this
      · intro h
        obtain ⟨o1, h1⟩ := l1.2 (h p l (List.mem_cons_self ..))
        have hl := l2 o1 h1
        obtain ⟨o, h2⟩ := (ih o1).1.2 (by
          rw [hl.keys]
          exact fun p' l' hm => h p' l' (List.mem_cons_of_mem _ hm))
        exact ⟨o, (except_bind_ok_iff _ _ _).2 ⟨o1, h1, h2⟩⟩
    · intro o h
      obtain ⟨o1, h1, h2⟩ := (except_bind_ok_iff _ _ _).1 h
      have hl := l2 o1 h1
      have hr := (ih o1).2 o h2
      have ht := hl.trans hr
      rw [hl.nameAt] at ht
      exact ht

theorem secsAll_not_mem (nm : String → String) (lists : List (String × List (Option String)))
    (k : String) (d : Dict String) (h : k ∉ lists.map Prod.fst) : secsAll nm lists k d = d := by
  induction lists generalizing d with
  | nil => rfl
  | cons x lists ih =>
    simp only [List.map_cons, List.mem_cons, not_or] at h
    have := ih (secsFor nm x.1 x.2 k d) h.2
    simp only [secsAll, List.foldl_cons] at this ⊢
    rw [this, secsFor, if_neg h.1]

theorem secsAll_mem (nm : String → String) (lists : List (String × List (Option String)))
    (k : String) (l : List (Option String)) (d : Dict String) (hn : (lists.map Prod.fst).Nodup)
    (h : (k, l) ∈ lists) :
    secsAll nm lists k d = (active l).foldl (fun d n => Dict.set d (nm n) n) d := by
  induction lists generalizing d with
  | nil => simp at h
  | cons x lists ih =>
    simp only [List.map_cons, List.nodup_cons] at hn
    rcases List.mem_cons.1 h with e | h
    · subst e
      have := secsAll_not_mem nm lists k (secsFor nm k l k d) hn.1
      simp only [secsAll, List.foldl_cons] at this ⊢
      rw [this, secsFor, if_pos rfl]
    · have hne : k ≠ x.1 := fun e => hn.1 (List.mem_map.2 ⟨_, h, e⟩)
      have := ih (secsFor nm x.1 x.2 k d) hn.2 h
      simp only [secsAll, List.foldl_cons] at this ⊢
      rw [this, secsFor, if_neg hne]

end Popsynth
