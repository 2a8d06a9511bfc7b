import Verif.Model.SynthFile
import Verif.Props.ReadyMade

/-!
# Configuration files of synthesizers (C91)

`write_to` (population_synth.py:186-200) writes the configuration of a synthesizer to a YAML
file, `from_file` (753-764) makes a synthesizer from such a file.
-/

set_option autoImplicit false
set_option linter.unusedSectionVars false

namespace Popsynth

open Spec

variable {F : Type}

namespace Spec

/-- The same document, except that dictionaries may be in another order. -/
inductive SameDoc : PVal F → PVal F → Prop
  | leaf (v : PVal F) : SameDoc v v
  | list (l l' : List (PVal F)) : l.length = l'.length →
      (∀ (n : Nat) (a b : PVal F), l[n]? = some a → l'[n]? = some b → SameDoc a b) →
      SameDoc (.list l) (.list l')
  | dict (d e d' : Dict (PVal F)) : e.Perm d → Dict.keys e = Dict.keys d' →
      (∀ (n : Nat) (a b : String × PVal F), e[n]? = some a → d'[n]? = some b →
        SameDoc a.2 b.2) →
      SameDoc (.dict d) (.dict d')

/-- The keys are in alphabetical order, at every depth. -/
inductive SortedDoc : PVal F → Prop
  | leaf (v : PVal F) : (∀ l, v ≠ .list l) → (∀ d, v ≠ PVal.dict d) → SortedDoc v
  | list (l : List (PVal F)) : (∀ v ∈ l, SortedDoc v) → SortedDoc (.list l)
  | dict (d : Dict (PVal F)) : (Dict.keys d).Pairwise (fun a b => a ≤ b) →
      (∀ k v, (k, v) ∈ d → SortedDoc v) → SortedDoc (PVal.dict d)

/-- The numbers, arrays and other objects in a document. -/
inductive Occurs : PVal F → PVal F → Prop
  | here (v : PVal F) : Occurs v v
  | list {v w : PVal F} {l : List (PVal F)} : v ∈ l → Occurs w v → Occurs w (.list l)
  | dict {v w : PVal F} {k : String} {d : Dict (PVal F)} : (k, v) ∈ d → Occurs w v →
      Occurs w (.dict d)

/-- Values that YAML cannot represent: numpy arrays, numpy numbers and objects. -/
def Foreign (py : F → Bool) (v : PVal F) : Prop :=
  (∃ x, v = .num x ∧ py x = false) ∨ (∃ l, v = .arr l) ∨ v = .other

/-- A flag, or its absence. -/
def IsFlag (v : PVal F) : Prop := v = .none ∨ ∃ b, v = .bool b

/-- All parameter values are Python's numbers. -/
def PyNumbers (py : F → Bool) (o : Obj F) : Prop := ∀ k v, (k, v) ∈ truthOf o → py v = true

/-- Nothing in the configuration is foreign to YAML. -/
structure Dumpable (R : Registry F) (py : F → Bool) (y : CSynth F) : Prop where
  spatial : PyNumbers py y.spatial.obj
  rate : R.cosmo y.spatial.cls = true → IsFlag y.spatial.isRate
  lum : ∀ c, y.lum = some c → PyNumbers py c.obj
  sels : ∀ s, y.fluxSel = some s ∨ y.distSel = some s ∨ y.spatSel = some s →
    PyNumbers py s.obj
  samplers : ∀ i c, Used y i → Dict.get? y.objs i = some c →
    IsFlag c.observed ∧ PyNumbers py c.obj ∧ PyNumbers py c.sel.obj

end Spec

/-! ### Sorting -/

theorem perm_insertItem {α : Type} (p : String × α) (d : Dict α) :
    (insertItem p d).Perm (p :: d) := by
  induction d with
  | nil => exact .refl _
  | cons q d ih =>
    unfold insertItem
    split
    · exact .refl _
    · exact (ih.cons q).trans (.swap ..)

theorem perm_sortItems {α : Type} (d : Dict α) : (sortItems d).Perm d := by
  induction d with
  | nil => exact .refl _
  | cons p d ih => exact (perm_insertItem p _).trans (ih.cons p)

theorem sorted_insertItem {α : Type} (p : String × α) (d : Dict α)
    (h : d.Pairwise fun a b => a.1 ≤ b.1) : (insertItem p d).Pairwise fun a b => a.1 ≤ b.1 := by
  induction d with
  | nil => simp [insertItem]
  | cons q d ih =>
    rw [List.pairwise_cons] at h
    unfold insertItem
    split
    · rename_i hl
      refine List.pairwise_cons.2 ⟨fun r hr => ?_, List.pairwise_cons.2 h⟩
      rcases List.mem_cons.1 hr with rfl | hr
      · exact String.not_lt.1 (String.lt_asymm hl)
      · exact String.le_trans (String.not_lt.1 (String.lt_asymm hl)) (h.1 r hr)
    · rename_i hl
      refine List.pairwise_cons.2 ⟨fun r hr => ?_, ih h.2⟩
      rcases List.mem_cons.1 ((perm_insertItem p d).mem_iff.1 hr) with rfl | hr
      · exact String.not_lt.1 hl
      · exact h.1 r hr

theorem sorted_sortItems {α : Type} (d : Dict α) :
    (sortItems d).Pairwise fun a b => a.1 ≤ b.1 := by
  induction d with
  | nil => exact .nil
  | cons p d ih => exact sorted_insertItem p _ ih

theorem sortValues_eq (d : Dict (PVal F)) :
    sortValues d = d.map fun p => (p.1, sortVal p.2) := by
  induction d with
  | nil => rfl
  | cons p d ih => obtain ⟨k, v⟩ := p; simp [sortValues, ih]

theorem sortList_eq (l : List (PVal F)) : sortList l = l.map sortVal := by
  induction l with
  | nil => rfl
  | cons v l ih => simp [sortList, ih]

theorem insertItem_map {α β : Type} (f : α → β) (p : String × α) (d : Dict α) :
    insertItem (p.1, f p.2) (d.map fun p => (p.1, f p.2)) =
      (insertItem p d).map fun p => (p.1, f p.2) := by
  induction d with
  | nil => rfl
  | cons q d ih =>
    simp only [insertItem, List.map_cons]
    split
    · rfl
    · rw [ih, List.map_cons]

theorem sorted_eq (d : Dict (PVal F)) :
    sortItems (sortValues d) = (sortItems d).map fun p => (p.1, sortVal p.2) := by
  rw [sortValues_eq]
  induction d with
  | nil => rfl
  | cons p d ih => rw [List.map_cons, sortItems, ih, sortItems, insertItem_map]

theorem mem_sorted {d : Dict (PVal F)} {p : String × PVal F}
    (h : p ∈ sortItems (sortValues d)) : ∃ v, (p.1, v) ∈ d ∧ p.2 = sortVal v := by
  have := (perm_sortItems _).mem_iff.1 h
  rw [sortValues_eq] at this
  obtain ⟨q, hq, rfl⟩ := List.mem_map.1 this
  exact ⟨q.2, hq, rfl⟩

theorem keys_sorted (d : Dict (PVal F)) :
    (Dict.keys (sortItems (sortValues d))).Perm (Dict.keys d) := by
  have h : Dict.keys (sortValues d) = Dict.keys d := by
    rw [sortValues_eq]; simp [Dict.keys, Function.comp_def]
  rw [← h]
  exact (perm_sortItems _).map _

mutual
theorem sameDoc_sortVal : ∀ v : PVal F, SameDoc v (sortVal v)
  | .list l => by
    rw [sortVal, sortList_eq]
    refine .list _ _ (by simp) fun n a b ha hb => ?_
    rw [List.getElem?_map, ha] at hb
    cases hb
    exact sameDoc_list l a (List.mem_of_getElem? ha)
  | .dict d => by
    rw [sortVal]
    rw [sorted_eq]
    refine .dict _ (sortItems d) _ (perm_sortItems d) (by simp [Dict.keys, Function.comp_def])
      fun n a b ha hb => ?_
    rw [List.getElem?_map, ha] at hb
    cases hb
    exact sameDoc_items d a ((perm_sortItems d).mem_iff.1 (List.mem_of_getElem? ha))
  | .none => .leaf _
  | .bool _ => .leaf _
  | .int _ => .leaf _
  | .num _ => .leaf _
  | .str _ => .leaf _
  | .bytes _ => .leaf _
  | .arr _ => .leaf _
  | .other => .leaf _

theorem sameDoc_list : ∀ (l : List (PVal F)), ∀ v ∈ l, SameDoc v (sortVal v)
  | [], _, h => nomatch h
  | a :: l, v, h => by
    rcases List.mem_cons.1 h with e | h
    · exact e ▸ sameDoc_sortVal a
    · exact sameDoc_list l v h

theorem sameDoc_items : ∀ (d : List (String × PVal F)), ∀ p ∈ d, SameDoc p.2 (sortVal p.2)
  | [], _, h => nomatch h
  | (k, a) :: d, p, h => by
    rcases List.mem_cons.1 h with e | h
    · exact e ▸ sameDoc_sortVal a
    · exact sameDoc_items d p h
end

mutual
theorem sortedDoc_sortVal : ∀ v : PVal F, SortedDoc (sortVal v)
  | .list l => by
    rw [sortVal, sortList_eq]
    refine .list _ fun v hv => ?_
    obtain ⟨a, ha, rfl⟩ := List.mem_map.1 hv
    exact sortedDoc_list l a ha
  | .dict d => by
    rw [sortVal]
    refine .dict _ ?_ fun k v' hm => ?_
    · exact List.pairwise_map.2 (sorted_sortItems _)
    · obtain ⟨v, h1, h2⟩ := mem_sorted hm
      simp only at h1 h2
      exact h2 ▸ sortedDoc_items d _ h1
  | .none => .leaf _ (by simp [sortVal]) (by simp [sortVal])
  | .bool _ => .leaf _ (by simp [sortVal]) (by simp [sortVal])
  | .int _ => .leaf _ (by simp [sortVal]) (by simp [sortVal])
  | .num _ => .leaf _ (by simp [sortVal]) (by simp [sortVal])
  | .bytes _ => .leaf _ (by simp [sortVal]) (by simp [sortVal])
  | .str _ => .leaf _ (by simp [sortVal]) (by simp [sortVal])
  | .arr _ => .leaf _ (by simp [sortVal]) (by simp [sortVal])
  | .other => .leaf _ (by simp [sortVal]) (by simp [sortVal])

theorem sortedDoc_list : ∀ (l : List (PVal F)), ∀ v ∈ l, SortedDoc (sortVal v)
  | [], _, h => nomatch h
  | a :: l, v, h => by
    rcases List.mem_cons.1 h with e | h
    · exact e ▸ sortedDoc_sortVal a
    · exact sortedDoc_list l v h

theorem sortedDoc_items : ∀ (d : List (String × PVal F)), ∀ p ∈ d, SortedDoc (sortVal p.2)
  | [], _, h => nomatch h
  | (k, a) :: d, p, h => by
    rcases List.mem_cons.1 h with e | h
    · exact e ▸ sortedDoc_sortVal a
    · exact sortedDoc_items d p h
end

/-! ### What can be represented -/

theorem representsList_iff (py : F → Bool) (l : List (PVal F)) :
    representsList py l = true ↔ ∀ v ∈ l, represents py v = true := by
  induction l with
  | nil => simp [representsList]
  | cons v l ih => simp [representsList, ih]

theorem representsItems_iff (py : F → Bool) (d : Dict (PVal F)) :
    representsItems py d = true ↔ ∀ k v, (k, v) ∈ d → represents py v = true := by
  induction d with
  | nil => simp [representsItems]
  | cons p d ih =>
    obtain ⟨k, v⟩ := p
    simp only [representsItems, Bool.and_eq_true, ih, List.mem_cons, Prod.mk.injEq]
    constructor
    · rintro ⟨h1, h2⟩ k' v' (⟨rfl, rfl⟩ | h)
      · exact h1
      · exact h2 _ _ h
    · exact fun h => ⟨h k v (.inl ⟨rfl, rfl⟩), fun k' v' h' => h k' v' (.inr h')⟩

theorem represents_occurs {py : F → Bool} {v w : PVal F} (h : Occurs w v)
    (hr : represents py v = true) : ¬ Foreign py w := by
  induction h with
  | here v =>
    rintro (⟨x, rfl, hx⟩ | ⟨l, rfl⟩ | rfl)
    · rw [represents, hx] at hr; cases hr
    · cases hr
    · cases hr
  | list hm _ ih => exact ih ((representsList_iff py _).1 hr _ hm)
  | dict hm _ ih => exact ih ((representsItems_iff py _).1 hr _ _ hm)

mutual
theorem represents_of (py : F → Bool) : ∀ v : PVal F, (∀ w, Occurs w v → ¬ Foreign py w) →
    represents py v = true
  | .list l, h => (representsList_iff py l).2 (represents_ofList py l fun v hv w hw =>
      h w (.list hv hw))
  | .dict d, h => (representsItems_iff py d).2 fun k v hm =>
      represents_ofItems py d (fun p hp w hw => h w (.dict (k := p.1) hp hw)) _ hm
  | .none, _ => rfl
  | .bool _, _ => rfl
  | .int _, _ => rfl
  | .num x, h => by
    rw [represents]
    cases hx : py x with
    | true => rfl
    | false => exact (h _ (.here _) (.inl ⟨x, rfl, hx⟩)).elim
  | .str _, _ => rfl
  | .bytes _, _ => rfl
  | .arr l, h => (h _ (.here _) (.inr (.inl ⟨l, rfl⟩))).elim
  | .other, h => (h _ (.here _) (.inr (.inr rfl))).elim

theorem represents_ofList (py : F → Bool) : ∀ l : List (PVal F),
    (∀ v ∈ l, ∀ w, Occurs w v → ¬ Foreign py w) → ∀ v ∈ l, represents py v = true
  | [], _, _, hv => nomatch hv
  | a :: l, h, v, hv => by
    rcases List.mem_cons.1 hv with e | hv
    · rw [e]; exact represents_of py a (h a (List.mem_cons_self ..))
    · exact represents_ofList py l (fun v hv => h v (List.mem_cons_of_mem _ hv)) v hv

theorem represents_ofItems (py : F → Bool) : ∀ d : List (String × PVal F),
    (∀ p ∈ d, ∀ w, Occurs w p.2 → ¬ Foreign py w) → ∀ p ∈ d, represents py p.2 = true
  | [], _, _, hp => nomatch hp
  | (k, a) :: d, h, p, hp => by
    rcases List.mem_cons.1 hp with e | hp
    · rw [e]; exact represents_of py a (h (k, a) (List.mem_cons_self ..))
    · exact represents_ofItems py d (fun p hp => h p (List.mem_cons_of_mem _ hp)) p hp
end

/-! ### Writing and reading -/

theorem writeTo_cases (R : Registry F) (fuel : Nat) (can : String → Bool) (py : F → Bool)
    (y : CSynth F) (name : String) (fs : Files F) :
    writeTo R fuel can py y name fs =
      if can name then
        match toDict R fuel y with
        | .error e => .error e (fs.write name .none)
        | .ok d => if represents py (.dict d) then
            .ok () ((fs.write name .none).write name (sortVal (.dict d)))
          else .error .user (fs.write name .none)
      else .error .os fs := by
  unfold writeTo openWrite
  rw [bind_apply]
  cases hc : can name with
  | false => rfl
  | true =>
    have h : (modify fun fs => fs.write name .none : Py (Files F) Unit) fs =
        .ok () (fs.write name .none) := rfl
    simp only [if_true, h, bind_apply, liftE_apply]
    cases toDict R fuel y with
    | error e => rfl
    | ok d =>
      simp only [yamlDump]
      cases represents py (.dict d) <;> rfl

theorem write_same (fs : Files F) (name : String) (v : PVal F) : fs.write name v name = some v := by
  simp [Files.write]

theorem write_other (fs : Files F) {name n : String} (v : PVal F) (h : n ≠ name) :
    fs.write name v n = fs n := by
  simp [Files.write, h]

/-- **C91 (written).** `write_to` returns if and only if the file can be opened, `to_dict`
returns, and nothing in the dictionary is foreign to YAML; then the file has the document
`to_dict` returned with the keys in alphabetical order, and no other file has changed. -/
theorem C91_write (R : Registry F) (fuel : Nat) (can : String → Bool) (py : F → Bool)
    (y : CSynth F) (name : String) (fs : Files F) :
    ((∃ fs', writeTo R fuel can py y name fs = .ok () fs') ↔
      can name = true ∧ ∃ d, toDict R fuel y = .ok d ∧
        ∀ w, Occurs w (.dict d) → ¬ Foreign py w) ∧
    ∀ fs', writeTo R fuel can py y name fs = .ok () fs' →
      (∀ n, n ≠ name → fs' n = fs n) ∧
      ∃ d v, toDict R fuel y = .ok d ∧ fs' name = some v ∧ SameDoc (.dict d) v ∧
        SortedDoc v := by
  rw [writeTo_cases]
  cases hc : can name with
  | false => simp
  | true =>
    simp only [if_true, true_and]
    cases hd : toDict R fuel y with
    | error e => simp
    | ok d =>
      simp only
      cases hr : represents py (.dict d) with
      | false =>
        refine ⟨⟨?_, ?_⟩, ?_⟩
        · rintro ⟨fs', h⟩; cases h
        · rintro ⟨d', h1, h2⟩
          cases h1
          rw [represents_of py _ h2] at hr
          cases hr
        · intro fs' h; cases h
      | true =>
        refine ⟨⟨fun _ => ⟨d, rfl, fun w hw => represents_occurs hw hr⟩, fun _ => ⟨_, rfl⟩⟩, ?_⟩
        intro fs' h
        cases h
        refine ⟨fun n hn => by rw [write_other _ _ hn, write_other _ _ hn], d, _, rfl,
          write_same .., sameDoc_sortVal _, sortedDoc_sortVal _⟩

variable [LE F] [DecidableLE F]

/-- **C91 (read).** `from_file` changes no file, and gives what `from_dict` gives for the
document, or `TypeError` if the document is no dictionary, or `OSError` if there is no file.
So a file can be read any number of times, unlike a dictionary (C42). -/
theorem C91_read (R : Registry F) (C : Conv F) (name : String) (fs : Files F) :
    (∀ y fs', fromFile R C name fs = .ok y fs' ↔
      fs' = fs ∧ ∃ d d', fs name = some (.dict d) ∧ fromDict R C d = .ok y d') ∧
    (∀ e fs', fromFile R C name fs = .error e fs' ↔ fs' = fs ∧
      ((fs name = none ∧ e = .os) ∨
       (∃ v, fs name = some v ∧ (∀ d, v ≠ .dict d) ∧ e = .type) ∨
       ∃ d d', fs name = some (.dict d) ∧ fromDict R C d = .error e d')) := by
  have key : fromFile R C name fs = (match fs name with
      | none => .error .os fs
      | some (.dict d) => (match fromDict R C d with
        | .ok y _ => .ok y fs
        | .error e _ => .error e fs)
      | some _ => .error .type fs) := by
    unfold fromFile
    rw [bind_apply, get_apply]
    simp only
    cases hf : fs name with
    | none => rfl
    | some v =>
      cases v <;> try rfl
      rename_i d
      simp only
      cases fromDict R C d <;> rfl
  rw [key]
  cases hf : fs name with
  | none =>
    refine ⟨fun y fs' => by simp, fun e fs' => ?_⟩
    simp only [EStateM.Result.error.injEq, reduceCtorEq, false_and, exists_false, or_false,
      true_and]
    exact ⟨fun h => ⟨h.2.symm, h.1.symm⟩, fun h => ⟨h.2.symm, h.1.symm⟩⟩
  | some v =>
    cases v with
    | dict d =>
      simp only
      cases hd : fromDict R C d with
      | ok y d' =>
        constructor
        · intro y' fs'
          simp only [EStateM.Result.ok.injEq, Option.some.injEq, PVal.dict.injEq]
          constructor
          · rintro ⟨rfl, rfl⟩; exact ⟨rfl, d, d', rfl, hd⟩
          · rintro ⟨rfl, e, e', rfl, h⟩; rw [hd] at h; cases h; exact ⟨rfl, rfl⟩
        · intro e fs'
          simp only [reduceCtorEq, false_iff, Option.some.injEq, not_and, not_or, false_and,
            not_false_eq_true, not_exists, true_and]
          intro _
          refine ⟨fun v hv hn => (hn d hv.symm).elim, ?_⟩
          intro e' e'' he h
          cases he; rw [hd] at h; cases h
      | error x d' =>
        constructor
        · intro y' fs'
          simp only [reduceCtorEq, false_iff, not_and, not_exists, Option.some.injEq,
            PVal.dict.injEq]
          rintro - e e' rfl h
          rw [hd] at h; cases h
        · intro e fs'
          simp only [EStateM.Result.error.injEq, reduceCtorEq, false_and, false_or,
            Option.some.injEq]
          constructor
          · rintro ⟨rfl, rfl⟩; exact ⟨rfl, .inr ⟨d, d', rfl, hd⟩⟩
          · rintro ⟨rfl, ⟨v, rfl, hn, _⟩ | ⟨e', e'', he, h⟩⟩
            · exact (hn d rfl).elim
            · cases he; rw [hd] at h; cases h; exact ⟨rfl, rfl⟩
    | _ =>
      refine ⟨fun y fs' => by simp, fun e fs' => ?_⟩
      simp only [EStateM.Result.error.injEq, reduceCtorEq, false_and, exists_false, or_false,
        false_or, Option.some.injEq, exists_eq_left', ne_eq, not_false_eq_true, implies_true,
        true_and]
      exact ⟨fun h => ⟨h.2.symm, h.1.symm⟩, fun h => ⟨h.2.symm, h.1.symm⟩⟩

/-- **C91 is violated** when writing fails: the file is opened for writing, which empties it,
before the dictionary is made (195-200).  If `to_dict` or `yaml.dump` raises, the configuration
the file had is lost, and reading the file raises `TypeError`. -/
theorem C91_violated_lost (R : Registry F) (C : Conv F) (fuel : Nat) (can : String → Bool)
    (py : F → Bool) (y : CSynth F) (name : String) (fs fs' : Files F) (e : Err)
    (hc : can name = true) (h : writeTo R fuel can py y name fs = .error e fs') :
    fs' name = some .none ∧ fromFile R C name fs' = .error .type fs' := by
  have key : fs' = fs.write name .none := by
    rw [writeTo_cases, hc] at h
    simp only [if_true] at h
    cases hd : toDict R fuel y with
    | error e => rw [hd] at h; cases h; rfl
    | ok d =>
      rw [hd] at h
      simp only at h
      split at h
      · cases h
      · cases h; rfl
  subst key
  exact ⟨write_same .., ((C91_read R C name _).2 _ _).2 ⟨rfl, .inr (.inl ⟨.none, write_same ..,
    by simp, rfl⟩)⟩⟩

/-! ### What is written, in another order -/

theorem sameItems_sorted {d : Dict (PVal F)} (hn : (Dict.keys d).Nodup)
    {r : String → PVal F → PVal F → Prop} (h : ∀ k v, (k, v) ∈ d → r k v (sortVal v)) :
    SameItems r d (sortItems (sortValues d)) := by
  have hn' : (Dict.keys (sortItems (sortValues d))).Nodup := (keys_sorted d).nodup_iff.2 hn
  refine ConfigExample.sameItems_of hn hn' (fun k hk => (keys_sorted d).mem_iff.1 hk) ?_
  rintro ⟨k, v⟩ hp
  refine ⟨sortVal v, Dict.get?_of_mem hn' ((perm_sortItems _).mem_iff.2 ?_), h k v hp⟩
  rw [sortValues_eq]
  exact List.mem_map.2 ⟨_, hp, rfl⟩

theorem sortVal_flag {v : PVal F} (h : IsFlag v) : sortVal v = v := by
  rcases h with rfl | ⟨b, rfl⟩ <;> rfl

theorem represents_flag (py : F → Bool) {v : PVal F} (h : IsFlag v) : represents py v = true := by
  rcases h with rfl | ⟨b, rfl⟩ <;> rfl

theorem params_sorted {o : Obj F} (h : (Dict.keys o.storage).Nodup) :
    ParamsReordered (.dict (pvTruth o)) (sortVal (.dict (pvTruth o))) := by
  rw [sortVal]
  refine .inr ⟨_, _, rfl, rfl, sameItems_sorted ?_ fun k v hm => ?_⟩
  · rw [keys_pvTruth]; exact nodup_truthOf _ h
  · obtain ⟨p, _, e⟩ := List.mem_map.1 hm
    cases e; rfl

theorem represents_params (py : F → Bool) {o : Obj F} (h : PyNumbers py o) :
    represents py (.dict (pvTruth o)) = true := by
  refine (representsItems_iff py _).2 fun k v hm => ?_
  obtain ⟨p, hp, e⟩ := List.mem_map.1 hm
  cases e
  exact h _ _ hp

theorem section_sorted {cls : String} {o : Obj F} (h : (Dict.keys o.storage).Nodup)
    (hc : cls ≠ "is_rate") :
    SectionReordered (.dict [(cls, .dict (pvTruth o))])
      (sortVal (.dict [(cls, .dict (pvTruth o))])) := by
  rw [sortVal]
  refine .inr ⟨_, _, rfl, rfl, rfl, sameItems_sorted (by simp [Dict.keys]) fun k v hm => ?_⟩
  cases List.mem_singleton.1 hm
  exact ⟨params_sorted h, fun e => (hc e).elim⟩


theorem represents_section (py : F → Bool) {cls : String} {o : Obj F} (h : PyNumbers py o) :
    represents py (.dict [(cls, .dict (pvTruth o))]) = true := by
  refine (representsItems_iff py _).2 fun k v hm => ?_
  cases List.mem_singleton.1 hm
  exact represents_params py h

theorem spatial_sorted (R : Registry F) {c : CDist F} (h : (Dict.keys c.obj.storage).Nodup)
    (hc : c.cls ≠ "is_rate") (hf : R.cosmo c.cls = true → IsFlag c.isRate)
    (hl : R.cosmo c.cls = true → c.cls < "is_rate") :
    SectionReordered (.dict (spatialDict R c)) (sortVal (.dict (spatialDict R c))) := by
  unfold spatialDict
  split
  · rename_i hk
    rw [show Dict.set (distDict c) "is_rate" c.isRate =
      [(c.cls, .dict (pvTruth c.obj)), ("is_rate", c.isRate)] by
        simp [Dict.set, distDict, hc]]
    rw [sortVal]
    refine .inr ⟨_, _, rfl, rfl, ?_, sameItems_sorted ?_ fun k v hm => ?_⟩
    · simp [sortValues, sortItems, insertItem, hl hk, Dict.keys]
    · simp [Dict.keys, hc]
    · simp only [List.mem_cons, Prod.mk.injEq, List.not_mem_nil, or_false] at hm
      rcases hm with ⟨rfl, rfl⟩ | ⟨rfl, rfl⟩
      · exact ⟨params_sorted h, fun e => (hc e).elim⟩
      · rw [sortVal_flag (hf hk)]
        exact ⟨.inl rfl, fun _ => rfl⟩
  · exact section_sorted h hc

theorem represents_spatial (R : Registry F) (py : F → Bool) {c : CDist F}
    (h : PyNumbers py c.obj) (hf : R.cosmo c.cls = true → IsFlag c.isRate) :
    represents py (.dict (spatialDict R c)) = true := by
  unfold spatialDict
  split
  · rename_i hk
    refine (representsItems_iff py _).2 fun k v hm => ?_
    rcases mem_setDict hm with e | hm
    · cases e; exact represents_flag py (hf hk)
    · cases List.mem_singleton.1 hm
      exact represents_params py h
  · exact represents_section py h

/-- What an entry has. -/
theorem mem_entry {c : CSampler F} {type : String} {d : Dict (PVal F)}
    (hd : entryOf c type = .dict d) {k : String} {v : PVal F} (hm : (k, v) ∈ d) :
    (k = "selection" ∧ v = selDict c.sel) ∨
    (k = "secondary" ∧ v = .list (c.secs.map fun p => PVal.str p.1)) ∨
    (k, v) ∈ pvTruth c.obj ∨ (k = "type" ∧ v = .str type) ∨
    (k = "observed" ∧ v = c.observed) := by
  unfold entryOf at hd
  cases hd
  rcases mem_setDict hm with e | hm
  · cases e; exact .inl ⟨rfl, rfl⟩
  rcases mem_setDict hm with e | hm
  · cases e; exact .inr (.inl ⟨rfl, rfl⟩)
  have main : ∀ (l a : Dict (PVal F)),
      (k, v) ∈ l.foldl (fun d p => Dict.set d p.1 p.2) a → (k, v) ∈ l ∨ (k, v) ∈ a := by
    intro l
    induction l with
    | nil => exact fun a h => .inr h
    | cons p l ih =>
      intro a h
      rcases ih _ h with h | h
      · exact .inl (List.mem_cons_of_mem _ h)
      · rcases mem_setDict h with e | h
        · exact .inl (e ▸ List.mem_cons_self ..)
        · exact .inr h
  rcases main _ _ hm with h | h
  · exact .inr (.inr (.inl h))
  · simp only [List.mem_cons, Prod.mk.injEq, List.not_mem_nil, or_false] at h
    exact .inr (.inr (.inr h))

theorem selection_entry {c : CSampler F} {type : String} {d : Dict (PVal F)}
    (hd : entryOf c type = .dict d) : Dict.get? d "selection" = some (selDict c.sel) := by
  unfold entryOf at hd
  cases hd
  rw [Dict.get?_set]
  simp

variable [∀ n, OfNat F n]

theorem entry_sorted {R : Registry F} {c : CSampler F} (type : String) (hs : SamplerOk R c)
    (hf : IsFlag c.observed) (hc : c.sel.cls ≠ "is_rate") :
    EntryReordered (entryOf c type) (sortVal (entryOf c type)) := by
  obtain ⟨K, _, _, ⟨hn, _⟩, _, ⟨_, _, _, ⟨hsn, _⟩, _⟩, _⟩ := hs
  have hno : ∀ d, c.observed ≠ .dict d := by
    rcases hf with h | ⟨b, h⟩ <;> simp [h]
  have hp := proper_entry type ⟨hn, hsn, hno⟩
  obtain ⟨d, hd⟩ : ∃ d, entryOf c type = .dict d := ⟨_, rfl⟩
  rw [hd] at hp ⊢
  rw [sortVal]
  refine ⟨_, _, rfl, rfl, sameItems_sorted hp.nodup fun k v hm => ?_⟩
  by_cases hk : k = "selection"
  · subst hk
    have := Dict.get?_of_mem hp.nodup hm
    rw [selection_entry hd] at this
    cases this
    rw [if_pos rfl]
    exact section_sorted hsn hc
  · rw [if_neg hk]
    rcases mem_entry hd hm with ⟨e, _⟩ | ⟨_, rfl⟩ | h | ⟨_, rfl⟩ | ⟨_, rfl⟩
    · exact (hk e).elim
    · rw [sortVal, sortList_eq, List.map_map]; rfl
    · obtain ⟨p, _, e⟩ := List.mem_map.1 h
      cases e; rfl
    · rfl
    · exact (sortVal_flag hf).symm

theorem represents_entry (py : F → Bool) {c : CSampler F} (type : String)
    (h : IsFlag c.observed ∧ PyNumbers py c.obj ∧ PyNumbers py c.sel.obj) :
    represents py (entryOf c type) = true := by
  obtain ⟨d, hd⟩ : ∃ d, entryOf c type = .dict d := ⟨_, rfl⟩
  rw [hd]
  refine (representsItems_iff py _).2 fun k v hm => ?_
  rcases mem_entry hd hm with ⟨_, rfl⟩ | ⟨_, rfl⟩ | h' | ⟨_, rfl⟩ | ⟨_, rfl⟩
  · exact represents_section py h.2.2
  · refine (representsList_iff py _).2 fun v hv => ?_
    obtain ⟨p, _, rfl⟩ := List.mem_map.1 hv
    rfl
  · exact (representsItems_iff py _).1 (represents_params py h.2.1) _ _ h'
  · rfl
  · exact represents_flag py h.1

theorem mem_optSection {key k : String} {o : Option (PVal F)} {v : PVal F}
    (h : (k, v) ∈ optSection key o) : k = key ∧ o = some v := by
  cases o with
  | none => cases h
  | some w => cases List.mem_singleton.1 h; exact ⟨rfl, rfl⟩

/-- What a configuration has. -/
theorem mem_written {R : Registry F} {y : CSynth F} {aux : Dict (PVal F)} {k : String}
    {v : PVal F} (h : (k, v) ∈ written R y aux) :
    (k ≠ "auxiliary samplers" ∧ (v = .int y.seed ∨ v = .dict (spatialDict R y.spatial) ∨
      (∃ c, y.lum = some c ∧ v = .dict (distDict c)) ∨
      ∃ s, (y.fluxSel = some s ∨ y.distSel = some s ∨ y.spatSel = some s) ∧ v = selDict s)) ∨
    (k = "auxiliary samplers" ∧ v = .dict aux) := by
  unfold written at h
  simp only [List.mem_append, List.mem_cons, List.not_mem_nil, or_false, Prod.mk.injEq] at h
  rcases h with (((((⟨rfl, rfl⟩ | ⟨rfl, rfl⟩) | h) | h) | h) | h) | h
  · exact .inl ⟨by decide, .inl rfl⟩
  · exact .inl ⟨by decide, .inr (.inl rfl)⟩
  · obtain ⟨rfl, h'⟩ := mem_optSection h
    obtain ⟨c, hc, rfl⟩ := Option.map_eq_some_iff.1 h'
    exact .inl ⟨by decide, .inr (.inr (.inl ⟨c, hc, rfl⟩))⟩
  · obtain ⟨rfl, h'⟩ := mem_optSection h
    obtain ⟨c, hc, rfl⟩ := Option.map_eq_some_iff.1 h'
    exact .inl ⟨by decide, .inr (.inr (.inr ⟨c, .inl hc, rfl⟩))⟩
  · obtain ⟨rfl, h'⟩ := mem_optSection h
    obtain ⟨c, hc, rfl⟩ := Option.map_eq_some_iff.1 h'
    exact .inl ⟨by decide, .inr (.inr (.inr ⟨c, .inr (.inl hc), rfl⟩))⟩
  · obtain ⟨rfl, h'⟩ := mem_optSection h
    obtain ⟨c, hc, rfl⟩ := Option.map_eq_some_iff.1 h'
    exact .inl ⟨by decide, .inr (.inr (.inr ⟨c, .inr (.inr hc), rfl⟩))⟩
  · exact .inr h

theorem nodup_written (R : Registry F) (y : CSynth F) (aux : Dict (PVal F)) :
    (Dict.keys (written R y aux)).Nodup := by
  unfold written
  cases y.lum <;> cases y.fluxSel <;> cases y.distSel <;> cases y.spatSel <;>
    simp [optSection, Dict.keys]

/-- The entries of a configuration. -/
theorem Inv.entry {y : CSynth F} {aux : Dict (PVal F)} (h : Inv y aux (Used y)) {k : String}
    {v : PVal F} (hm : (k, v) ∈ aux) :
    ∃ j c, Used y j ∧ Dict.get? y.objs j = some c ∧ c.name = k ∧ v = entryOf c c.cls := by
  obtain ⟨j, c, hj, hc, rfl⟩ := h.keys k (List.mem_map.2 ⟨_, hm, rfl⟩)
  have hv := Dict.get?_of_mem h.nodup hm
  rw [h.done j c hj hc] at hv
  exact ⟨j, c, hj, hc, rfl, (Option.some.inj hv).symm⟩

theorem proper_written {R : Registry F} {rank : String → Nat} {py : F → Bool} {y : CSynth F}
    (hy : Config R rank y) (hp : Dumpable R py y) {aux : Dict (PVal F)}
    (ha : Inv y aux (Used y)) : Proper (.dict (written R y aux)) := by
  have flag : ∀ {v : PVal F}, IsFlag v → ∀ d, v ≠ .dict d := by
    rintro v (rfl | ⟨b, rfl⟩) d <;> simp
  have sel : ∀ s, (y.fluxSel = some s ∨ y.distSel = some s ∨ y.spatSel = some s) →
      (Dict.keys s.obj.storage).Nodup := by
    rintro s (h | h | h)
    · obtain ⟨_, _, _, h, _⟩ := hy.flux s h; exact h.1
    · obtain ⟨_, _, _, h, _⟩ := hy.dist s h; exact h.1
    · obtain ⟨_, _, _, h, _⟩ := hy.spat s h; exact h.1
  obtain ⟨_, _, _, _, hsp, _⟩ := hy.spatial
  refine .dict _ (nodup_written R y aux) fun k v hm => ?_
  rcases mem_written hm with ⟨_, rfl | rfl | ⟨c, hc, rfl⟩ | ⟨s, hs, rfl⟩⟩ | ⟨_, rfl⟩
  · exact .leaf (by simp)
  · unfold spatialDict
    split
    · rename_i hk
      exact Spec.Proper.set (.one (proper_truth hsp)) _ (.leaf (flag (hp.rate hk)))
    · exact .one (proper_truth hsp)
  · obtain ⟨⟨_, _, _, _, h, _⟩, _⟩ := hy.lum c hc
    exact .one (proper_truth h)
  · exact proper_sel (sel s hs)
  · refine .dict _ ha.nodup fun k v hm => ?_
    obtain ⟨j, c, hj, hc, _, rfl⟩ := ha.entry hm
    obtain ⟨c', hc', _, _, _, ⟨hn, _⟩, _, ⟨_, _, _, ⟨hsn, _⟩, _⟩, _⟩ := hy.sampler j hj
    rw [hc] at hc'; cases hc'
    exact proper_entry _ ⟨hn, hsn, flag (hp.samplers j c hj hc).1⟩

theorem represents_written {R : Registry F} {py : F → Bool} {y : CSynth F}
    (hp : Dumpable R py y) {aux : Dict (PVal F)} (ha : Inv y aux (Used y)) :
    represents py (.dict (written R y aux)) = true := by
  refine (representsItems_iff py _).2 fun k v hm => ?_
  rcases mem_written hm with ⟨_, rfl | rfl | ⟨c, hc, rfl⟩ | ⟨s, hs, rfl⟩⟩ | ⟨_, rfl⟩
  · rfl
  · exact represents_spatial R py hp.spatial hp.rate
  · exact represents_section py (hp.lum c hc)
  · exact represents_section py (hp.sels s hs)
  · refine (representsItems_iff py _).2 fun k v hm => ?_
    obtain ⟨j, c, hj, hc, _, rfl⟩ := ha.entry hm
    exact represents_entry py _ (hp.samplers j c hj hc)

theorem written_reordered {R : Registry F} {rank : String → Nat} {py : F → Bool} {y : CSynth F}
    (hy : Config R rank y) (hp : Dumpable R py y) {aux : Dict (PVal F)}
    (ha : Inv y aux (Used y)) (hl : R.cosmo y.spatial.cls = true → y.spatial.cls < "is_rate")
    (hd : Dict.get? R.dists "is_rate" = none) (hs : Dict.get? R.sels "is_rate" = none) :
    Reordered (written R y aux) (sortItems (sortValues (written R y aux))) := by
  have selOk : ∀ {f : SelFlags → SelFlags} {s : CSel F}, SelOk R f s →
      SectionReordered (selDict s) (sortVal (selDict s)) := by
    rintro f s ⟨K, hK, _, ⟨hn, _⟩, _⟩
    exact section_sorted hn fun e => by rw [e, hs] at hK; cases hK
  obtain ⟨_, _, _, _, hsp, _⟩ := hy.spatial
  refine sameItems_sorted (nodup_written R y aux) fun k v hm => ?_
  rcases mem_written hm with ⟨hk, h⟩ | ⟨rfl, rfl⟩
  · rw [if_neg hk]
    rcases h with rfl | rfl | ⟨c, hc, rfl⟩ | ⟨s, h, rfl⟩
    · exact .inl rfl
    · exact spatial_sorted R hsp hy.notRate hp.rate hl
    · obtain ⟨⟨K, hK, _, _, hn, _⟩, _⟩ := hy.lum c hc
      exact section_sorted hn fun e => by rw [e, hd] at hK; cases hK
    · rcases h with h | h | h
      · exact selOk (hy.flux s h)
      · exact selOk (hy.dist s h)
      · exact selOk (hy.spat s h)
  · rw [if_pos rfl, sortVal]
    refine ⟨_, _, rfl, rfl, sameItems_sorted ha.nodup fun k v hm => ?_⟩
    obtain ⟨j, c, hj, hc, _, rfl⟩ := ha.entry hm
    obtain ⟨c', hc', hok⟩ := hy.sampler j hj
    rw [hc] at hc'; cases hc'
    refine entry_sorted _ hok (hp.samplers j c hj hc).1 fun e => ?_
    obtain ⟨_, _, _, _, _, ⟨K, hK, _⟩, _⟩ := hok
    rw [e, hs] at hK; cases hK

/-! ### Written and read -/

theorem proper_sortVal {v : PVal F} (h : Proper v) : Proper (sortVal v) := by
  induction h with
  | dict d hn _ ih =>
    rw [sortVal]
    refine .dict _ ((keys_sorted d).nodup_iff.2 hn) fun k v hm => ?_
    obtain ⟨w, hw, e⟩ := mem_sorted hm
    simp only at e
    rw [e]
    exact ih k w hw
  | other v hv =>
    refine .other _ fun d => ?_
    cases v <;> simp [sortVal] at hv ⊢

/-- Writing and reading: the synth that is read, and the document of the file. -/
theorem roundtrip_core (R : Registry F) (C : Conv F) (rank : String → Nat) (fuel : Nat)
    (can : String → Bool) (py : F → Bool) (y : CSynth F) (name : String) (fs : Files F)
    (hy : Config R rank y) (hf : ∀ i, Root y i → rank i < fuel) (hc : can name = true)
    (hp : Dumpable R py y) (hl : R.cosmo y.spatial.cls = true → y.spatial.cls < "is_rate")
    (hd : Dict.get? R.dists "is_rate" = none) (hs : Dict.get? R.sels "is_rate" = none)
    (hder : ∀ i c, Used y i → Dict.get? y.objs i = some c → R.derived c.cls = true →
      y.derived = some i) :
    ∃ fs' y1 y' aux, writeTo R fuel can py y name fs = .ok () fs' ∧
      fromFile R C name fs' = .ok y' fs' ∧ SameConfig R y y1 ∧ EqSynth y1 y' ∧
      Inv y aux (Used y) ∧ fs' name = some (sortVal (.dict (written R y aux))) ∧
      Describes R C (written R y aux) y1 ∧
      Describes R C (sortItems (sortValues (written R y aux))) y' := by
  obtain ⟨aux, a1, a2, _⟩ := auxDict_ok hy hf
  have hw := toDict_eq R fuel y aux a1
  obtain ⟨d, y1, d1, h1, h2, h3⟩ := C41_roundtrip_partial R C rank fuel y hy hf
  rw [hw] at h1
  cases h1
  have hprop := proper_written hy hp a2
  have hdesc := C63_reads R C _ _ _ hprop h2
  have one : ∀ i, derivedAt R y1.objs i = true →
      ∃ j c, y.derived = some j ∧ Dict.get? y.objs j = some c ∧ c.name = i := by
    intro i hi
    have g := (get?_written R y aux).2.2.2.2.2.2
    unfold derivedAt at hi
    cases hg : Dict.get? y1.objs i with
    | none => rw [hg] at hi; cases hi
    | some c1 =>
      rw [hg] at hi
      rcases hdesc.samplers with ⟨hn, _⟩ | ⟨E, sec, hE, hr⟩
      · rw [g] at hn; cases hn
      · rw [g] at hE
        cases hE
        have hk : i ∈ Dict.keys aux := by
          rw [← hr.keys]
          exact List.mem_map.2 ⟨_, Dict.mem_of_get? hg, rfl⟩
        obtain ⟨j, c, hj, hcj, rfl⟩ := a2.keys i hk
        obtain ⟨c', hc', hsame, _⟩ := h3.sampler j c hj hcj
        rw [hg] at hc'
        cases hc'
        simp only at hi
        rw [hsame.1] at hi
        exact ⟨j, c, hder j c hj hcj hi, hcj, rfl⟩
  obtain ⟨y', e', g1, g2⟩ := C43_order_partial R C _ _ _ y1
    (written_reordered hy hp a2 hl hd hs) h2 (by
      intro i j hi hj
      obtain ⟨a, ca, da, ga, rfl⟩ := one i hi
      obtain ⟨b, cb, db, gb, rfl⟩ := one j hj
      rw [da] at db
      cases db
      rw [ga] at gb
      cases gb
      rfl)
  refine ⟨(fs.write name .none).write name (sortVal (.dict (written R y aux))), y1, y', aux, ?_, ?_,
    h3, g2, a2, write_same .., hdesc, ?_⟩
  · rw [writeTo_cases, hc, hw]
    simp only [if_true, represents_written hp a2]
  · refine ((C91_read R C name _).1 _ _).2 ⟨rfl, _, _, ?_, g1⟩
    rw [write_same, sortVal]
  · refine C63_reads R C _ _ _ ?_ g1
    have := proper_sortVal hprop
    rwa [sortVal] at this

/-- **C91 (written and read)** (partial): a configuration that `to_dict` describes completely
(`Config`, see C41) and that has only Python's own numbers and flags can be written to a file,
over whatever the file had; reading the file, as often as one likes, gives the configuration, up
to the order of the samplers.  The name of a cosmological class has to come before `is_rate` in
the alphabet, no class may have this name, and there is one derived luminosity sampler at most.
Missing for the full claim, and false there: other values (`C91_violated_numpy`), other names
(`C91_violated_lowercase`) and the order of the samplers (`C91_violated_order`). -/
theorem C91_roundtrip_partial (R : Registry F) (C : Conv F) (rank : String → Nat) (fuel : Nat)
    (can : String → Bool) (py : F → Bool) (y : CSynth F) (name : String) (fs : Files F)
    (hy : Config R rank y) (hf : ∀ i, Root y i → rank i < fuel) (hc : can name = true)
    (hp : Dumpable R py y) (hl : R.cosmo y.spatial.cls = true → y.spatial.cls < "is_rate")
    (hd : Dict.get? R.dists "is_rate" = none) (hs : Dict.get? R.sels "is_rate" = none)
    (hder : ∀ i c, Used y i → Dict.get? y.objs i = some c → R.derived c.cls = true →
      y.derived = some i) :
    ∃ fs' y1 y', writeTo R fuel can py y name fs = .ok () fs' ∧
      fromFile R C name fs' = .ok y' fs' ∧ SameConfig R y y1 ∧ EqSynth y1 y' := by
  obtain ⟨fs', y1, y', aux, h1, h2, h3, h4, -⟩ :=
    roundtrip_core R C rank fuel can py y name fs hy hf hc hp hl hd hs hder
  exact ⟨fs', y1, y', h1, h2, h3, h4⟩

/-- **C91 (built-in classes)**: everything put together from registered classes as in C64 can be
written and read if its values are Python's own numbers and flags. -/
theorem C91_builtin (half : F) (hlit : Literals half) (C : Conv F) (rank : String → Nat)
    (fuel : Nat) (can : String → Bool) (py : F → Bool) (y : CSynth F) (name : String)
    (fs : Files F) (hy : BuiltSynth half rank y) (hf : ∀ i, Root y i → rank i < fuel)
    (hc : can name = true) (hp : Dumpable (builtins half) py y) :
    ∃ fs' y1 y', writeTo (builtins half) fuel can py y name fs = .ok () fs' ∧
      fromFile (builtins half) C name fs' = .ok y' fs' ∧ SameConfig (builtins half) y y1 ∧
      EqSynth y1 y' := by
  refine C91_roundtrip_partial (builtins half) C rank fuel can py y name fs
    (built_config half hlit rank y hy) hf hc hp ?_ ?_ ?_ ?_
  · intro _
    have h := hy.spatial.1
    simp only [spatialNames, cosmoNames, List.cons_append, List.nil_append, List.mem_cons,
      List.not_mem_nil, or_false] at h
    rcases h with h | h | h | h | h | h | h <;> rw [h] <;> decide
  · rw [Dict.get?_eq_none_iff, (C64_distributions half).2.1]
    decide
  · rw [Dict.get?_eq_none_iff, (C64_selections half).2.1]
    decide
  · intro i c hi hci hdc
    obtain ⟨c', h1, _, ⟨k', h2, _⟩, _⟩ := hy.sampler i hi
    rw [hci] at h1; cases h1
    unfold Registry.derived at hdc
    rw [h2] at hdc
    simp only at hdc
    rw [((C64_samplers half).2.2 _ _ h2).1] at hdc
    cases hdc

/-- **C91 (ready-made populations)**: a synth made by any class of `popsynth/populations` from
Python's numbers can be written and read. -/
theorem C91_ready_made (half : F) (hlit : Literals half) (C : Conv F) (free : FreeFlags)
    (r : Except Err (NewSynth F)) (hr : ReadyMade free r) (s : NewSynth F) (hs : r = .ok s)
    (fuel : Nat) (can : String → Bool) (py : F → Bool) (name : String) (fs : Files F)
    (hc : can name = true) (hp : PyNumbers py s.spatial.config.obj)
    (hlum : ∀ l, s.luminosity = some l → PyNumbers py l.config.obj) :
    ∃ fs' y1 y', writeTo (builtins half) fuel can py s.config name fs = .ok () fs' ∧
      fromFile (builtins half) C name fs' = .ok y' fs' ∧
      SameConfig (builtins half) s.config y1 ∧ EqSynth y1 y' := by
  refine C91_builtin half hlit C (fun _ => 0) fuel can py _ name fs
    (plain_built (readyMade_plain hr s hs) half _) (fun _ hi => (plain_used (.root hi)).elim) hc
    ⟨hp, fun _ => ?_, ?_, ?_, fun i c hi => (plain_used hi).elim⟩
  · show IsFlag s.spatial.config.isRate
    unfold DistObj.config
    cases s.spatial.isRate with
    | none => exact .inl rfl
    | some b => exact .inr ⟨b, rfl⟩
  · intro c h
    obtain ⟨l, hl, rfl⟩ := Option.map_eq_some_iff.1 h
    exact hlum l hl
  · rintro s (h | h | h) <;> cases h

/-! ### Examples and counterexamples -/

open ConfigExample

/-- The example of C41, with a sampler and its secondary, is written and read. -/
example (fs : Files Int) : ∃ fs' y1 y',
    writeTo reg 5 (fun _ => true) (fun _ => true) synth "s.yml" fs = .ok () fs' ∧
    fromFile reg conv "s.yml" fs' = .ok y' fs' ∧ SameConfig reg synth y1 ∧ EqSynth y1 y' := by
  refine C91_roundtrip_partial reg conv _ 5 _ _ synth _ fs config ?_ rfl ?_ ?_ rfl rfl ?_
  · intro i _
    show (if i = "0" then 1 else 0) < 5
    split <;> decide
  · refine ⟨fun _ _ _ => rfl, fun _ => .inr ⟨_, rfl⟩, fun _ _ _ _ _ => rfl,
      fun _ _ _ _ _ => rfl, fun i c hi hc => ?_⟩
    rcases used hi with rfl | rfl <;> cases hc <;>
      exact ⟨.inr ⟨_, rfl⟩, fun _ _ _ => rfl, fun _ _ _ => rfl⟩
  · intro _; decide
  · intro i c hi hc hd
    rcases used hi with rfl | rfl <;> cases hc <;> cases hd

/-- The file of that example. -/
example : ∃ fs', writeTo reg 5 (fun _ => true) (fun _ => true) synth "s.yml" (fun _ => none) =
    .ok () fs' ∧ fs' "s.yml" = some (.dict [
      ("auxiliary samplers", .dict [
        ("x", .dict [("mu", .num (-1)), ("observed", .bool true),
          ("secondary", .list [.str "y"]),
          ("selection", .dict [("LowerBound", .dict [("boundary", .num 7)])]),
          ("tau", .num 2), ("type", .str "NormalAuxSampler")]),
        ("y", .dict [("observed", .bool false), ("secondary", .list []),
          ("selection", .dict [("UnitySelection", .dict [])]),
          ("type", .str "NormalAuxSampler")])]),
      ("flux selection", .dict [("HardFluxSelection", .dict [("boundary", .num 1)])]),
      ("luminosity distribution", .dict [("ParetoDistribution",
        .dict [("Lmin", .num 5), ("alpha", .num 2)])]),
      ("seed", .int 1234),
      ("spatial distribution", .dict [("SFRDistribution", .dict [("r0", .num 3)]),
        ("is_rate", .bool false)])]) :=
  ⟨_, rfl, rfl⟩

/-- Two samplers, `x` attached first. -/
def ConfigExample.twoSamplers : CSynth Int where
  seed := 1
  spatial := { cls := "SFRDistribution", obj := { storage := [("r0", some 3), ("a", some 2)] }
               isRate := .bool true }
  objs := [
    ("0", { cls := "NormalAuxSampler", name := "x", obsName := "x_obs", observed := .bool true }),
    ("1", { cls := "NormalAuxSampler", name := "a", obsName := "a_obs", observed := .bool true })]
  aux := [("x", "0"), ("a", "1")]

/-- **C91 is violated** for the order of the samplers: the synth that is read has its samplers in
alphabetical order, and draws them in this order. -/
theorem C91_violated_order : ∃ fs' y',
    writeTo reg 5 (fun _ => true) (fun _ => true) twoSamplers "s.yml" (fun _ => none) =
      .ok () fs' ∧ fromFile reg conv "s.yml" fs' = .ok y' fs' ∧
    Dict.keys twoSamplers.aux = ["x", "a"] ∧ Dict.keys y'.aux = ["a", "x"] :=
  ⟨_, _, rfl, rfl, rfl, rfl⟩

/-- A cosmological distribution of a user's class. -/
def ConfigExample.lower (cls : String) : CSynth Int where
  seed := 1
  spatial := { cls := cls, obj := { storage := [("r0", some 3), ("a", some 2)] }
               isRate := .bool true }

/-- **C91 is violated** for cosmological classes whose name comes after `is_rate` in the
alphabet: the synth is written, `from_dict` of the dictionary works, but reading the file takes
`is_rate` for the name of the class: `KeyError`. -/
theorem C91_violated_lowercase : ∃ fs' d y' d',
    writeTo reg' 5 (fun _ => true) (fun _ => true) (lower "mySFR") "s.yml" (fun _ => none) =
      .ok () fs' ∧ fromFile reg' conv "s.yml" fs' = .error .key fs' ∧
    toDict reg' 5 (lower "mySFR") = .ok d ∧ fromDict reg' conv d = .ok y' d' :=
  ⟨_, _, _, _, rfl, rfl, rfl, rfl⟩

/-- **C91 is violated** for numpy numbers: parameters may be set to numpy numbers, which
`yaml.SafeDumper` cannot represent.  The synth is not written, and what the file had before, here
a synth that could be read, is lost. -/
theorem C91_violated_numpy : ∃ fs fs' y, fs "s.yml" ≠ none ∧
    fromFile reg conv "s.yml" fs = .ok y fs ∧
    writeTo reg 5 (fun _ => true) (fun v => v != 3) twoSamplers "s.yml" fs = .error .user fs' ∧
    fromFile reg conv "s.yml" fs' = .error .type fs' := by
  obtain ⟨fs, y, h1, h2, _⟩ := C91_violated_order
  have h3 : writeTo reg 5 (fun _ => true) (fun v => v != 3) twoSamplers "s.yml" fs =
      .error .user (fs.write "s.yml" .none) := rfl
  refine ⟨fs, _, y, ?_, h2, h3, (C91_violated_lost reg conv 5 _ _ _ _ fs _ _ rfl h3).2⟩
  intro h
  cases h1
  cases h

end Popsynth
