import Verif.Lemmas.Hdf5

/-!
# C38: nested dictionaries survive HDF5
-/

set_option autoImplicit false
set_option linter.unusedSectionVars false

namespace Popsynth

variable {F : Type}

namespace Spec

/-- Names that are a single HDF5 link. -/
def GoodKey (k : String) : Prop := k ≠ "" ∧ k ≠ "." ∧ '/' ∉ k.toList

/-- Lists have strings only. -/
def Strings (l : List (PVal F)) : Prop := ∀ v ∈ l, ∃ s, v = .str s

mutual
/-- Supported values all the way down: numbers, strings, bytes, arrays, lists of strings,
dictionaries. -/
def Supported : PVal F → Prop
  | .none => False
  | .other => False
  | .list l => Strings l
  | .dict d => SupportedAll d
  | _ => True

def SupportedAll : List (String × PVal F) → Prop
  | [] => True
  | (_, v) :: d => Supported v ∧ SupportedAll d
end

mutual
/-- Keys at every level are single links and, as in every Python dictionary, distinct. -/
def GoodKeys : PVal F → Prop
  | .list l => ∀ s, .str s ∈ l → GoodKey s
  | .dict d => (d.map Prod.fst).Nodup ∧ GoodKeysAll d
  | _ => True

def GoodKeysAll : List (String × PVal F) → Prop
  | [] => True
  | (k, v) :: d => GoodKey k ∧ GoodKeys v ∧ GoodKeysAll d
end

mutual
/-- No string `"FILL_VALUE"` and no bytes that are text. -/
def Unambiguous (decode : List UInt8 → Option String) : PVal F → Prop
  | .str s => s ≠ "FILL_VALUE"
  | .bytes b => decode b = none
  | .dict d => UnambiguousAll decode d
  | _ => True

def UnambiguousAll (decode : List UInt8 → Option String) : List (String × PVal F) → Prop
  | [] => True
  | (_, v) :: d => Unambiguous decode v ∧ UnambiguousAll decode d
end

/-- What a value is at its top: a dictionary or a plain value.  A list of strings is seen as
the dictionary with these keys and empty dictionaries as values. -/
inductive Top (F : Type) where
  | dict
  | plain (v : PVal F)

def top : PVal F → Top F
  | .dict _ => .dict
  | .list _ => .dict
  | v => .plain v

/-- `v[k]`. -/
def child : PVal F → String → Option (PVal F)
  | .dict d, k => (d.find? (fun x => x.1 = k)).map Prod.snd
  | .list l, k => if l.any (fun v => match v with | .str s => s = k | _ => false) then
      some (.dict []) else Option.none
  | _, _ => Option.none

/-- What is found at `v[k₁][k₂]…`. -/
def look : List String → PVal F → Option (Top F)
  | [], v => some (top v)
  | k :: ks, v => (child v k).bind (look ks)

/-- Equal as nested dictionaries, whatever the order of the keys. -/
def Same (v w : PVal F) : Prop := ∀ path, look path v = look path w

end Spec

theorem comps_good {k : String} (h : Spec.GoodKey k) : comps k = [k] := by
  obtain ⟨h1, h2, h3⟩ := h
  unfold comps
  rw [compsFrom_noSlash _ _ h3, if_neg]
  · simp
  · simp only [List.nil_append]
    rintro (e | e)
    · exact h1 (by rw [← String.ofList_toList (s := k), e])
    · exact h2 (by rw [← String.ofList_toList (s := k), e])

/-! ### The tree a dictionary is stored as -/

/-- The tree of a list of strings. -/
def keyTree (l : List String) : H5 F :=
  match l with
  | [] => .data (.str "FILL_VALUE")
  | s :: ss => .group ((asKeys (F := F) (s :: ss)).keys.map (fun k => (k, .data (.str "FILL_VALUE"))))

mutual
def treeOf : PVal F → H5 F
  | .none => .data (.bool false)
  | .other => .data (.bool false)
  | .bool b => .data (.bool b)
  | .int i => .data (.int i)
  | .num v => .data (.num v)
  | .str s => .data (.str s)
  | .bytes b => .data (.bytes b)
  | .arr l => .data (.arr l)
  | .list l => keyTree ((allStrings l).getD [])
  | .dict [] => .data (.str "FILL_VALUE")
  | .dict (x :: d) => .group (treeItems (x :: d))

def treeItems : List (String × PVal F) → Tree F
  | [] => []
  | (k, v) :: d => (k, treeOf v) :: treeItems d
end

theorem keys_treeItems (d : List (String × PVal F)) :
    (treeItems d).map Prod.fst = d.map Prod.fst := by
  induction d with
  | nil => rfl
  | cons x d ih => obtain ⟨k, v⟩ := x; simp [treeItems, ih]

theorem allStrings_iff (l : List (PVal F)) (ss : List String) :
    allStrings l = some ss ↔ l = ss.map .str := by
  induction l generalizing ss with
  | nil => cases ss <;> simp [allStrings]
  | cons v l ih =>
    cases v <;> cases ss <;> simp [allStrings]
    rename_i s t ts
    rw [ih]
    simp [and_comm]

theorem strings_iff (l : List (PVal F)) : Spec.Strings l ↔ ∃ ss, allStrings l = some ss := by
  induction l with
  | nil => simp [Spec.Strings, allStrings]
  | cons v l ih =>
    unfold Spec.Strings at ih ⊢
    cases v <;> simp [allStrings]
    rw [ih]
    constructor
    · rintro ⟨ss, h⟩; exact ⟨_, ss, h, rfl⟩
    · rintro ⟨_, ss, h, _⟩; exact ⟨ss, h⟩

theorem put_ok {chk : Leaf F → Except Err Unit} (hc : ∀ v, chk v = .ok ()) (g : Tree F)
    (p : List String) (v : Leaf F) : put chk g p v = create (.data v) g p := by
  rw [put, hc]; rfl

theorem get?_none_of {β : Type} (c : Dict β) (k : String) (h : k ∉ c.map Prod.fst) :
    Dict.get? c k = none := (Dict.get?_eq_none_iff c k).2 h

theorem saveEmpties_ok {chk : Leaf F → Except Err Unit} (hc : ∀ v, chk v = .ok ())
    (ks : List String) (g c : Tree F) (p : List String) (hg : groupAt g p = some c)
    (hk : ∀ k ∈ ks, Spec.GoodKey k) (hn : (c.map Prod.fst ++ ks).Nodup) (hne : ks ≠ []) :
    saveEmpties chk g p ks
      = .ok (putAt (c ++ ks.map (fun k => (k, .data (.str "FILL_VALUE")))) g p) := by
  induction ks generalizing g c with
  | nil => exact absurd rfl hne
  | cons k ks ih =>
    have hkc : k ∉ c.map Prod.fst := fun m => by
      rw [List.nodup_append] at hn
      exact hn.2.2 k m k (by simp) rfl
    rw [saveEmpties, put_ok hc, comps_good (hk k (by simp)),
      create_at _ _ _ _ _ hg (get?_none_of c k hkc),
      Dict.set_append_of_not_mem c k _ hkc]
    show saveEmpties chk _ p ks = _
    by_cases e : ks = []
    · subst e; simp [saveEmpties]
    · rw [ih _ (c ++ [(k, (H5.data (.str "FILL_VALUE") : H5 F))]) (groupAt_putAt _ _ _)
        (fun k' h' => hk k' (by simp [h'])) (by simpa using hn) e, putAt_putAt]
      simp

theorem keys_asKeys (l : List String) : (asKeys (F := F) l).keys.Nodup ∧
    ∀ s, s ∈ (asKeys (F := F) l).keys ↔ s ∈ l := by
  have gen : ∀ (l : List String) (d : Dict (PVal F)), d.keys.Nodup →
      (l.foldl (fun d s => Dict.set d s (.dict [])) d).keys.Nodup ∧
      ∀ s, s ∈ (l.foldl (fun d s => Dict.set d s (.dict [])) d).keys ↔ s ∈ d.keys ∨ s ∈ l := by
    intro l
    induction l with
    | nil => intro d h; exact ⟨h, by simp⟩
    | cons k l ih =>
      intro d h
      obtain ⟨h1, h2⟩ := ih (Dict.set d k (.dict [])) (Dict.nodup_keys_set _ _ _ h)
      refine ⟨h1, fun s => ?_⟩
      rw [List.foldl_cons, h2, ← Dict.get?_isSome_iff, ← Dict.get?_isSome_iff, Dict.get?_set]
      by_cases e : k = s
      · simp [e]
      · simp [e, eq_comm (a := s)]
  obtain ⟨h1, h2⟩ := gen l [] (by simp [Dict.keys])
  exact ⟨h1, fun s => by rw [asKeys, h2]; simp [Dict.keys]⟩

mutual
theorem saveVal_ok {chk : Leaf F → Except Err Unit} (hc : ∀ v, chk v = .ok ())
    (v : PVal F) (g c : Tree F) (p : List String) (k : String) (hg : groupAt g p = some c)
    (hk : Dict.get? c k = none) (hs : Spec.Supported v) (hgk : Spec.GoodKeys v) :
    saveVal chk g (p ++ [k]) v = .ok (putAt (Dict.set c k (treeOf v)) g p) := by
  match v with
  | .none => exact absurd hs (by simp [Spec.Supported])
  | .other => exact absurd hs (by simp [Spec.Supported])
  | .bool b => rw [saveVal, put_ok hc, create_at _ _ _ _ _ hg hk, treeOf]
  | .int b => rw [saveVal, put_ok hc, create_at _ _ _ _ _ hg hk, treeOf]
  | .num b => rw [saveVal, put_ok hc, create_at _ _ _ _ _ hg hk, treeOf]
  | .str b => rw [saveVal, put_ok hc, create_at _ _ _ _ _ hg hk, treeOf]
  | .bytes b => rw [saveVal, put_ok hc, create_at _ _ _ _ _ hg hk, treeOf]
  | .arr b => rw [saveVal, put_ok hc, create_at _ _ _ _ _ hg hk, treeOf]
  | .list l =>
    rw [Spec.Supported, strings_iff] at hs
    obtain ⟨ss, hss⟩ := hs
    have hl := (allStrings_iff l ss).1 hss
    rw [saveVal, hss, treeOf, hss]
    cases ss with
    | nil =>
      show put chk g (p ++ [k]) _ = _
      rw [put_ok hc, create_at _ _ _ _ _ hg hk]; rfl
    | cons s ss =>
      show saveEmpties chk g (p ++ [k]) _ = _
      have hgk' : ∀ s' ∈ s :: ss, Spec.GoodKey s' := by
        intro s' h'
        rw [Spec.GoodKeys] at hgk
        exact hgk s' (by rw [hl]; exact List.mem_map_of_mem h')
      obtain ⟨n1, n2⟩ := keys_asKeys (F := F) (s :: ss)
      have hg2 : groupAt g (p ++ [k]) = some [] := by
        rw [groupAt_append, hg]; simp [groupAt, hk]
      rw [saveEmpties_ok hc _ g [] (p ++ [k]) hg2 (fun k' h' => hgk' k' ((n2 k').1 h'))
        (by simpa using n1) (by
          intro e
          have := (n2 s).2 (by simp)
          rw [e] at this
          cases this),
        putAt_append c _ g p [k] hg]
      rfl
  | .dict [] =>
    rw [saveVal, put_ok hc, create_at _ _ _ _ _ hg hk, treeOf]
  | .dict (x :: d) =>
    rw [Spec.GoodKeys] at hgk
    rw [Spec.Supported] at hs
    have hg2 : groupAt g (p ++ [k]) = some [] := by
      rw [groupAt_append, hg]; simp [groupAt, hk]
    rw [saveVal, saveItems_ok hc (x :: d) g [] (p ++ [k]) hg2 (by simpa using hgk.1) hs hgk.2
      (by simp), putAt_append c _ g p [k] hg, treeOf]
    rfl

theorem saveItems_ok {chk : Leaf F → Except Err Unit} (hc : ∀ v, chk v = .ok ())
    (d : List (String × PVal F)) (g c : Tree F) (p : List String) (hg : groupAt g p = some c)
    (hn : (c.map Prod.fst ++ d.map Prod.fst).Nodup)
    (hs : Spec.SupportedAll d) (hgk : Spec.GoodKeysAll d) (hne : d ≠ []) :
    saveItems chk g p d = .ok (putAt (c ++ treeItems d) g p) := by
  match d with
  | [] => exact absurd rfl hne
  | (k, v) :: d =>
    rw [Spec.GoodKeysAll] at hgk
    rw [Spec.SupportedAll] at hs
    have hkc : k ∉ c.map Prod.fst := fun m => by
      rw [List.nodup_append] at hn
      exact hn.2.2 k m k (by simp) rfl
    rw [saveItems, comps_good hgk.1,
      saveVal_ok hc v g c p k hg (get?_none_of c k hkc) hs.1 hgk.2.1,
      Dict.set_append_of_not_mem c k _ hkc]
    show saveItems chk _ p d = _
    by_cases e : d = []
    · subst e; simp [saveItems, treeItems]
    · rw [saveItems_ok hc d _ (c ++ [(k, treeOf v)]) p (groupAt_putAt _ _ _)
        (by simpa using hn) hs.2 hgk.2.2 e, putAt_putAt]
      simp [treeItems]
end

/-! ### Unsupported values -/

mutual
theorem saveVal_bad {chk : Leaf F → Except Err Unit} (hc : ∀ v, chk v = .ok ())
    (v : PVal F) (g c : Tree F) (p : List String) (k : String) (hg : groupAt g p = some c)
    (hk : Dict.get? c k = none) (hs : ¬ Spec.Supported v) (hgk : Spec.GoodKeys v) :
    saveVal chk g (p ++ [k]) v = .error .value := by
  match v with
  | .none => rfl
  | .other => rfl
  | .bool b => exact absurd trivial (by simpa [Spec.Supported] using hs)
  | .int b => exact absurd trivial (by simpa [Spec.Supported] using hs)
  | .num b => exact absurd trivial (by simpa [Spec.Supported] using hs)
  | .str b => exact absurd trivial (by simpa [Spec.Supported] using hs)
  | .bytes b => exact absurd trivial (by simpa [Spec.Supported] using hs)
  | .arr b => exact absurd trivial (by simpa [Spec.Supported] using hs)
  | .list l =>
    rw [Spec.Supported, strings_iff] at hs
    rw [saveVal]
    cases e : allStrings l with
    | none => rfl
    | some ss => exact absurd ⟨ss, e⟩ hs
  | .dict [] => exact absurd (by simp [Spec.Supported, Spec.SupportedAll]) hs
  | .dict (x :: d) =>
    rw [Spec.GoodKeys] at hgk
    rw [Spec.Supported] at hs
    have hg2 : groupAt g (p ++ [k]) = some [] := by
      rw [groupAt_append, hg]; simp [groupAt, hk]
    rw [saveVal, saveItems_bad hc (x :: d) g [] (p ++ [k]) hg2 (by simpa using hgk.1) hs hgk.2]

theorem saveItems_bad {chk : Leaf F → Except Err Unit} (hc : ∀ v, chk v = .ok ())
    (d : List (String × PVal F)) (g c : Tree F) (p : List String) (hg : groupAt g p = some c)
    (hn : (c.map Prod.fst ++ d.map Prod.fst).Nodup)
    (hs : ¬ Spec.SupportedAll d) (hgk : Spec.GoodKeysAll d) :
    saveItems chk g p d = .error .value := by
  match d with
  | [] => exact absurd (by simp [Spec.SupportedAll]) hs
  | (k, v) :: d =>
    rw [Spec.GoodKeysAll] at hgk
    rw [Spec.SupportedAll] at hs
    have hkc : k ∉ c.map Prod.fst := fun m => by
      rw [List.nodup_append] at hn
      exact hn.2.2 k m k (by simp) rfl
    rw [saveItems, comps_good hgk.1]
    by_cases hv : Spec.Supported v
    · rw [saveVal_ok hc v g c p k hg (get?_none_of c k hkc) hv hgk.2.1,
        Dict.set_append_of_not_mem c k _ hkc]
      show saveItems chk _ p d = _
      rw [saveItems_bad hc d _ (c ++ [(k, treeOf v)]) p (groupAt_putAt _ _ _)
        (by simpa using hn) (fun h => hs ⟨hv, h⟩) hgk.2.2]
    · rw [saveVal_bad hc v g c p k hg (get?_none_of c k hkc) hv hgk.2.1]
      rfl
end

/-! ### Loading -/

theorem find_load (decode : List UInt8 → Option String) (d : List (String × PVal F)) (k : String) :
    ((loadItems decode (treeItems d)).find? (fun x => x.1 = k)).map Prod.snd
      = ((d.find? (fun x => x.1 = k)).map Prod.snd).map (fun v => loadVal decode (treeOf v)) := by
  induction d with
  | nil => rfl
  | cons x d ih =>
    obtain ⟨k', v⟩ := x
    rw [treeItems, loadItems]
    by_cases e : k' = k
    · simp [e]
    · simp [e] at ih ⊢; exact ih

theorem find_keys (decode : List UInt8 → Option String) (ks : List String) (k : String) :
    ((loadItems decode (ks.map (fun k => (k, (H5.data (.str "FILL_VALUE") : H5 F))))).find?
      (fun x => x.1 = k)).map Prod.snd = if k ∈ ks then some (.dict []) else none := by
  induction ks with
  | nil => rfl
  | cons k' ks ih =>
    rw [List.map_cons, loadItems]
    by_cases e : k' = k
    · simp [e, loadVal, loadLeaf]
    · have e' : k ≠ k' := fun h => e h.symm
      simp [e, e'] at ih ⊢; exact ih

theorem any_str (ss : List String) (k : String) :
    (ss.map (PVal.str (F := F))).any (fun v => match v with | .str s => s = k | _ => false)
      = decide (k ∈ ss) := by
  induction ss with
  | nil => rfl
  | cons s ss ih =>
    simp only [List.map_cons, List.any_cons, ih, List.mem_cons]
    by_cases e : s = k
    · simp [e]
    · have e' : k ≠ s := fun h => e h.symm
      simp [e, e']

theorem top_load (decode : List UInt8 → Option String) (v : PVal F) (hs : Spec.Supported v)
    (hu : Spec.Unambiguous decode v) : Spec.top (loadVal decode (treeOf v)) = Spec.top v := by
  match v with
  | .none => exact absurd hs (by simp [Spec.Supported])
  | .other => exact absurd hs (by simp [Spec.Supported])
  | .bool b => rfl
  | .int b => rfl
  | .num b => rfl
  | .str b => rw [Spec.Unambiguous] at hu; simp [treeOf, loadVal, loadLeaf, hu]
  | .bytes b => rw [Spec.Unambiguous] at hu; simp [treeOf, loadVal, loadLeaf, hu]
  | .arr b => rfl
  | .list l =>
    rw [treeOf]
    cases (allStrings l).getD [] <;> rfl
  | .dict [] => rfl
  | .dict (x :: d) => rfl

theorem child_load (decode : List UInt8 → Option String) (v : PVal F) (hs : Spec.Supported v)
    (hu : Spec.Unambiguous decode v) (k : String) :
    Spec.child (loadVal decode (treeOf v)) k
      = (Spec.child v k).map (fun w => loadVal decode (treeOf w)) := by
  match v with
  | .none => exact absurd hs (by simp [Spec.Supported])
  | .other => exact absurd hs (by simp [Spec.Supported])
  | .bool b => rfl
  | .int b => rfl
  | .num b => rfl
  | .str b => rw [Spec.Unambiguous] at hu; simp [treeOf, loadVal, loadLeaf, hu, Spec.child]
  | .bytes b => rw [Spec.Unambiguous] at hu; simp [treeOf, loadVal, loadLeaf, hu, Spec.child]
  | .arr b => rfl
  | .list l =>
    rw [Spec.Supported, strings_iff] at hs
    obtain ⟨ss, hss⟩ := hs
    have hl := (allStrings_iff l ss).1 hss
    rw [treeOf, hss, Spec.child, hl, any_str]
    cases ss with
    | nil => rfl
    | cons s ss =>
      show Spec.child (.dict (loadItems decode _)) k = _
      rw [Spec.child, find_keys]
      by_cases h : k ∈ s :: ss
      · rw [if_pos (((keys_asKeys _).2 k).2 h), if_pos (by simpa using h)]; rfl
      · rw [if_neg (fun h' => h (((keys_asKeys _).2 k).1 h')), if_neg (by simpa using h)]; rfl
  | .dict [] => rfl
  | .dict (x :: d) =>
    rw [treeOf, loadVal, Spec.child, find_load, Spec.child]

theorem child_good (decode : List UInt8 → Option String) (v w : PVal F) (k : String)
    (hs : Spec.Supported v) (hu : Spec.Unambiguous decode v) (h : Spec.child v k = some w) :
    Spec.Supported w ∧ Spec.Unambiguous decode w := by
  match v with
  | .none => cases h
  | .other => cases h
  | .bool b => cases h
  | .int b => cases h
  | .num b => cases h
  | .str b => cases h
  | .bytes b => cases h
  | .arr b => cases h
  | .list l =>
    rw [Spec.child] at h
    split at h
    · cases h; simp [Spec.Supported, Spec.SupportedAll, Spec.Unambiguous, Spec.UnambiguousAll]
    · cases h
  | .dict d =>
    rw [Spec.Supported] at hs
    rw [Spec.Unambiguous] at hu
    rw [Spec.child] at h
    induction d with
    | nil => cases h
    | cons x d ih =>
      obtain ⟨k', v⟩ := x
      rw [Spec.SupportedAll] at hs
      rw [Spec.UnambiguousAll] at hu
      by_cases e : k' = k
      · simp [e] at h; subst h; exact ⟨hs.1, hu.1⟩
      · simp only [List.find?_cons, e, decide_false] at h
        exact ih hs.2 hu.2 h

theorem same_load (decode : List UInt8 → Option String) (v : PVal F) (hs : Spec.Supported v)
    (hu : Spec.Unambiguous decode v) : Spec.Same (loadVal decode (treeOf v)) v := by
  intro path
  induction path generalizing v with
  | nil => exact congrArg some (top_load decode v hs hu)
  | cons k ks ih =>
    rw [Spec.look, Spec.look, child_load decode v hs hu]
    cases e : Spec.child v k with
    | none => rfl
    | some w =>
      obtain ⟨h1, h2⟩ := child_good decode v w k hs hu e
      exact ih w h1 h2

/-- **C38** (partial): a non-empty dictionary of supported values, nested to any depth, saved
under a fresh path and loaded from there comes back equal; the rest of the file is left
alone.  *Missing*: strings equal to `"FILL_VALUE"`, bytes that are text and the empty
dictionary (`C38_violated_fill`, `C38_violated_bytes`, `C38_violated_empty`). -/
theorem C38_roundtrip_partial (chk : Leaf F → Except Err Unit) (hc : ∀ v, chk v = .ok ())
    (decode : List UInt8 → Option String) (d : List (String × PVal F)) (g : Tree F)
    (p0 : String) (p : List String) (hg : Dict.get? g p0 = none)
    (hne : d ≠ []) (hk : Spec.GoodKeys (.dict d)) (hs : Spec.Supported (.dict d))
    (hu : Spec.Unambiguous decode (.dict d)) :
    ∃ g' d', saveItems chk g (p0 :: p) d = .ok g' ∧ loadAt decode g' (p0 :: p) = .ok d' ∧
      Spec.Same (.dict d') (.dict d) ∧ d'.map Prod.fst = d.map Prod.fst ∧
      ∀ k, k ≠ p0 → Dict.get? g' k = Dict.get? g k := by
  rw [Spec.GoodKeys] at hk
  have hs' := hs
  rw [Spec.Supported] at hs'
  refine ⟨_, loadItems decode (treeItems d), saveItems_ok hc d g [] _ (by simp [groupAt, hg])
    (by simpa using hk.1) hs' hk.2 hne, ?_, ?_, ?_, ?_⟩
  · rw [loadAt, openGroup_putAt]; rfl
  · obtain ⟨x, d', rfl⟩ : ∃ x d', d = x :: d' := by
      cases d with
      | nil => exact absurd rfl hne
      | cons x d' => exact ⟨x, d', rfl⟩
    have := same_load decode (.dict (x :: d')) hs hu
    rwa [treeOf, loadVal] at this
  · have e : ∀ c : Tree F, (loadItems decode c).map Prod.fst = c.map Prod.fst := by
      intro c
      induction c with
      | nil => rfl
      | cons x c ih => obtain ⟨k, v⟩ := x; simp [loadItems, ih]
    rw [e, keys_treeItems]
  · intro k hk'
    exact get?_putAt_other _ _ _ _ _ hk'

/-- **C38** (refusals): a dictionary with an unsupported value at any depth raises
`ValueError`. -/
theorem C38_refused (chk : Leaf F → Except Err Unit) (hc : ∀ v, chk v = .ok ())
    (d : List (String × PVal F)) (g : Tree F) (p0 : String) (p : List String)
    (hg : Dict.get? g p0 = none) (hk : Spec.GoodKeys (.dict d))
    (hs : ¬ Spec.Supported (.dict d)) : saveItems chk g (p0 :: p) d = .error .value := by
  rw [Spec.GoodKeys] at hk
  rw [Spec.Supported] at hs
  exact saveItems_bad hc d g [] _ (by simp [groupAt, hg]) (by simpa using hk.1) hs hk.2

section Examples

/-- Every value is accepted. -/
def chkAll : Leaf F → Except Err Unit := fun _ => .ok ()

def exampleDict : List (String × PVal Nat) :=
  [("seed", .int 12), ("flux", .dict [("mu", .num 3), ("sky", .dict [])]),
   ("names", .list [.str "a", .str "b", .str "a"]), ("z", .arr [1, 2])]

example (decode : List UInt8 → Option String) (g : Tree Nat)
    (hg : Dict.get? g "truth" = none) :
    ∃ g' d', saveItems chkAll g ["truth"] exampleDict = .ok g' ∧
      loadAt decode g' ["truth"] = .ok d' ∧ Spec.Same (.dict d') (.dict exampleDict) := by
  obtain ⟨g', d', h1, h2, h3, _⟩ := C38_roundtrip_partial chkAll (fun _ => rfl) decode exampleDict g
    "truth" [] hg (by decide) (by
      refine ⟨by decide, ?_⟩
      refine ⟨by unfold Spec.GoodKey; decide, by simp [Spec.GoodKeys],
        by unfold Spec.GoodKey; decide, ⟨by decide, ?_⟩,
        by unfold Spec.GoodKey; decide, ?_, by unfold Spec.GoodKey; decide, by simp [Spec.GoodKeys],
        trivial⟩
      · exact ⟨by unfold Spec.GoodKey; decide, by simp [Spec.GoodKeys],
          by unfold Spec.GoodKey; decide, ⟨by decide, trivial⟩, trivial⟩
      · intro s hs
        simp at hs
        rcases hs with rfl | rfl | rfl <;> (unfold Spec.GoodKey; decide))
    (by simp [exampleDict, Spec.Supported, Spec.SupportedAll, Spec.Strings])
    (by simp [exampleDict, Spec.Unambiguous, Spec.UnambiguousAll])
  exact ⟨g', d', h1, h2, h3⟩

/-- A `None` inside. -/
example : saveItems (F := Nat) chkAll [] ["popsynth"]
    [("seed", .int 1), ("lum", .dict [("Lmax", .none)])] = .error .value :=
  C38_refused _ (fun _ => rfl) _ _ _ _ rfl
    (by simp [Spec.GoodKeys, Spec.GoodKeysAll, Spec.GoodKey])
    (by simp [Spec.Supported, Spec.SupportedAll])

end Examples

/-- **C38 is violated** by the string `"FILL_VALUE"`, which comes back as an empty
dictionary. -/
theorem C38_violated_fill (decode : List UInt8 → Option String) (k : String)
    (hk : Spec.GoodKey k) :
    ∃ g' d', saveItems (F := F) chkAll [] ["truth"] [(k, .str "FILL_VALUE")] = .ok g' ∧
      loadAt decode g' ["truth"] = .ok d' ∧ d' = [(k, .dict [])] ∧
      ¬ Spec.Same (.dict d') (.dict [(k, .str "FILL_VALUE")]) := by
  refine ⟨_, _, saveItems_ok (fun _ => rfl) _ [] [] ["truth"] rfl (by simp) ?_ ?_ (by simp), ?_, rfl, ?_⟩
  · simp [Spec.SupportedAll, Spec.Supported]
  · simp [Spec.GoodKeysAll, hk, Spec.GoodKeys]
  · rw [loadAt, openGroup_putAt]
    simp [treeItems, treeOf, loadItems, loadVal, loadLeaf]
    rfl
  · intro h
    have := h [k]
    simp [Spec.look, Spec.child, Spec.top] at this

/-- **C38 is violated** by bytes that are text, which come back as strings. -/
theorem C38_violated_bytes (decode : List UInt8 → Option String) (b : List UInt8) (s : String)
    (hb : decode b = some s) (k : String) (hk : Spec.GoodKey k) :
    ∃ g' d', saveItems (F := F) chkAll [] ["truth"] [(k, .bytes b)] = .ok g' ∧
      loadAt decode g' ["truth"] = .ok d' ∧ ¬ Spec.Same (.dict d') (.dict [(k, .bytes b)]) := by
  refine ⟨_, [(k, if s = "FILL_VALUE" then .dict [] else .str s)],
    saveItems_ok (fun _ => rfl) _ [] [] ["truth"] rfl (by simp) ?_ ?_ (by simp), ?_, ?_⟩
  · simp [Spec.SupportedAll, Spec.Supported]
  · simp [Spec.GoodKeysAll, hk, Spec.GoodKeys]
  · rw [loadAt, openGroup_putAt]
    show Except.ok (loadItems decode [(k, .data (.bytes b))]) = _
    simp [loadItems, loadVal, loadLeaf, hb]
  · intro h
    have := h [k]
    by_cases e : s = "FILL_VALUE" <;> simp [Spec.look, Spec.child, Spec.top, e] at this

/-- **C38 is violated** by the empty dictionary: nothing is written for it and loading
raises `KeyError`. -/
theorem C38_violated_empty (chk : Leaf F → Except Err Unit) (decode : List UInt8 → Option String)
    (g : Tree F) (p0 : String) (p : List String) (hg : Dict.get? g p0 = none) :
    saveItems chk g (p0 :: p) [] = .ok g ∧ loadAt decode g (p0 :: p) = .error .key := by
  refine ⟨by simp [saveItems], ?_⟩
  rw [loadAt, openGroup, hg]
  rfl

end Popsynth
