import Verif.Model.Hdf5
import Verif.Lemmas.Py

/-!
# Lemmas about HDF5 trees
-/

set_option autoImplicit false
set_option linter.unusedSectionVars false

namespace Popsynth

variable {F : Type}

theorem compsFrom_noSlash (l cur : List Char) (h : '/' ∉ l) :
    compsFrom cur l = if cur ++ l = [] ∨ cur ++ l = ['.'] then [] else [String.ofList (cur ++ l)] := by
  induction l generalizing cur with
  | nil => simp [compsFrom]
  | cons c cs ih =>
    have hc : c ≠ '/' := fun e => h (by simp [e])
    rw [compsFrom, if_neg hc, ih _ (fun m => h (by simp [m]))]
    simp

theorem set_set {β : Type} (d : Dict β) (k : String) (a b : β) :
    Dict.set (Dict.set d k a) k b = Dict.set d k b := by
  induction d with
  | nil => simp [Dict.set]
  | cons x d ih =>
    obtain ⟨k', v⟩ := x
    by_cases e : k' = k
    · simp [Dict.set, e]
    · simp [Dict.set, e, ih]

/-- The links of the group at a path; a missing group counts as empty. -/
def groupAt : Tree F → List String → Option (Tree F)
  | g, [] => some g
  | g, k :: ks => match Dict.get? g k with
    | none => some []
    | some (.group c) => groupAt c ks
    | some (.data _) => none

/-- The links of the subgroup `k`, if there is one. -/
def subOf (g : Tree F) (k : String) : Tree F :=
  match Dict.get? g k with
  | some (.group c) => c
  | _ => []

/-- Replace the links of the group at a path. -/
def putAt (c : Tree F) : Tree F → List String → Tree F
  | _, [] => c
  | g, k :: ks => Dict.set g k (.group (putAt c (subOf g k) ks))

theorem groupAt_nil (p : List String) : groupAt ([] : Tree F) p = some [] := by
  cases p <;> rfl

theorem groupAt_append (g : Tree F) (p q : List String) :
    groupAt g (p ++ q) = (groupAt g p).bind (fun c => groupAt c q) := by
  induction p generalizing g with
  | nil => rfl
  | cons k ks ih =>
    rw [List.cons_append, groupAt, groupAt]
    cases Dict.get? g k with
    | none => simp [groupAt_nil]
    | some x => cases x with
      | data v => rfl
      | group c => exact ih c

theorem groupAt_putAt (c g : Tree F) (p : List String) : groupAt (putAt c g p) p = some c := by
  induction p generalizing g with
  | nil => rfl
  | cons k ks ih => rw [putAt, groupAt, Dict.get?_set_self]; exact ih _

theorem putAt_putAt (c c' g : Tree F) (p : List String) :
    putAt c' (putAt c g p) p = putAt c' g p := by
  induction p generalizing g with
  | nil => rfl
  | cons k ks ih =>
    rw [putAt, putAt, putAt, set_set]
    have e : subOf (Dict.set g k (.group (putAt c (subOf g k) ks))) k = putAt c (subOf g k) ks := by
      rw [subOf, Dict.get?_set_self]
    rw [e, ih]

theorem putAt_append (c c' g : Tree F) (p q : List String) (h : groupAt g p = some c) :
    putAt c' g (p ++ q) = putAt (putAt c' c q) g p := by
  induction p generalizing g with
  | nil => cases h; rfl
  | cons k ks ih =>
    rw [List.cons_append, putAt, putAt]
    congr 2
    apply ih
    rw [groupAt] at h
    rw [subOf]
    cases e : Dict.get? g k with
    | none => rw [e] at h; rw [groupAt_nil]; exact h
    | some x => cases x with
      | data v => rw [e] at h; cases h
      | group c => rw [e] at h; exact h

theorem create_at (x : H5 F) (g c : Tree F) (p : List String) (k : String)
    (h : groupAt g p = some c) (hk : Dict.get? c k = none) :
    create x g (p ++ [k]) = .ok (putAt (Dict.set c k x) g p) := by
  induction p generalizing g with
  | nil => cases h; simp [create, hk, putAt]
  | cons k0 ks ih =>
    rw [groupAt] at h
    have hne : ∃ k1 ks1, ks ++ [k] = k1 :: ks1 := by cases ks <;> simp
    obtain ⟨k1, ks1, e1⟩ := hne
    rw [List.cons_append, e1, create, putAt, subOf, ← e1]
    cases e : Dict.get? g k0 with
    | none =>
      rw [e] at h; cases h
      rw [ih [] (groupAt_nil _)]
      rfl
    | some y => cases y with
      | data v => rw [e] at h; cases h
      | group c' =>
        rw [e] at h
        simp only []
        rw [ih c' h]
        rfl

/-- Creating over an existing link fails. -/
theorem create_clash (x y : H5 F) (g c : Tree F) (p : List String) (k : String)
    (h : groupAt g p = some c) (hk : Dict.get? c k = some y) :
    create x g (p ++ [k]) = .error .value := by
  induction p generalizing g with
  | nil => cases h; simp [create, hk]
  | cons k0 ks ih =>
    rw [groupAt] at h
    have hne : ∃ k1 ks1, ks ++ [k] = k1 :: ks1 := by cases ks <;> simp
    obtain ⟨k1, ks1, e1⟩ := hne
    rw [List.cons_append, e1, create, ← e1]
    cases e : Dict.get? g k0 with
    | none => rw [e] at h; cases h; cases hk
    | some z => cases z with
      | data v => rfl
      | group c' => rw [e] at h; simp only []; rw [ih c' h]; rfl

/-- Opening an existing group. -/
theorem openGroup_putAt (c g : Tree F) (p : List String) : openGroup (putAt c g p) p = .ok c := by
  induction p generalizing g with
  | nil => rfl
  | cons k ks ih => rw [putAt, openGroup, Dict.get?_set_self]; exact ih _

theorem get?_putAt_other (c g : Tree F) (k0 k : String) (p : List String) (h : k ≠ k0) :
    Dict.get? (putAt c g (k0 :: p)) k = Dict.get? g k := by
  rw [putAt, Dict.get?_set_ne _ _ h.symm]

end Popsynth
