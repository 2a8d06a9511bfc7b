import Verif.Spec.Param
import Verif.Lemmas.Py

/-! Helper lemmas for parameters (C01–C04, C58). -/

set_option linter.unusedSectionVars false

namespace Popsynth
variable {F : Type} [LE F] [DecidableLE F]
open Spec


omit [LE F] [DecidableLE F] in
theorem paramGet_eq (d : ParamDecl F) (n : String) (o : Obj F) :
    paramGet d n o =
      match (o.storage.get? n).join with
      | some v => .ok v (touchNorm d n o)
      | none =>
        let o' := { touchNorm d n o with storage := o.storage.set n d.default }
        match d.default with
        | some v => .ok v o'
        | none => .error .assertion o' := by
  have hs : (touchNorm d n o).storage = o.storage := by
    unfold touchNorm; split <;> rfl
  unfold paramGet
  simp only [bind_apply, modify_apply, get_apply, hs]
  rcases h : o.storage.get? n with _ | _ | v
  · simp only [Option.join, bind_apply, modify_apply, hs, Option.bind]
    cases d.default <;> rfl
  · simp only [Option.join, bind_apply, modify_apply, hs, Option.bind]
    cases d.default <;> rfl
  · simp [Option.join]

theorem check_ok_iff (d : ParamDecl F) (v : Option F) :
    (checkMin d.vmin v = .ok () ∧ checkMax d.vmax v = .ok ()) ↔ InBounds d v := by
  rcases v with _ | x
  · cases h1 : d.vmin <;> cases h2 : d.vmax <;> simp [checkMin, checkMax, InBounds, h1, h2]
  · cases h1 : d.vmin <;> cases h2 : d.vmax <;>
      simp only [checkMin, checkMax, InBounds, h1, h2] <;>
      (repeat' split) <;> simp_all

theorem paramSet_accept (d : ParamDecl F) (free : Bool) (n : String) (v : Option F)
    (o : Obj F) (hf : free = true) (hb : InBounds d v) :
    paramSet d free n v o =
      .ok () { touchNorm d n o with storage := o.storage.set n v } := by
  have hs : (touchNorm d n o).storage = o.storage := by
    unfold touchNorm; split <;> rfl
  obtain ⟨h1, h2⟩ := (check_ok_iff d v).2 hb
  subst hf
  simp [paramSet, bind_apply, h1, h2, liftE, hs]

theorem paramSet_reject (d : ParamDecl F) (free : Bool) (n : String) (v : Option F)
    (o : Obj F) (h : ¬ (free = true ∧ InBounds d v)) :
    ∃ e, (e = .runtime ∨ (e = .type ∧ v = none)) ∧
      paramSet d free n v o = .error e (touchNorm d n o) := by
  cases free with
  | false => exact ⟨.runtime, Or.inl rfl, by simp [paramSet, bind_apply]⟩
  | true =>
    have hb : ¬ InBounds d v := fun hb => h ⟨rfl, hb⟩
    rw [← check_ok_iff] at hb
    have hmin : ∀ e, checkMin d.vmin v = .error e → (e = .runtime ∨ (e = .type ∧ v = none)) := by
      intro e he; unfold checkMin at he; split at he
      · simp at he
      · simp at he; simp [← he]
      · split at he <;> simp at he; simp [← he]
    have hmax : ∀ e, checkMax d.vmax v = .error e → (e = .runtime ∨ (e = .type ∧ v = none)) := by
      intro e he; unfold checkMax at he; split at he
      · simp at he
      · simp at he; simp [← he]
      · split at he <;> simp at he; simp [← he]
    cases h1 : checkMin d.vmin v with
    | error e => exact ⟨e, hmin e h1, by simp [paramSet, bind_apply, h1, liftE]⟩
    | ok u =>
      cases h2 : checkMax d.vmax v with
      | error e => exact ⟨e, hmax e h2, by simp [paramSet, bind_apply, h1, h2, liftE]⟩
      | ok u' => exact absurd ⟨h1, h2⟩ hb

omit [LE F] [DecidableLE F] in
theorem touchNorm_storage (d : ParamDecl F) (n : String) (o : Obj F) :
    (touchNorm d n o).storage = o.storage := by
  unfold touchNorm; split <;> rfl

theorem runOps_concat (decl : String → ParamDecl F) (s : ClassState F)
    (ops : List (POp F)) (op : POp F) :
    runOps decl s (ops ++ [op]) = stepOp decl (runOps decl s ops) op := by
  simp [runOps]

/-- One step acting on `free`. -/
theorem runOps_free (decl : String → ParamDecl F) (rev : List (POp F)) (n : String) :
    (runOps decl (ClassState.init decl) rev.reverse).free n = freeAt decl n rev := by
  induction rev with
  | nil => rfl
  | cons op rest ih =>
    rw [List.reverse_cons, runOps_concat]
    cases op with
    | assign i m v => simpa [stepOp, ClassState.setObj, freeAt] using ih
    | read i m => simpa [stepOp, ClassState.setObj, freeAt] using ih
    | setFree m b =>
      by_cases h : m = n
      · subst h; simp [stepOp, freeAt]
      · simp [stepOp, freeAt, h, Ne.symm h, ih]

theorem storage_after_set (d : ParamDecl F) (free : Bool) (m n : String) (v : Option F)
    (o : Obj F) [Decidable (free = true ∧ InBounds d v)] :
    (endState (paramSet d free m v o)).storage.get? n =
      if m = n ∧ (free = true ∧ InBounds d v) then some v else o.storage.get? n := by
  by_cases h : free = true ∧ InBounds d v
  · rw [paramSet_accept d free m v o h.1 h.2]
    simp only [endState, Dict.get?_set]
    by_cases hm : m = n <;> simp [hm, h]
  · obtain ⟨e, _, he⟩ := paramSet_reject d free m v o h
    rw [he]
    simp [endState, touchNorm_storage, h]

omit [LE F] [DecidableLE F] in
theorem storage_after_get (d : ParamDecl F) (m n : String) (o : Obj F) :
    (endState (paramGet d m o)).storage.get? n =
      if m = n ∧ (o.storage.get? n).join = none then some d.default
      else o.storage.get? n := by
  rw [paramGet_eq]
  by_cases hm : m = n
  · subst hm
    cases h : (o.storage.get? m).join with
    | some v => simp [endState, touchNorm_storage]
    | none =>
      cases hd : d.default <;> simp [endState]
  · cases h : (o.storage.get? m).join with
    | some v => simp [endState, touchNorm_storage, hm]
    | none =>
      cases hd : d.default <;> simp [endState, Dict.get?_set, hm]

/-- Storage refinement: the cell agrees with the specification. -/
theorem runOps_listed (decl : String → ParamDecl F) (i : Nat) (n : String)
    (rev : List (POp F)) :
    (((runOps decl (ClassState.init decl) rev.reverse).objs i).storage.get? n).join =
      listed decl i n rev := by
  classical
  induction rev with
  | nil => rfl
  | cons op rest ih =>
    rw [List.reverse_cons, runOps_concat]
    cases op with
    | assign j m v =>
      simp only [stepOp, ClassState.setObj, listed]
      by_cases hj : i = j
      · subst hj
        simp only [if_true, storage_after_set, runOps_free, true_and]
        by_cases hm : m = n
        · subst hm
          by_cases h : freeAt decl m rest = true ∧ InBounds (decl m) v
          · simp [h]
          · simp [h, ih]
        · simp [hm, ih]
      · simp [hj, Ne.symm hj, ih]
    | read j m =>
      simp only [stepOp, ClassState.setObj, listed]
      by_cases hj : i = j
      · subst hj
        simp only [if_true, storage_after_get, true_and, ih]
        by_cases hm : m = n
        · subst hm
          by_cases h : listed decl i m rest = none
          · simp [h]
          · simp [h, ih]
        · simp [hm, ih]
      · simp [hj, Ne.symm hj, ih]
    | setFree m b =>
      simpa [stepOp, listed] using ih

theorem listed_current (decl : String → ParamDecl F) (i : Nat) (n : String)
    (rev : List (POp F)) :
    (listed decl i n rev).or (decl n).default = (current decl i n rev).or (decl n).default := by
  classical
  induction rev with
  | nil => rfl
  | cons op rest ih =>
    cases op with
    | assign j m v =>
      simp only [listed, current]
      split
      · rfl
      · exact ih
    | read j m =>
      simp only [listed, current]
      split
      · rename_i h
        rw [← ih, h.2.2]; cases (decl n).default <;> rfl
      · exact ih
    | setFree m b => simpa [listed, current] using ih


omit [LE F] [DecidableLE F] in
theorem outcome_paramGet (d : ParamDecl F) (n : String) (o : Obj F) :
    outcome (paramGet d n o) =
      match ((o.storage.get? n).join).or d.default with
      | some v => .ok v
      | none => .error .assertion := by
  rw [paramGet_eq]
  cases h : (o.storage.get? n).join with
  | some v => rfl
  | none => cases d.default <;> rfl

theorem nodup_paramSet (d : ParamDecl F) (free : Bool) (n : String) (v : Option F)
    (o : Obj F) (h : o.storage.keys.Nodup) :
    (endState (paramSet d free n v o)).storage.keys.Nodup := by
  classical
  by_cases hb : free = true ∧ InBounds d v
  · rw [paramSet_accept d free n v o hb.1 hb.2]
    exact Dict.nodup_keys_set _ _ _ h
  · obtain ⟨e, _, he⟩ := paramSet_reject d free n v o hb
    rw [he]; simpa [endState, touchNorm_storage] using h

omit [LE F] [DecidableLE F] in
theorem nodup_paramGet (d : ParamDecl F) (n : String)
    (o : Obj F) (h : o.storage.keys.Nodup) :
    (endState (paramGet d n o)).storage.keys.Nodup := by
  rw [paramGet_eq]
  cases hj : (o.storage.get? n).join with
  | some v => simpa [endState, touchNorm_storage] using h
  | none =>
    cases d.default <;> exact Dict.nodup_keys_set _ _ _ h

theorem nodup_runOps (decl : String → ParamDecl F) (i : Nat) (rev : List (POp F)) :
    ((runOps decl (ClassState.init decl) rev.reverse).objs i).storage.keys.Nodup := by
  induction rev with
  | nil => exact List.nodup_nil
  | cons op rest ih =>
    rw [List.reverse_cons, runOps_concat]
    cases op with
    | assign j m v =>
      simp only [stepOp, ClassState.setObj]
      split
      · rename_i h; subst h; exact nodup_paramSet _ _ _ _ _ ih
      · exact ih
    | read j m =>
      simp only [stepOp, ClassState.setObj]
      split
      · rename_i h; subst h; exact nodup_paramGet _ _ _ ih
      · exact ih
    | setFree m b => exact ih

omit [LE F] [DecidableLE F] in
theorem truthOf_get? (o : Obj F) (hnd : o.storage.keys.Nodup) (n : String) :
    (truthOf o).get? n = (o.storage.get? n).join := by
  unfold truthOf
  generalize o.storage = d at *
  induction d with
  | nil => rfl
  | cons p t ih =>
    obtain ⟨k, v⟩ := p
    simp only [Dict.keys, List.map_cons, List.nodup_cons] at hnd
    cases v with
    | none =>
      simp only [List.filterMap_cons, Option.map_none, Dict.get?]
      rw [ih hnd.2]
      by_cases hk : k = n
      · subst hk
        have : Dict.get? t k = none := (Dict.get?_eq_none_iff t k).2 hnd.1
        simp [this]
      · simp [hk]
    | some x =>
      simp only [List.filterMap_cons, Option.map_some, Dict.get?]
      by_cases hk : k = n
      · simp [hk]
      · simp [hk]; exact ih hnd.2

theorem current_inBounds (decl : String → ParamDecl F) (i : Nat) (n : String)
    (rev : List (POp F)) (x : F) (h : current decl i n rev = some x) :
    InBounds (decl n) (some x) := by
  classical
  induction rev with
  | nil => simp [current] at h
  | cons op rest ih =>
    cases op with
    | assign j m v =>
      simp only [current] at h
      split at h
      · rename_i hc; subst h; exact hc.2.2.2
      · exact ih h
    | read j m => exact ih h
    | setFree m b => exact ih h

theorem listed_cases (decl : String → ParamDecl F) (i : Nat) (n : String)
    (rev : List (POp F)) (x : F) (h : listed decl i n rev = some x) :
    current decl i n rev = some x ∨ (decl n).default = some x := by
  have := listed_current decl i n rev
  rw [h] at this
  cases hc : current decl i n rev with
  | none => rw [hc] at this; right; simpa using this.symm
  | some y => rw [hc] at this; left; simpa using this.symm

end Popsynth
