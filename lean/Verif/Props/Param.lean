import Verif.Lemmas.Param

/-!
# C01–C04 and the parameter part of C58

The model is `Verif/Model/Param.lean`, the vocabulary `Verif/Spec/Param.lean`.
Number type and comparison are arbitrary (NaN included).
-/

set_option linter.unusedSectionVars false

namespace Popsynth
variable {F : Type} [LE F] [DecidableLE F]
open Spec

/-! ### C01 -/

/-- **C01.** After any history of assignments (accepted or not), reads and
free/fix switches on any instances of a class, reading parameter `n` of
instance `i` returns the last accepted value, else the default, else raises
`AssertionError`. -/
theorem C01_read_is_last_accepted (decl : String → ParamDecl F) (rev : List (POp F))
    (i : Nat) (n : String) :
    outcome (paramGet (decl n) n ((runOps decl (ClassState.init decl) rev.reverse).objs i)) =
      match (current decl i n rev).or (decl n).default with
      | some x => .ok x
      | none => .error .assertion := by
  rw [outcome_paramGet, runOps_listed, ← listed_current]
  cases (listed decl i n rev).or (decl n).default <;> rfl

/-- **C01 (reads are silent).** On any object state, reading one parameter does
not change what a later read of any parameter yields. -/
theorem C01_reads_are_silent (decl : String → ParamDecl F) (o : Obj F) (n m : String) :
    outcome (paramGet (decl n) n (endState (paramGet (decl m) m o))) =
      outcome (paramGet (decl n) n o) := by
  rw [outcome_paramGet, outcome_paramGet, storage_after_get]
  by_cases h : m = n ∧ (o.storage.get? n).join = none
  · rw [if_pos h, h.2]
    cases hd : (decl m).default <;> simp [← h.1, hd]
  · rw [if_neg h]

/-! ### C02 -/

/-- **C02 (acceptance).** An assignment returns normally exactly when the
descriptor is free and the value is within the declared bounds. -/
theorem C02_accepted_iff (d : ParamDecl F) (free : Bool) (n : String) (v : Option F)
    (o : Obj F) :
    outcome (paramSet d free n v o) = .ok () ↔ (free = true ∧ InBounds d v) := by
  classical
  by_cases h : free = true ∧ InBounds d v
  · rw [paramSet_accept d free n v o h.1 h.2]; simp [outcome, h]
  · obtain ⟨e, _, he⟩ := paramSet_reject d free n v o h
    rw [he]; simp [outcome, h]

/-- **C02 (after acceptance).** The assigned value is what is read next. -/
theorem C02_accepted_value_is_read (d : ParamDecl F) (free : Bool) (n : String) (x : F)
    (o : Obj F) (h : outcome (paramSet d free n (some x) o) = .ok ()) :
    outcome (paramGet d n (endState (paramSet d free n (some x) o))) = .ok x := by
  rw [C02_accepted_iff] at h
  rw [outcome_paramGet, paramSet_accept d free n (some x) o h.1 h.2]
  simp [endState]

/-- **C02 (rejection).** A rejected assignment raises `RuntimeError` (or
`TypeError` when `None` is compared with a bound) and no parameter of the
object reads differently afterwards. -/
theorem C02_rejected_changes_nothing (d : ParamDecl F) (free : Bool) (n : String)
    (v : Option F) (o : Obj F) (h : ¬ (free = true ∧ InBounds d v)) :
    (outcome (paramSet d free n v o) = .error .runtime ∨
      (v = none ∧ outcome (paramSet d free n v o) = .error .type)) ∧
    ∀ (dm : ParamDecl F) (m : String),
      outcome (paramGet dm m (endState (paramSet d free n v o))) =
        outcome (paramGet dm m o) := by
  obtain ⟨e, hk, he⟩ := paramSet_reject d free n v o h
  refine ⟨?_, ?_⟩
  · rw [he]
    rcases hk with rfl | ⟨rfl, hv⟩
    · left; rfl
    · right; exact ⟨hv, rfl⟩
  · intro dm m
    rw [outcome_paramGet, outcome_paramGet, he]
    simp [endState, touchNorm_storage]

/-- **C02 (invariant).** After any history, whatever value is stored for a
parameter is within its bounds or is the declared default. -/
theorem C02_stored_values_in_bounds (decl : String → ParamDecl F) (rev : List (POp F))
    (i : Nat) (n : String) (x : F)
    (h : (truthOf ((runOps decl (ClassState.init decl) rev.reverse).objs i)).get? n = some x) :
    InBounds (decl n) (some x) ∨ (decl n).default = some x := by
  rw [truthOf_get? _ (nodup_runOps decl i rev), runOps_listed] at h
  rcases listed_cases decl i n rev x h with h | h
  · left; exact current_inBounds decl i n rev x h
  · right; exact h

/-- **C02 (NaN).** A value that compares false with a declared bound is refused
with `RuntimeError`. -/
theorem C02_incomparable_rejected (d : ParamDecl F) (free : Bool) (n : String) (x : F)
    (o : Obj F)
    (h : (∃ m, d.vmin = some m ∧ ¬ m ≤ x) ∨ (∃ m, d.vmax = some m ∧ ¬ x ≤ m)) :
    outcome (paramSet d free n (some x) o) = .error .runtime := by
  have hb : ¬ (free = true ∧ InBounds d (some x)) := by
    rintro ⟨_, h1, h2⟩
    rcases h with ⟨m, hm, hx⟩ | ⟨m, hm, hx⟩
    · exact hx (h1 m hm)
    · exact hx (h2 m hm)
  rcases (C02_rejected_changes_nothing d free n (some x) o hb).1 with h | h
  · exact h
  · simp at h

/-! ### C03 -/

/-- **C03.** Any operation on parameter `m` of instance `j` leaves the reading
of parameter `n` of instance `i` unchanged unless it is the same parameter of
the same instance – from every state of the class. -/
theorem C03_no_interference (decl : String → ParamDecl F) (s : ClassState F)
    (i j : Nat) (n m : String) (v : Option F) (hne : i ≠ j ∨ n ≠ m) :
    outcome (paramGet (decl n) n ((stepOp decl s (.assign j m v)).objs i)) =
        outcome (paramGet (decl n) n (s.objs i)) ∧
    outcome (paramGet (decl n) n ((stepOp decl s (.read j m)).objs i)) =
        outcome (paramGet (decl n) n (s.objs i)) := by
  classical
  constructor
  · simp only [stepOp, ClassState.setObj]
    by_cases hij : i = j
    · subst hij
      have hnm : ¬ m = n := by
        rcases hne with h | h
        · exact absurd rfl h
        · exact fun e => h e.symm
      rw [if_pos rfl, outcome_paramGet, outcome_paramGet, storage_after_set, if_neg]
      exact fun h => hnm h.1
    · rw [if_neg hij]
  · simp only [stepOp, ClassState.setObj]
    by_cases hij : i = j
    · subst hij
      rw [if_pos rfl]; exact C01_reads_are_silent decl _ n m
    · rw [if_neg hij]

/-- **C03 (limit).** The free/fix switch is the one thing shared by all
instances: after fixing a parameter, assigning it fails on every instance. -/
theorem C03_fix_is_shared_by_all_instances (decl : String → ParamDecl F)
    (s : ClassState F) (i : Nat) (n : String) (v : Option F) :
    outcome (paramSet (decl n) ((stepOp decl s (.setFree n false)).free n) n v
      ((stepOp decl s (.setFree n false)).objs i)) = .error .runtime := by
  simp [stepOp, paramSet, bind_apply, outcome]

/-! ### C04 -/

/-- **C04 is violated.** Full property: "declaring a class with two or more
normalization parameters raises `AssertionError`".  The counter that should
trigger the guard is never incremented, so *no* declaration is ever refused. -/
theorem C04_violated_guard_never_fires (attrs : List (String × ParamDecl F)) :
    metaCheck attrs = .ok () := by
  unfold metaCheck
  have h : ∀ l : List (String × ParamDecl F), metaCheck.loop 0 l = .ok () := by
    intro l
    induction l with
    | nil => rfl
    | cons p t ih => obtain ⟨k, d⟩ := p; simp [metaCheck.loop, ih]
  exact h attrs

/-- **C04, the part that holds.** A declaration with at most one normalization
parameter is accepted.  Missing: refusal of two or more. -/
theorem C04_at_most_one_accepted_partial (attrs : List (String × ParamDecl F))
    (_h : (attrs.filter fun p => p.2.isNorm).length ≤ 1) :
    metaCheck attrs = .ok () :=
  C04_violated_guard_never_fires attrs

/-- What a second normalization parameter leads to: the object's normalization
parameter is whichever was touched last. -/
theorem C04_last_touched_normalization_wins (d1 d2 : ParamDecl F) (n1 n2 : String)
    (o : Obj F) (_h1 : d1.isNorm = true) (h2 : d2.isNorm = true) :
    (endState (paramGet d2 n2 (endState (paramGet d1 n1 o)))).norm = some n2 := by
  generalize endState (paramGet d1 n1 o) = o1
  rw [paramGet_eq]
  cases hj : (o1.storage.get? n2).join with
  | some v => simp [endState, touchNorm, h2]
  | none => cases d2.default <;> simp [endState, touchNorm, h2]

/-! ### C58 (parameter part) -/

/-- **C58 (parameter part).** The dictionary reported as `truth`/`parameters`
lists, under each name, the accepted value in force or – only once it has been
read – the default. -/
theorem C58_truth_lookup (decl : String → ParamDecl F) (rev : List (POp F))
    (i : Nat) (n : String) :
    (truthOf ((runOps decl (ClassState.init decl) rev.reverse).objs i)).get? n =
      listed decl i n rev := by
  rw [truthOf_get? _ (nodup_runOps decl i rev), runOps_listed]

/-! ### Non-vacuity: concrete cases -/

section Examples

/-- A declaration with one bounded and one default-less parameter. -/
private def decl0 : String → ParamDecl Int := fun n =>
  if n = "alpha" then { default := some 1, vmin := some 0, vmax := some 10 }
  else if n = "Lambda" then { isNorm := true, vmin := some 0 }
  else {}

private def hist0 : List (POp Int) :=
  [.assign 0 "alpha" (some 5), .assign 0 "alpha" (some 11), .read 1 "alpha",
   .assign 1 "Lambda" (some (-3)), .read 0 "Lambda"]

-- instance 0 keeps 5 (11 was refused), instance 1 reads the default,
-- an unset parameter without default raises
example : outcome (paramGet (decl0 "alpha") "alpha"
    ((runOps decl0 (ClassState.init decl0) hist0).objs 0)) = .ok 5 := by decide
example : outcome (paramGet (decl0 "alpha") "alpha"
    ((runOps decl0 (ClassState.init decl0) hist0).objs 1)) = .ok 1 := by decide
example : outcome (paramGet (decl0 "Lambda") "Lambda"
    ((runOps decl0 (ClassState.init decl0) hist0).objs 1)) = .error .assertion := by decide
-- hypotheses of C02 are met by accepted, rejected and fixed cases
example : InBounds (decl0 "alpha") (some 10) := by simp [InBounds, decl0]
example : ¬ InBounds (decl0 "alpha") (some 11) := by simp [InBounds, decl0]
example : outcome (paramSet (decl0 "alpha") true "alpha" (some 11) {}) = .error .runtime := by
  decide
example : outcome (paramSet (decl0 "alpha") true "alpha" none {}) = .error .type := by
  decide
-- the default is listed in `truth` only after a read
example : (truthOf ((runOps decl0 (ClassState.init decl0) hist0).objs 1)).get? "alpha" = some 1 := by
  decide
example : (truthOf ((runOps decl0 (ClassState.init decl0) []).objs 1)).get? "alpha" = none := by
  decide
-- a class with two normalization parameters is accepted (C04)
example : metaCheck [("A", { isNorm := true }), ("B", ({ isNorm := true } : ParamDecl Int))]
    = .ok () := by decide

/-- Comparison with an incomparable element (`none` plays NaN). -/
@[instance_reducible] private def nanLE : LE (Option Int) := ⟨fun a b => ∃ x y, a = some x ∧ b = some y ∧ x ≤ y⟩
example : ¬ nanLE.le (some 0) none := by rintro ⟨x, y, _, h, _⟩; simp at h

end Examples
end Popsynth
