import Verif.Model.Py

/-!
# `issubclass` for classes made by `ParameterMeta` (utils/meta.py:176-207)

Classes are numbered.  `type.__subclasscheck__`, `type.__mro__` and `type.__subclasses__` are
Python's own.
-/

set_option autoImplicit false

namespace Popsynth

/-- What `cls.__subclasshook__(subclass)` returns: `NotImplemented`, a boolean, or anything else. -/
inductive HookAnswer where
  | notImplemented
  | bool (b : Bool)
  | other
  deriving DecidableEq

/-- The classes of a running program. -/
structure ClassTable where
  /-- `type(cls)` is `ParameterMeta` or derived from it; otherwise it is taken to be `type` -/
  parametric : Nat → Bool
  /-- `cls.__mro__` -/
  mro : Nat → List Nat
  /-- `cls.__subclasses__()` -/
  subclasses : Nat → List Nat
  /-- `cls.__subclasshook__(subclass)`; `object.__subclasshook__` returns `NotImplemented` -/
  hook : Nat → Nat → HookAnswer

/-- The three class attributes the check uses. -/
inductive AbcAttr where
  | cache | negative | registry
  deriving DecidableEq

/-- The sets found in the `__dict__` of the classes under the names `_abc_cache`,
`_abc_negative_cache` and `_abc_registry`. -/
abbrev AbcSets := Nat → AbcAttr → Option (List Nat)

/-- The class along the `mro` whose `__dict__` has the attribute. -/
def abcOwner (s : AbcSets) (a : AbcAttr) : List Nat → Option Nat
  | [] => none
  | c :: rest => if (s c a).isSome then some c else abcOwner s a rest

/-- `cls.<attribute>`. -/
def abcGet (W : ClassTable) (a : AbcAttr) (cls : Nat) : Py AbcSets (List Nat) := fun s =>
  match abcOwner s a (W.mro cls) with
  | none => .error .attribute s
  | some c => .ok ((s c a).getD []) s

/-- `cls.<attribute>.add(subclass)`. -/
def abcAdd (W : ClassTable) (a : AbcAttr) (cls sub : Nat) : Py AbcSets Unit := fun s =>
  match abcOwner s a (W.mro cls) with
  | none => .error .attribute s
  | some c => .ok () fun c' a' => if c' = c ∧ a' = a then
      some (if sub ∈ (s c a).getD [] then (s c a).getD [] else (s c a).getD [] ++ [sub]) else s c' a'

/-- `for r in l: if f(r): return True`, with the result whether one was found. -/
def findPy {σ : Type} (f : Nat → Py σ Bool) : List Nat → Py σ Bool
  | [] => pure false
  | r :: rest => do
    let b ← f r
    if b then pure true else findPy f rest

/-- `issubclass(sub, cls)` with `n` stack frames left; the first argument may be anything, `none`
stands for an object that is not a class.  `type.__subclasscheck__` looks in the `mro`;
`ParameterMeta.__subclasscheck__` is utils/meta.py:176-207. -/
def isSubclass (W : ClassTable) : Nat → Option Nat → Nat → Py AbcSets Bool
  | _, none, _ => raise .type
  | 0, some c, cls => if W.parametric cls then raise .recursion else pure (decide (cls ∈ W.mro c))
  | n + 1, some c, cls =>
    if W.parametric cls then
      match W.hook cls c with
      | .bool b => do
        abcAdd W (if b then .cache else .negative) cls c
        pure b
      | .other => raise .assertion
      | .notImplemented =>
        if cls ∈ W.mro c then do
          abcAdd W .cache cls c
          pure true
        else do
          let registry ← abcGet W .registry cls
          let b ← findPy (fun r => isSubclass W n (some c) r) registry
          if b then
            abcAdd W .cache cls c
            pure true
          else
            let b ← findPy (fun r => isSubclass W n (some c) r) (W.subclasses cls)
            if b then
              abcAdd W .cache cls c
              pure true
            else
              abcAdd W .negative cls c
              pure false
    else pure (decide (cls ∈ W.mro c))

end Popsynth
