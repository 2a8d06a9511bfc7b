import Verif.Model.Subclass

/-!
# What a subclass is (C81)
-/

set_option autoImplicit false

namespace Popsynth.Spec

/-- `c` is a subclass of `cls`: `cls` is one of its bases, direct or not, or `c` is a subclass of
a class registered with `cls` or derived from `cls`. -/
inductive Sub (mro registry derived : Nat → List Nat) (c : Nat) : Nat → Prop
  | base {cls : Nat} : cls ∈ mro c → Sub mro registry derived c cls
  | registered {cls r : Nat} : r ∈ registry cls → Sub mro registry derived c r → Sub mro registry derived c cls
  | derived {cls r : Nat} : r ∈ derived cls → Sub mro registry derived c r → Sub mro registry derived c cls

/-- A class and its bases do not have the attributes of `abc`. -/
def NoSets (W : ClassTable) (s : AbcSets) (cls : Nat) : Prop :=
  ∀ b ∈ W.mro cls, ∀ a, s b a = none

/-- Every class made by `ParameterMeta` has its own sets, with these registered classes. -/
structure OwnSets (W : ClassTable) (registry : Nat → List Nat) (s : AbcSets) : Prop where
  first : ∀ cls, W.parametric cls = true → ∃ rest, W.mro cls = cls :: rest
  own : ∀ cls a, W.parametric cls = true → s cls a ≠ none
  registry : ∀ cls, W.parametric cls = true → s cls .registry = some (registry cls)

/-- The set a class has under this name contains `x`. -/
def HasEntry (s : AbcSets) (cls : Nat) (a : AbcAttr) (x : Nat) : Prop := ∃ l, s cls a = some l ∧ x ∈ l

end Popsynth.Spec
