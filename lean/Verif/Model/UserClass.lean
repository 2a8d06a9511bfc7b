import Verif.Model.Builtins

/-!
# Class statements of users (meta.py:137-175 and the package class_registry)

As in `Verif/Model/Builtins.lean` a class is the list of bodies along its `mro`.  `AutoRegister`
(package class_registry): after `ParameterMeta` has made the class it is registered unless it is
abstract; the key is `getattr(cls, attr_name)`, an empty key raises `ValueError`.
-/

set_option autoImplicit false

namespace Popsynth

variable {F : Type}

/-- A class statement: what it leaves in the registry, or raises. -/
def classStatement (R : Dict (PyClass F)) (c : PyClass F) : Except Err (Dict (PyClass F)) :=
  if (abstractMethods c).isEmpty then
    match classTag c with
    | none => .error .attribute
    | some t => if t = "" then .error .value else .ok (Dict.set R t c)
  else .ok R

/-- Executing class statements one after the other. -/
def classStatements (R : Dict (PyClass F)) : List (PyClass F) → Except Err (Dict (PyClass F))
  | [] => .ok R
  | c :: cs => match classStatement R c with
    | .ok R' => classStatements R' cs
    | .error e => .error e

/-- `cls(**given)`: `object.__new__` refuses classes with abstract methods, and `__init__` unknown
or missing arguments, both by `TypeError`. -/
def instantiable (c : PyClass F) (given : List String) : Bool :=
  (abstractMethods c).isEmpty && initAccepts c given

end Popsynth
