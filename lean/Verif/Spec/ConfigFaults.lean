import Verif.Model.Config

/-!
# Faulty configurations (C86)
-/

set_option autoImplicit false

namespace Popsynth
namespace Spec

variable {F α : Type}

/-- The dictionaries differ only in the entry `k`, which is `x` in `d'` (`none`: there is no such
entry). -/
structure EntryChanged (d d' : Dict α) (k : String) (x : Option α) : Prop where
  here : Dict.get? d' k = x
  others : ∀ j, j ≠ k → Dict.get? d' j = Dict.get? d j

/-- The sections of a configuration. -/
def distSections : List String := ["luminosity distribution", "spatial distribution"]
def selSections : List String := ["flux selection", "distance selection", "spatial selection"]

/-- The keys of the entry of a sampler that are no parameters. -/
def entryKeys : List String := ["type", "observed", "selection", "secondary", "init variables"]

/-- The value is a dictionary. -/
def IsMapping (v : PVal F) : Prop := ∃ d, v = .dict d

/-- The section names the class `c` first. -/
def Names (v : PVal F) (c : String) : Prop := ∃ ps rest, v = .dict ((c, ps) :: rest)

/-- A section that cannot be used, with the exception to be raised: not a dictionary, an empty one,
or one that names a class that is not `known` or cannot be constructed. -/
inductive BadSection (known built : String → Prop) : PVal F → Err → Prop
  | shape (v : PVal F) : ¬ IsMapping v → BadSection known built v .attribute
  | empty : BadSection known built (.dict []) .index
  | unknown (v : PVal F) (c : String) : Names v c → ¬ known c → BadSection known built v .key
  | noClass (v : PVal F) (c : String) : Names v c → known c → ¬ built c → BadSection known built v .type

/-- The distributions and the selections of the registry. -/
def KnownDist (R : Registry F) (c : String) : Prop := ∃ k, Dict.get? R.dists c = some k
def BuiltDist (R : Registry F) (c : String) : Prop := ∃ k, Dict.get? R.dists c = some k ∧ k.ctorOk = true
def KnownSel (R : Registry F) (c : String) : Prop := ∃ k, Dict.get? R.sels c = some k
def BuiltSel (R : Registry F) (c : String) : Prop := ∃ k, Dict.get? R.sels c = some k ∧ k.ctorOk = true

/-- Values that are no numbers for `float` or `int`; `parses` says which strings are. -/
inductive NoNumber (parses : String → Prop) : PVal F → Err → Prop
  | none : NoNumber parses .none .type
  | list (l : List (PVal F)) : NoNumber parses (.list l) .type
  | dict (d : Dict (PVal F)) : NoNumber parses (.dict d) .type
  | str (s : String) : ¬ parses s → NoNumber parses (.str s) .value

/-- The value lies outside the bounds of the parameter. -/
def OutOfBounds [LE F] (p : ParamDecl F) (x : F) : Prop :=
  (∃ m, p.vmin = some m ∧ ¬ m ≤ x) ∨ ∃ m, p.vmax = some m ∧ ¬ x ≤ m

end Spec
end Popsynth
