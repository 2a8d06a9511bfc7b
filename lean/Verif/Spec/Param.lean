import Verif.Model.Param

/-!
# Specification vocabulary for parameters (C01–C03, C58)

Independent of the storage dictionaries of the model: an assignment is
*accepted* when the descriptor is free at that time and the value is within the
declared bounds; `current` and `listed` look values up in the history of
operations (latest operation first).
-/

namespace Popsynth
variable {F : Type} [LE F]

namespace Spec

/-- Value within the declared bounds (`None` only when nothing is bounded). -/
def InBounds (d : ParamDecl F) : Option F → Prop
  | some x => (∀ m, d.vmin = some m → m ≤ x) ∧ (∀ m, d.vmax = some m → x ≤ m)
  | none => d.vmin = none ∧ d.vmax = none

/-- Is descriptor `n` free after the given history (latest operation first)? -/
def freeAt (decl : String → ParamDecl F) (n : String) : List (POp F) → Bool
  | [] => (decl n).free
  | .setFree m b :: rest => if m = n then b else freeAt decl n rest
  | _ :: rest => freeAt decl n rest

open Classical in
/-- The explicitly assigned value in force after the history (latest first). -/
noncomputable def current (decl : String → ParamDecl F) (i : Nat) (n : String) :
    List (POp F) → Option F
  | [] => none
  | .assign j m v :: rest =>
    if j = i ∧ m = n ∧ freeAt decl n rest = true ∧ InBounds (decl n) v then v
    else current decl i n rest
  | _ :: rest => current decl i n rest

open Classical in
/-- What `truth` should list for parameter `n` after the history: the value in
force, or the default once it has been read. -/
noncomputable def listed (decl : String → ParamDecl F) (i : Nat) (n : String) :
    List (POp F) → Option F
  | [] => none
  | .assign j m v :: rest =>
    if j = i ∧ m = n ∧ freeAt decl n rest = true ∧ InBounds (decl n) v then v
    else listed decl i n rest
  | .read j m :: rest =>
    if j = i ∧ m = n ∧ listed decl i n rest = none then (decl n).default
    else listed decl i n rest
  | _ :: rest => listed decl i n rest

end Spec

end Popsynth
