import Verif.Model.Version

/-!
# Specification vocabulary for version strings (C82)
-/

set_option autoImplicit false

namespace Popsynth.Spec

/-- Hexadecimal digits, at least one. -/
def Hex (s : Text) : Prop := s ≠ [] ∧ ∀ c ∈ s, c ∈ "0123456789abcdef".toList

/-- Decimal digits, at least one. -/
def Dec (s : Text) : Prop := s ≠ [] ∧ ∀ c ∈ s, c ∈ "0123456789".toList

/-- What `git describe --long --dirty` prints. -/
def described (tag num hex : Text) (dirty : Bool) : Text :=
  tag ++ "-".toList ++ num ++ "-g".toList ++ hex ++ (if dirty then "-dirty".toList else [])

/-- No white space at the ends. -/
def Trim (s : Text) : Prop := (∀ c t, s = c :: t → c.isWhitespace = false) ∧
  ∀ c t, s = t ++ [c] → c.isWhitespace = false

/-- A usual tag: not empty and without plus. -/
def PlainTag (p : Pieces) : Prop := ∀ t, p.closestTag = some t → t ≠ [] ∧ '+' ∉ t

/-- Names of references as `git archive` prints them: separated by a comma and a space. -/
def refLine : List Text → Text
  | [] => []
  | [a] => a
  | a :: b :: l => a ++ ", ".toList ++ refLine (b :: l)

/-- Characters that do not occur in the names of references. -/
def RefName (a : Text) : Prop := a ≠ [] ∧ Trim a ∧ ',' ∉ a ∧ '(' ∉ a ∧ ')' ∉ a

end Popsynth.Spec
