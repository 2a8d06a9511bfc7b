import Verif.Model.Py
import Mathlib.Data.Nat.Digits.Defs

/-!
# The version number of the package (_version.py)

Text is a list of characters.  White space and digits are those of ASCII.  What the `git` commands
print is a parameter.  Messages of `verbose=True` are left out.
-/

set_option autoImplicit false

namespace Popsynth

abbrev Text := List Char

/-- `[0-9a-f]` -/
def isHexLower (c : Char) : Bool := ('0' ≤ c && c ≤ '9') || ('a' ≤ c && c ≤ 'f')

/-- `\d` -/
def isDec (c : Char) : Bool := '0' ≤ c && c ≤ '9'

/-- `s.strip()` with the characters to remove. -/
def stripOf (p : Char → Bool) (s : Text) : Text :=
  ((s.dropWhile p).reverse.dropWhile p).reverse

/-- `s.strip()` -/
def strip (s : Text) : Text := stripOf Char.isWhitespace s

/-- `s.startswith(p)`. -/
def startsWith (p s : Text) : Bool := p.isPrefixOf s

/-- `s.replace(" ", new, 1)` -/
def replaceSpace (new : Text) : Text → Text
  | [] => []
  | c :: s => if c = ' ' then new ++ s else c :: replaceSpace new s

/-- `date.strip().replace(" ", "T", 1).replace(" ", "", 1)`, 184 and 335. -/
def isoDate (s : Text) : Text := replaceSpace [] (replaceSpace ['T'] (strip s))

/-- `s.split(",")` -/
def splitComma : Text → List Text
  | [] => [[]]
  | c :: s =>
    if c = ',' then [] :: splitComma s
    else match splitComma s with
      | [] => [[c]]
      | w :: ws => (c :: w) :: ws

/-- `"%d" % n` for natural numbers. -/
def decimal (n : Nat) : Text :=
  if n = 0 then ['0'] else ((Nat.digits 10 n).map fun k => Char.ofNat (48 + k)).reverse

/-- `int(s)` for a row of digits. -/
def decValue (s : Text) : Nat := s.foldl (fun a c => 10 * a + (c.toNat - 48)) 0

/-- `int(s)`; signs, underscores and surrounding white space are not modelled. -/
def pyInt (s : Text) : Except Err Nat :=
  if !s.isEmpty && s.all isDec then .ok (decValue s) else .error .value

/-- `re.search(r"^(.+)-(\d+)-g([0-9a-f]+)$", s)`: its groups.  Read from the right there is at most
one way to match, because neither hexadecimal nor decimal digits are `g` or `-`. -/
def matchDescribe (s : Text) : Option (Text × Text × Text) :=
  match s.reverse.dropWhile isHexLower with
  | 'g' :: '-' :: r => match r.dropWhile isDec with
    | '-' :: t =>
      if (s.reverse.takeWhile isHexLower).isEmpty || (r.takeWhile isDec).isEmpty || t.isEmpty ||
          t.any (· == '\n') then none
      else some (t.reverse, (r.takeWhile isDec).reverse, (s.reverse.takeWhile isHexLower).reverse)
    | _ => none
  | _ => none

/-- `pieces` without error. -/
structure Pieces where
  long : Text
  short : Text
  dirty : Bool
  closestTag : Option Text
  distance : Nat
  date : Text
  deriving DecidableEq

/-- What the commands of `git_pieces_from_vcs` print (`none`: they fail). -/
structure GitOut where
  gitDir : Option Text
  describe : Option Text
  head : Option Text
  count : Option Text
  date : Option Text

/-- An exception of this file: `NotThisMethod`, or one of Python. -/
inductive VErr where
  | notThisMethod
  | py (e : Err)
  deriving DecidableEq

/-- `pieces` with `error` set. -/
structure BadPieces where
  long : Text
  error : Text
  deriving DecidableEq

def dashDirty : Text := ['-', 'd', 'i', 'r', 't', 'y']

/-- Lines 331-335: the date, and what was found. -/
def withDate (o : GitOut) (p : Text → Pieces) : Except VErr (BadPieces ⊕ Pieces) :=
  match o.date with
  | none => .error (.py .attribute)
  | some d => .ok (.inr (p (isoDate d)))

/-- `git_pieces_from_vcs`, 233-337.  The error texts end with the text at fault; what stands before
it is shortened. -/
def gitPieces (pre : Text) (o : GitOut) : Except VErr (BadPieces ⊕ Pieces) :=
  match o.gitDir, o.describe, o.head with
  | none, _, _ | _, none, _ | _, _, none => .error .notThisMethod
  | some _, some out, some full =>
    let full := strip full
    let out := strip out
    let dirty := dashDirty.isSuffixOf out
    let desc := if dirty then out.take (out.length - dashDirty.length) else out
    if '-' ∈ desc then
      match matchDescribe desc with
      | none => .ok (.inl { long := full, error := out })
      | some (tag, num, hex) =>
        if startsWith pre tag then
          withDate o fun date => { long := full, short := hex, dirty, closestTag := some (tag.drop pre.length)
                                   distance := decValue num, date }
        else .ok (.inl { long := full, error := tag })
    else
      match o.count with
      | none => .error (.py .type)
      | some c => match pyInt c with
        | .error e => .error (.py e)
        | .ok n => withDate o fun date =>
          { long := full, short := full.take 7, dirty, closestTag := none, distance := n, date }

/-- `plus_or_dot`, 340-344. -/
def plusOrDot (tag : Text) : Text := if '+' ∈ tag then ['.'] else ['+']

def dotDirty : Text := ['.', 'd', 'i', 'r', 't', 'y']

/-- `render_pep440`, 347-368.  An empty tag counts as none. -/
def renderPep440 (p : Pieces) : Text :=
  match p.closestTag with
  | none | some [] => "0+untagged.".toList ++ decimal p.distance ++ ['.', 'g'] ++ p.short ++
      (if p.dirty then dotDirty else [])
  | some tag => tag ++ (if p.distance ≠ 0 || p.dirty then
      plusOrDot tag ++ decimal p.distance ++ ['.', 'g'] ++ p.short ++ (if p.dirty then dotDirty else [])
      else [])

/-- `render_pep440_pre`, 371-384. -/
def renderPre (p : Pieces) : Text :=
  match p.closestTag with
  | none | some [] => "0.post.dev".toList ++ decimal p.distance
  | some tag => tag ++ (if p.distance ≠ 0 then ".post.dev".toList ++ decimal p.distance else [])

/-- `render_pep440_post`, 387-411. -/
def renderPost (p : Pieces) : Text :=
  match p.closestTag with
  | none | some [] => "0.post".toList ++ decimal p.distance ++ (if p.dirty then ".dev0".toList else []) ++
      ['+', 'g'] ++ p.short
  | some tag => tag ++ (if p.distance ≠ 0 || p.dirty then
      ".post".toList ++ decimal p.distance ++ (if p.dirty then ".dev0".toList else []) ++ plusOrDot tag ++
        ['g'] ++ p.short
      else [])

/-- `render_pep440_old`, 414-433. -/
def renderOld (p : Pieces) : Text :=
  match p.closestTag with
  | none | some [] => "0.post".toList ++ decimal p.distance ++ (if p.dirty then ".dev0".toList else [])
  | some tag => tag ++ (if p.distance ≠ 0 || p.dirty then
      ".post".toList ++ decimal p.distance ++ (if p.dirty then ".dev0".toList else [])
      else [])

/-- `render_git_describe`, 436-453. -/
def renderDescribe (p : Pieces) : Text :=
  (match p.closestTag with
  | none | some [] => p.short
  | some tag => tag ++ (if p.distance ≠ 0 then ['-'] ++ decimal p.distance ++ ['-', 'g'] ++ p.short else [])) ++
    (if p.dirty then dashDirty else [])

/-- `render_git_describe_long`, 456-473. -/
def renderLong (p : Pieces) : Text :=
  (match p.closestTag with
  | none | some [] => p.short
  | some tag => tag ++ ['-'] ++ decimal p.distance ++ ['-', 'g'] ++ p.short) ++
    (if p.dirty then dashDirty else [])

/-- The dictionary returned by `get_versions`. -/
structure Version where
  version : Text
  revision : Option Text
  dirty : Option Bool
  error : Option Text
  date : Option Text
  deriving DecidableEq

/-- The styles of `render`, 476-511; `None`, `""` and `"default"` are `pep440`. -/
inductive Style where
  | pep440 | pre | post | old | describe | long | unknown
  deriving DecidableEq

def renderText : Style → Pieces → Except VErr Text
  | .pep440, p => .ok (renderPep440 p)
  | .pre, p => .ok (renderPre p)
  | .post, p => .ok (renderPost p)
  | .old, p => .ok (renderOld p)
  | .describe, p => .ok (renderDescribe p)
  | .long, p => .ok (renderLong p)
  | .unknown, _ => .error (.py .value)

/-- `render`, 476-511. -/
def render (x : BadPieces ⊕ Pieces) (s : Style) : Except VErr Version :=
  match x with
  | .inl b => .ok { version := "unknown".toList, revision := some b.long, dirty := none, error := some b.error
                    date := none }
  | .inr p => match renderText s p with
    | .ok v => .ok { version := v, revision := some p.long, dirty := some p.dirty, error := none, date := some p.date }
    | .error e => .error e

/-- `versions_from_parentdir`, 111-139; `names` are the names of the root directory and of the two
above it. -/
def parentdirVersion (pre : Text) (names : List Text) : Except VErr Version :=
  match (names.take 3).find? (startsWith pre) with
  | some d => .ok { version := d.drop pre.length, revision := none, dirty := some false, error := none, date := none }
  | none => .error .notThisMethod

/-- The keywords that `git archive` fills in, 18-28. -/
structure Keywords where
  refnames : Text
  full : Text
  date : Option Text

/-- Python's order on strings. -/
def textLe (a b : Text) : Bool := decide (a ≤ b)

/-- Tags in the list of references, 189-205. -/
def tagsOf (refs : List Text) : List Text :=
  let tags := (refs.filter (startsWith "tag: ".toList)).map fun r => r.drop 5
  if tags.isEmpty then refs.filter fun r => r.any isDec else tags

/-- `git_versions_from_keywords`, 171-230. -/
def keywordVersion (pre : Text) (k : Keywords) : Except VErr Version :=
  let refnames := strip k.refnames
  if startsWith "$Format".toList refnames then .error .notThisMethod
  else
    let refs := (splitComma (stripOf (fun c => c == '(' || c == ')') refnames)).map strip
    match ((tagsOf refs).mergeSort textLe).find? (startsWith pre) with
    | some r => .ok { version := r.drop pre.length, revision := some (strip k.full), dirty := some false, error := none
                      date := k.date.map isoDate }
    | none => .ok { version := "0+unknown".toList, revision := some (strip k.full), dirty := some false
                    error := some "no suitable tags".toList, date := none }

/-- `except NotThisMethod: pass`. -/
def orElse (x : Except VErr Version) (y : Except VErr Version) : Except VErr Version :=
  match x with
  | .error .notThisMethod => y
  | r => r

/-- `get_versions`, 514-565, with the configuration of 35-46: prefix `v`, style `pep440`, parent
directory `popsynth-`.  `__file__` exists. -/
def getVersions (k : Keywords) (o : GitOut) (names : List Text) : Except VErr Version :=
  orElse (keywordVersion ['v'] k) <|
  orElse (match gitPieces ['v'] o with
    | .ok x => render x .pep440
    | .error e => .error e) <|
  orElse (parentdirVersion "popsynth-".toList names) <|
  .ok { version := "0+unknown".toList, revision := none, dirty := none
        error := some "unable to compute version".toList, date := none }

end Popsynth
