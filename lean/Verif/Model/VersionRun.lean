import Verif.Model.Version

/-!
# Running git and reading the keywords from a file (_version.py)

`subprocess.Popen` and `open` are parameters.  Messages of `verbose=True` are left out.
-/

set_option autoImplicit false

namespace Popsynth

/-- What happens when a command is started: the operating system has no such file (`ENOENT`),
refuses in another way, another exception is raised, or the command runs and ends.  The output is
`none` if it is not UTF-8. -/
inductive Started where
  | missing
  | refused
  | raises (e : Err)
  | ran (out : Option Text) (code : Int)

/-- `run_command`, 70-108: output and return code. -/
def runCommand (popen : Text → Started) : List Text → Except Err (Option Text × Option Int)
  | [] => .ok (none, none)
  | c :: cs => match popen c with
    | .missing => runCommand popen cs
    | .refused => .ok (none, none)
    | .raises e => .error e
    | .ran none _ => .error .value
    | .ran (some out) code => if code ≠ 0 then .ok (none, some code) else .ok (some (strip out), some code)

/-- The arguments `git_pieces_from_vcs` passes to git. -/
inductive GitCmd where
  | gitDir | describe | head | count | date
  deriving DecidableEq

/-- `GITS`, 241-243. -/
def gits (windows : Bool) : List Text :=
  if windows then ["git.cmd".toList, "git.exe".toList] else ["git".toList]

/-- Exceptions of Python pass through. -/
def liftPy {α : Type} : Except Err α → Except VErr α
  | .ok a => .ok a
  | .error e => .error (.py e)

/-- Lines 331-335. -/
def dateRun (run : GitCmd → Except Err (Option Text × Option Int)) (p : Text → Pieces) :
    Except VErr (BadPieces ⊕ Pieces) :=
  match liftPy (run .date) with
  | .error e => .error e
  | .ok (none, _) => .error (.py .attribute)
  | .ok (some d, _) => .ok (.inr (p (isoDate (strip d))))

/-- Lines 271-337: what comes after the first three commands. -/
def parseRun (pre : Text) (run : GitCmd → Except Err (Option Text × Option Int)) (out full : Text) :
    Except VErr (BadPieces ⊕ Pieces) :=
  let dirty := dashDirty.isSuffixOf out
  let desc := if dirty then out.take (out.length - dashDirty.length) else out
  if '-' ∈ desc then
    match matchDescribe desc with
    | none => .ok (.inl { long := full, error := out })
    | some (tag, num, hex) =>
      if startsWith pre tag then
        dateRun run fun date => { long := full, short := hex, dirty, closestTag := some (tag.drop pre.length)
                                  distance := decValue num, date }
      else .ok (.inl { long := full, error := tag })
  else match liftPy (run .count) with
    | .error e => .error e
    | .ok (none, _) => .error (.py .type)
    | .ok (some c, _) => match pyInt c with
      | .error e => .error (.py e)
      | .ok n => dateRun run fun date =>
        { long := full, short := full.take 7, dirty, closestTag := none, distance := n, date }

/-- `git_pieces_from_vcs`, 233-337, with the commands it runs. -/
def piecesRun (pre : Text) (popen : GitCmd → Text → Started) (windows : Bool) :
    Except VErr (BadPieces ⊕ Pieces) :=
  let run := fun c => runCommand (popen c) (gits windows)
  match liftPy (run .gitDir) with
  | .error e => .error e
  | .ok (_, rc) => if rc ≠ some 0 then .error .notThisMethod else
    match liftPy (run .describe) with
    | .error e => .error e
    | .ok (none, _) => .error .notThisMethod
    | .ok (some out, _) => match liftPy (run .head) with
      | .error e => .error e
      | .ok (none, _) => .error .notThisMethod
      | .ok (some full, _) => parseRun pre run (strip out) (strip full)

/-- `get_versions`, 514-565, with the commands it runs. -/
def getVersionsRun (k : Keywords) (popen : GitCmd → Text → Started) (windows : Bool) (names : List Text) :
    Except VErr Version :=
  orElse (keywordVersion ['v'] k) <|
  orElse (match piecesRun ['v'] popen windows with
    | .ok x => render x .pep440
    | .error e => .error e) <|
  orElse (parentdirVersion "popsynth-".toList names) <|
  .ok { version := "0+unknown".toList, revision := none, dirty := none
        error := some "unable to compute version".toList, date := none }

/-- The text before the last quotation mark. -/
def beforeQuote (s : Text) : Option Text :=
  if '"' ∈ s then some ((s.reverse.dropWhile (· != '"')).drop 1).reverse else none

/-- Group 1 of `re.search(r'=\s*"(.*)"', line)`: the leftmost `=` that can be followed by a match,
and then up to the last quotation mark of the line. -/
def quoted : Text → Option Text
  | [] => none
  | c :: s =>
    if c = '=' then
      match s.dropWhile Char.isWhitespace with
      | '"' :: r => match beforeQuote (r.takeWhile (· != '\n')) with
        | some t => some t
        | none => quoted s
      | _ => quoted s
    else quoted s

/-- The dictionary of `git_get_keywords`. -/
structure FileKeywords where
  refnames : Option Text := none
  full : Option Text := none
  date : Option Text := none
  deriving DecidableEq

/-- Lines 153-156 and the like for the other names. -/
def keyLine (name line : Text) (old : Option Text) : Option Text :=
  if startsWith name (strip line) then
    match quoted line with
    | some t => some t
    | none => old
  else old

/-- The loop of 152-164. -/
def readLines (lines : List Text) : FileKeywords :=
  lines.foldl (fun k line =>
    { refnames := keyLine "git_refnames =".toList line k.refnames
      full := keyLine "git_full =".toList line k.full
      date := keyLine "git_date =".toList line k.date }) {}

/-- `git_get_keywords`, 143-168; `file` is what opening the file and reading its lines gives. -/
def fileKeywords (file : Except Err (List Text)) : Except Err FileKeywords :=
  match file with
  | .ok lines => .ok (readLines lines)
  | .error .os => .ok {}
  | .error e => .error e

/-- `git_versions_from_keywords`, 171-230, for a dictionary in which keys may be missing. -/
def dictVersion (pre : Text) (k : FileKeywords) : Except VErr Version :=
  if k.refnames = none ∧ k.full = none ∧ k.date = none then .error .notThisMethod
  else match k.refnames with
    | none => .error (.py .key)
    | some r => if startsWith "$Format".toList (strip r) then .error .notThisMethod
      else match k.full with
        | none => .error (.py .key)
        | some f => keywordVersion pre { refnames := r, full := f, date := k.date }

end Popsynth
