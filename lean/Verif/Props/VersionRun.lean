import Verif.Model.VersionRun
import Verif.Props.Version

/-!
# C98: commands of git and keywords of a file
-/

set_option autoImplicit false

namespace Popsynth
open Spec

/-- What becomes of the first command of a list that exists. -/
def Spec.First (popen : Text → Started) (cs : List Text) (x : Started) : Prop :=
  ∃ a c b, cs = a ++ c :: b ∧ (∀ d ∈ a, popen d = .missing) ∧ popen c = x ∧ x ≠ .missing

theorem first_cons_missing {popen : Text → Started} {c : Text} {cs : List Text} (h : popen c = .missing)
    (x : Started) : Spec.First popen (c :: cs) x ↔ Spec.First popen cs x := by
  constructor
  · rintro ⟨a, d, b, e, h1, h2, h3⟩
    cases a with
    | nil =>
      simp only [List.nil_append, List.cons.injEq] at e
      rw [← e.1, h] at h2
      exact absurd h2.symm h3
    | cons d' a =>
      simp only [List.cons_append, List.cons.injEq] at e
      exact ⟨a, d, b, e.2, fun d hd => h1 d (by simp [hd]), h2, h3⟩
  · rintro ⟨a, d, b, e, h1, h2, h3⟩
    refine ⟨c :: a, d, b, by rw [e]; rfl, fun d hd => ?_, h2, h3⟩
    rcases List.mem_cons.1 hd with rfl | hd
    · exact h
    · exact h1 d hd

theorem first_cons {popen : Text → Started} {c : Text} {cs : List Text} (h : popen c ≠ .missing)
    (x : Started) : Spec.First popen (c :: cs) x ↔ popen c = x := by
  constructor
  · rintro ⟨a, d, b, e, h1, h2, h3⟩
    cases a with
    | nil =>
      simp only [List.nil_append, List.cons.injEq] at e
      rw [e.1]; exact h2
    | cons d' a =>
      simp only [List.cons_append, List.cons.injEq] at e
      exact absurd (by rw [e.1]; exact h1 d' (by simp)) h
  · rintro rfl
    exact ⟨[], c, cs, rfl, by simp, rfl, h⟩

/-- **C98** (commands): `run_command` gives the output of the first command that exists, without
white space at the ends, if it ends with code 0; a return code without output if it fails; neither
if no command exists or the system refuses; and an exception only if starting the command raises
one that is not an error of the system, or the output is not UTF-8. -/
theorem C98_command (popen : Text → Started) (cs : List Text) :
    (∀ t rc, runCommand popen cs = .ok (some t, rc) ↔
      rc = some 0 ∧ ∃ out, Spec.First popen cs (.ran (some out) 0) ∧ t = strip out) ∧
    (∀ n, runCommand popen cs = .ok (none, some n) ↔
      n ≠ 0 ∧ ∃ out, Spec.First popen cs (.ran (some out) n)) ∧
    (runCommand popen cs = .ok (none, none) ↔
      (∀ c ∈ cs, popen c = .missing) ∨ Spec.First popen cs .refused) ∧
    (∀ e, runCommand popen cs = .error e ↔
      Spec.First popen cs (.raises e) ∨ e = .value ∧ ∃ n, Spec.First popen cs (.ran none n)) := by
  induction cs with
  | nil =>
    have no : ∀ x, ¬ Spec.First popen [] x := by rintro x ⟨a, c, b, e, -⟩; simp at e
    simp [runCommand, no]
  | cons c cs ih =>
    by_cases hc : popen c = .missing
    · have e : runCommand popen (c :: cs) = runCommand popen cs := by simp [runCommand, hc]
      simp only [e, first_cons_missing hc, List.forall_mem_cons, hc, true_and]
      exact ih
    · simp only [first_cons hc, List.forall_mem_cons, hc, false_and, false_or]
      cases h : popen c with
      | missing => exact absurd h hc
      | refused => simp [runCommand, h]
      | raises e => simp [runCommand, h]
      | ran out n =>
        cases out with
        | none => simp [runCommand, h, eq_comm]
        | some out =>
          by_cases hn : n = 0
          · subst hn
            simp [runCommand, h, eq_comm, and_comm]
          · simp [runCommand, h, hn, eq_comm]

/-! ### Pieces -/

theorem strip_trims (s : Text) : Trim (strip s) := by
  have key : ∀ x : Text, ∀ c t, x.dropWhile Char.isWhitespace = c :: t → c.isWhitespace = false := by
    intro x
    induction x with
    | nil => simp
    | cons a x ih =>
      intro c t e
      by_cases ha : a.isWhitespace
      · rw [List.dropWhile_cons_of_pos ha] at e; exact ih c t e
      · rw [List.dropWhile_cons_of_neg ha] at e
        simp only [List.cons.injEq] at e
        rw [← e.1]; simpa using ha
  constructor
  · intro c t e
    unfold strip stripOf at e
    set x := s.dropWhile Char.isWhitespace with hx
    have hsuf : x.reverse.dropWhile Char.isWhitespace <:+ x.reverse := List.dropWhile_suffix _
    obtain ⟨w, hw⟩ := hsuf
    have : x = (c :: t) ++ w.reverse := by
      rw [← e, ← List.reverse_append, hw, List.reverse_reverse]
    exact key s c (t ++ w.reverse) (by rw [← hx, this]; rfl)
  · intro c t e
    unfold strip stripOf at e
    have := congrArg List.reverse e
    rw [List.reverse_reverse, List.reverse_append] at this
    exact key _ c _ this

theorem strip_strip (s : Text) : strip (strip s) = strip s := by
  by_cases h : strip s = []
  · rw [h]; rfl
  · have := strip_trim (strip_trims s) [] [] (by simp) (by simp) h
    simpa using this

/-- What a machine prints for a command, as `GitOut` has it. -/
def Spec.outputs (o : GitOut) : GitCmd → Option Text
  | .gitDir => o.gitDir
  | .describe => o.describe
  | .head => o.head
  | .count => o.count
  | .date => o.date

theorem run_zero {popen : Text → Started} {cs : List Text} {t : Option Text} {rc : Option Int}
    (h : runCommand popen cs = .ok (t, rc)) : t.isSome = true ↔ rc = some 0 := by
  cases t with
  | some t => simp [(((C98_command popen cs).1 t rc).1 h).1]
  | none =>
    cases rc with
    | none => simp
    | some n => simp [(((C98_command popen cs).2.1 n).1 h).1]

/-- **C98** (pieces): if no command raises an exception, `git_pieces_from_vcs` makes of the outputs
what C82 says. -/
theorem C98_pieces (pre : Text) (popen : GitCmd → Text → Started) (windows : Bool) (o : GitOut)
    (h : ∀ c, ∃ rc, runCommand (popen c) (gits windows) = .ok (Spec.outputs o c, rc)) :
    piecesRun pre popen windows = gitPieces pre o := by
  obtain ⟨r1, h1⟩ := h .gitDir
  obtain ⟨r2, h2⟩ := h .describe
  obtain ⟨r3, h3⟩ := h .head
  obtain ⟨r4, h4⟩ := h .count
  obtain ⟨r5, h5⟩ := h .date
  have z := run_zero h1
  have hd : ∀ p, dateRun (fun c => runCommand (popen c) (gits windows)) p = withDate o p := fun p => by
    unfold dateRun withDate
    simp only [h5, liftPy]
    simp only [Spec.outputs]
    cases o.date with
    | none => rfl
    | some d => simp only [isoDate, strip_strip]
  unfold piecesRun gitPieces parseRun
  simp only [h1, h2, h3, h4, hd, liftPy]
  simp only [Spec.outputs] at z ⊢
  cases hg : o.gitDir with
  | none =>
    rw [hg] at z
    have : r1 ≠ some 0 := fun e => by simpa using z.2 e
    simp [this]
  | some g =>
    rw [hg] at z
    have : r1 = some 0 := z.1 rfl
    simp only [this]
    cases o.describe with
    | none => simp
    | some out =>
      cases o.head with
      | none => simp
      | some full =>
        simp only [ne_eq, not_true_eq_false, if_false]
        cases o.count <;> rfl

/-- **C98** (no git): without git, or outside of a repository, the name of the directory decides. -/
theorem C98_no_git (k : Keywords) (popen : GitCmd → Text → Started) (windows : Bool) (names : List Text)
    (hk : startsWith "$Format".toList (strip k.refnames) = true)
    (h : (∀ c ∈ gits windows, popen .gitDir c = .missing) ∨ Spec.First (popen .gitDir) (gits windows) .refused ∨
      ∃ out n, n ≠ 0 ∧ Spec.First (popen .gitDir) (gits windows) (.ran (some out) n)) :
    ∃ v, getVersionsRun k popen windows names = .ok v ∧
      ((∃ d ∈ names.take 3, startsWith "popsynth-".toList d = true ∧ v.version = d.drop 9 ∧ v.error = none) ∨
        v.version = "0+unknown".toList ∧ v.error = some "unable to compute version".toList) := by
  have hp : piecesRun ['v'] popen windows = .error .notThisMethod := by
    have : ∃ rc, runCommand (popen .gitDir) (gits windows) = .ok (none, rc) ∧ rc ≠ some 0 := by
      obtain ⟨-, c2, c3, -⟩ := C98_command (popen .gitDir) (gits windows)
      rcases h with h | h | ⟨out, n, hn, h⟩
      · exact ⟨none, c3.2 (.inl h), by simp⟩
      · exact ⟨none, c3.2 (.inr h), by simp⟩
      · exact ⟨some n, (c2 n).2 ⟨hn, out, h⟩, by simpa using hn⟩
    obtain ⟨rc, h1, h2⟩ := this
    unfold piecesRun
    simp only [h1, liftPy, ne_eq, h2, not_false_eq_true, if_true]
  have hkw : keywordVersion ['v'] k = .error .notThisMethod := by
    unfold keywordVersion; rw [if_pos hk]
  unfold getVersionsRun
  rw [hp, hkw]
  simp only [orElse]
  unfold parentdirVersion
  cases hf : (names.take 3).find? (startsWith "popsynth-".toList) with
  | none => exact ⟨_, rfl, .inr ⟨rfl, rfl⟩⟩
  | some d =>
    exact ⟨_, rfl, .inl ⟨d, List.mem_of_find?_eq_some hf, List.find?_some hf, rfl, rfl⟩⟩

/-- **C98** (a checkout): with a git that prints a description of the checkout, the version is the
one of C82. -/
theorem C98_checkout (k : Keywords) (popen : GitCmd → Text → Started) (windows : Bool) (names : List Text) (o : GitOut)
    (h : ∀ c, ∃ rc, runCommand (popen c) (gits windows) = .ok (Spec.outputs o c, rc)) :
    getVersionsRun k popen windows names = getVersions k o names := by
  unfold getVersionsRun getVersions
  rw [C98_pieces ['v'] popen windows o h]
  cases gitPieces ['v'] o <;> rfl

/-- A git whose output is not UTF-8 stops the import of the package: the exception is not one that
`get_versions` expects. -/
theorem C98_violated_decode (k : Keywords) (popen : GitCmd → Text → Started) (windows : Bool) (names : List Text)
    (hk : startsWith "$Format".toList (strip k.refnames) = true) (n : Int)
    (h : Spec.First (popen .gitDir) (gits windows) (.ran none n)) :
    getVersionsRun k popen windows names = .error (.py .value) := by
  have h1 := ((C98_command (popen .gitDir) (gits windows)).2.2.2 .value).2 (.inr ⟨rfl, n, h⟩)
  have hkw : keywordVersion ['v'] k = .error .notThisMethod := by
    unfold keywordVersion; rw [if_pos hk]
  unfold getVersionsRun piecesRun
  rw [hkw]
  simp only [h1, liftPy, orElse]

/-! ### Keywords of a file -/

/-- A line that assigns a text to a name. -/
def Spec.assignment (indent name value : Text) : Text :=
  indent ++ name ++ " = \"".toList ++ value ++ "\"\n".toList

theorem quoted_skip (a s : Text) (h : '=' ∉ a) : quoted (a ++ s) = quoted s := by
  induction a with
  | nil => rfl
  | cons c a ih =>
    have hc : c ≠ '=' := fun e => h (by simp [e])
    have ha : '=' ∉ a := fun e => h (by simp [e])
    rw [List.cons_append, quoted, if_neg hc, ih ha]

theorem quoted_assignment (value : Text) (hv : '\n' ∉ value) :
    quoted ('=' :: ' ' :: '"' :: (value ++ "\"\n".toList)) = some value := by
  have h1 : (value ++ "\"\n".toList).takeWhile (· != '\n') = value ++ "\"".toList := by
    have e : value ++ "\"\n".toList = (value ++ "\"".toList) ++ '\n' :: [] := by simp
    rw [e]
    refine (take_split (value ++ "\"".toList) [] (fun x hx => ?_) (by decide)).1
    rcases List.mem_append.1 hx with hx | hx
    · simp only [bne_iff_ne, ne_eq]; rintro rfl; exact hv hx
    · have : x = '"' := by simpa using hx
      rw [this]; decide
  have h2 : (' ' :: '"' :: (value ++ "\"\n".toList)).dropWhile Char.isWhitespace =
      '"' :: (value ++ "\"\n".toList) := by
    rw [List.dropWhile_cons_of_pos (by decide), List.dropWhile_cons_of_neg (by decide)]
  have h3 : beforeQuote (value ++ "\"".toList) = some value := by
    unfold beforeQuote
    rw [if_pos (by simp)]
    simp
  rw [quoted, if_pos rfl, h2]
  simp only [h1, h3]

theorem keyLine_assignment (indent name value : Text) (old : Option Text) (hi : ∀ c ∈ indent, c.isWhitespace = true)
    (hn : '=' ∉ name) (h0 : name.head?.map Char.isWhitespace = some false) (hv : '\n' ∉ value) :
    keyLine (name ++ " =".toList) (Spec.assignment indent name value) old = some value := by
  have hs : strip (Spec.assignment indent name value) = name ++ " = \"".toList ++ value ++ "\"".toList := by
    have e : Spec.assignment indent name value =
        indent ++ (name ++ " = \"".toList ++ value ++ "\"".toList) ++ "\n".toList := by
      simp [Spec.assignment]
    rw [e]
    refine strip_trim ⟨?_, ?_⟩ indent _ hi (by decide) (by simp)
    · intro c' t' e
      cases name with
      | nil => cases h0
      | cons c name =>
        simp only [List.cons_append, List.cons.injEq] at e
        rw [← e.1]; simpa using h0
    · intro c t e
      have : '"' = c := by simpa using (List.append_inj' e rfl).2
      rw [← this]; decide
  have hq : quoted (Spec.assignment indent name value) = some value := by
    have e : Spec.assignment indent name value =
        (indent ++ name ++ " ".toList) ++ '=' :: ' ' :: '"' :: (value ++ "\"\n".toList) := by
      simp [Spec.assignment]
    rw [e, quoted_skip _ _ ?_, quoted_assignment value hv]
    simp only [List.mem_append, not_or]
    refine ⟨⟨fun h => ?_, hn⟩, by decide⟩
    have := hi _ h; revert this; decide
  unfold keyLine
  rw [hs, if_pos ?_, hq]
  simp [startsWith, List.isPrefixOf_iff_prefix]

/-- What the loop keeps for each name. -/
theorem readLines_parts (lines : List Text) :
    readLines lines = { refnames := lines.foldl (fun k l => keyLine "git_refnames =".toList l k) none
                        full := lines.foldl (fun k l => keyLine "git_full =".toList l k) none
                        date := lines.foldl (fun k l => keyLine "git_date =".toList l k) none } := by
  unfold readLines
  have : ∀ (k : FileKeywords), lines.foldl (fun k line =>
      { refnames := keyLine "git_refnames =".toList line k.refnames
        full := keyLine "git_full =".toList line k.full
        date := keyLine "git_date =".toList line k.date : FileKeywords }) k =
      { refnames := lines.foldl (fun k l => keyLine "git_refnames =".toList l k) k.refnames
        full := lines.foldl (fun k l => keyLine "git_full =".toList l k) k.full
        date := lines.foldl (fun k l => keyLine "git_date =".toList l k) k.date } := by
    induction lines with
    | nil => intro k; rfl
    | cons l lines ih => intro k; simp only [List.foldl_cons]; rw [ih]
  exact this {}

/-- `name` is assigned `value` in a file, on a line of its own, and not assigned after that. -/
def Spec.Assigns (lines : List Text) (name value : Text) : Prop :=
  ∃ before indent after, lines = before ++ Spec.assignment indent name value :: after ∧
    (∀ c ∈ indent, c.isWhitespace = true) ∧ '\n' ∉ value ∧
    ∀ l ∈ after, ¬ (name ++ " =".toList) <+: strip l

theorem foldl_assigned {lines : List Text} {name value : Text} (hn : '=' ∉ name)
    (h0 : name.head?.map Char.isWhitespace = some false) (h : Spec.Assigns lines name value) :
    lines.foldl (fun k l => keyLine (name ++ " =".toList) l k) none = some value := by
  obtain ⟨before, indent, after, rfl, hi, hv, ha⟩ := h
  rw [List.foldl_append, List.foldl_cons, keyLine_assignment indent name value _ hi hn h0 hv]
  induction after with
  | nil => rfl
  | cons l after ih =>
    have : keyLine (name ++ " =".toList) l (some value) = some value := by
      unfold keyLine
      rw [if_neg]
      simpa [startsWith, List.isPrefixOf_iff_prefix] using ha l (by simp)
    rw [List.foldl_cons, this]
    exact ih fun l hl => ha l (by simp [hl])

/-- **C98** (keywords): the keywords are read from a file as they stand there. -/
theorem C98_keywords (lines : List Text) (refnames full date : Text)
    (h1 : Spec.Assigns lines "git_refnames".toList refnames) (h2 : Spec.Assigns lines "git_full".toList full)
    (h3 : Spec.Assigns lines "git_date".toList date) :
    fileKeywords (.ok lines) = .ok { refnames := some refnames, full := some full, date := some date } := by
  have e1 := foldl_assigned (by decide) (by decide) h1
  have e2 := foldl_assigned (by decide) (by decide) h2
  have e3 := foldl_assigned (by decide) (by decide) h3
  show Except.ok (readLines lines) = _
  rw [readLines_parts]
  exact congrArg Except.ok (by rw [FileKeywords.mk.injEq]; exact ⟨e1, e2, e3⟩)

/-- **C98** (archives): the version that is computed from the text of the file is the one that
the module computes when it is imported. -/
theorem C98_archive (pre : Text) (lines : List Text) (k : Keywords) (date : Text) (hd : k.date = some date)
    (h1 : Spec.Assigns lines "git_refnames".toList k.refnames) (h2 : Spec.Assigns lines "git_full".toList k.full)
    (h3 : Spec.Assigns lines "git_date".toList date) :
    ∃ f, fileKeywords (.ok lines) = .ok f ∧ dictVersion pre f = keywordVersion pre k := by
  refine ⟨_, C98_keywords lines _ _ _ h1 h2 h3, ?_⟩
  unfold dictVersion
  simp only [reduceCtorEq, false_and, if_false]
  by_cases hf : startsWith "$Format".toList (strip k.refnames) = true
  · rw [if_pos hf]
    unfold keywordVersion
    rw [if_pos hf]
  · rw [if_neg hf, ← hd]

/-- **C98** (no file): without the file there are no keywords, and the next method is tried. -/
theorem C98_no_file (pre : Text) : ∃ f, fileKeywords (.error .os) = .ok f ∧ dictVersion pre f = .error .notThisMethod :=
  ⟨_, rfl, rfl⟩

/-- A comment with a quotation mark after the assignment becomes part of the keyword. -/
theorem C98_violated_comment (indent value comment : Text) (hi : ∀ c ∈ indent, c.isWhitespace = true)
    (hv : '\n' ∉ value) (hc : '\n' ∉ comment) :
    fileKeywords (.ok [indent ++ "git_full = \"".toList ++ value ++ "\" # \"".toList ++ comment ++ "\"\n".toList]) =
      .ok { full := some (value ++ "\" # \"".toList ++ comment) } := by
  have e : indent ++ "git_full = \"".toList ++ value ++ "\" # \"".toList ++ comment ++ "\"\n".toList =
      Spec.assignment indent "git_full".toList (value ++ "\" # \"".toList ++ comment) := by
    simp [Spec.assignment]
  have hval : '\n' ∉ value ++ "\" # \"".toList ++ comment := by
    simp only [List.mem_append, not_or]
    exact ⟨⟨hv, by decide⟩, hc⟩
  have hs : strip (Spec.assignment indent "git_full".toList (value ++ "\" # \"".toList ++ comment)) =
      "git_full = \"".toList ++ (value ++ "\" # \"".toList ++ comment) ++ "\"".toList := by
    have e : Spec.assignment indent "git_full".toList (value ++ "\" # \"".toList ++ comment) =
        indent ++ ("git_full = \"".toList ++ (value ++ "\" # \"".toList ++ comment) ++ "\"".toList) ++ "\n".toList := by
      simp [Spec.assignment]
    rw [e]
    refine strip_trim ⟨?_, ?_⟩ indent _ hi (by decide) (by simp)
    · intro c t e
      have := congrArg List.head? e
      simp at this
      rw [← this]; decide
    · intro c t e
      have : '"' = c := by simpa using (List.append_inj' e rfl).2
      rw [← this]; decide
  rw [e]
  show Except.ok (readLines _) = _
  rw [readLines_parts]
  have e2 := keyLine_assignment indent "git_full".toList _ none hi (by decide) (by decide) hval
  have other : ∀ name : Text, ¬ name <+: "git_full = \"".toList ++ (value ++ "\" # \"".toList ++ comment) ++ "\"".toList →
      keyLine name (Spec.assignment indent "git_full".toList (value ++ "\" # \"".toList ++ comment)) none = none := by
    intro name hn
    unfold keyLine
    rw [hs, if_neg]
    simpa [startsWith, List.isPrefixOf_iff_prefix] using hn
  refine congrArg Except.ok ?_
  rw [FileKeywords.mk.injEq]
  refine ⟨other _ ?_, e2, other _ ?_⟩
  · rintro ⟨t, ht⟩; simp at ht
  · rintro ⟨t, ht⟩; simp at ht

/-- A file with some of the keywords but without the names of references: the exception is not the
one that leads to the next method. -/
theorem C98_violated_missing (pre : Text) (f d : Option Text) (h : f ≠ none ∨ d ≠ none) :
    dictVersion pre { refnames := none, full := f, date := d } = .error (.py .key) := by
  unfold dictVersion
  rw [if_neg]
  rintro ⟨-, rfl, rfl⟩
  simp at h

/-! ### The regular expression, and lines that do not match it -/

/-- `=\s*"(.*)"` matches `line` after `a`, with `t` as its group. -/
def Spec.Matches (line a t : Text) : Prop :=
  ∃ ws b, line = a ++ '=' :: (ws ++ '"' :: (t ++ '"' :: b)) ∧ (∀ c ∈ ws, c.isWhitespace = true) ∧ '\n' ∉ t

theorem beforeQuote_spec (u : Text) :
    (∀ v, beforeQuote u = some v → ∃ w, u = v ++ '"' :: w ∧ '"' ∉ w) ∧ (beforeQuote u = none → '"' ∉ u) := by
  unfold beforeQuote
  refine ⟨fun v h => ?_, fun h => ?_⟩
  · split_ifs at h with hm
    have h := Option.some.inj h
    refine ⟨(u.reverse.takeWhile (· != '"')).reverse, ?_, fun hx => ?_⟩
    · have e := List.takeWhile_append_dropWhile (p := (· != '"')) (l := u.reverse)
      cases hd : u.reverse.dropWhile (· != '"') with
      | nil =>
        have := List.dropWhile_eq_nil_iff.1 hd '"' (by simpa using hm)
        simp at this
      | cons c d =>
        have hc : c = '"' := by
          have := List.head_dropWhile_not (· != '"') (l := u.reverse) (by rw [hd]; simp)
          simpa [hd] using this
        rw [hd] at e h
        have := congrArg List.reverse e
        rw [List.reverse_reverse] at this
        refine this.symm.trans ?_
        rw [← h, hc]
        simp
    · have := List.mem_takeWhile_imp (List.mem_reverse.1 hx)
      simp at this
  · split_ifs at h with hm
    exact hm

/-- The first two cases of `quoted`, after an equals sign. -/
theorem group_spec {ws r : Text} (hw : ∀ c ∈ ws, c.isWhitespace = true) :
    (ws ++ '"' :: r).dropWhile Char.isWhitespace = '"' :: r := by
  induction ws with
  | nil => rw [List.nil_append, List.dropWhile_cons_of_neg (by decide)]
  | cons c ws ih =>
    rw [List.cons_append, List.dropWhile_cons_of_pos (hw c (by simp))]
    exact ih fun c hc => hw c (by simp [hc])

theorem takeWhile_text {t b : Text} (h : '\n' ∉ t) :
    (t ++ '"' :: b).takeWhile (· != '\n') = t ++ '"' :: b.takeWhile (· != '\n') := by
  induction t with
  | nil => rw [List.nil_append, List.takeWhile_cons_of_pos (by decide)]; rfl
  | cons c t ih =>
    have hc : (c != '\n') = true := by simp only [bne_iff_ne, ne_eq]; rintro rfl; exact h (by simp)
    rw [List.cons_append, List.takeWhile_cons_of_pos (p := (· != '\n')) hc, ih fun e => h (by simp [e])]
    rfl

theorem last_quote {t b v w : Text} (e : t ++ '"' :: b = v ++ '"' :: w) (h : '"' ∉ w) : t.length ≤ v.length := by
  by_contra hl
  rcases List.append_eq_append_iff.1 e with ⟨x, h1, -⟩ | ⟨x, h1, h2⟩
  · rw [h1] at hl; simp at hl
  · cases x with
    | nil => rw [h1] at hl; simp at hl
    | cons y x =>
      simp only [List.cons_append, List.cons.injEq] at h2
      exact h (by rw [h2.2]; simp)

/-- What `quoted` finds after an equals sign. -/
theorem here_spec (s : Text) :
    (∀ t, (match s.dropWhile Char.isWhitespace with
        | '"' :: r => beforeQuote (r.takeWhile (· != '\n'))
        | _ => none) = some t →
      Spec.Matches ('=' :: s) [] t ∧ ∀ t', Spec.Matches ('=' :: s) [] t' → t'.length ≤ t.length) ∧
    ((match s.dropWhile Char.isWhitespace with
        | '"' :: r => beforeQuote (r.takeWhile (· != '\n'))
        | _ => none) = none → ∀ t, ¬ Spec.Matches ('=' :: s) [] t) := by
  have key : ∀ t, Spec.Matches ('=' :: s) [] t →
      ∃ r b, s.dropWhile Char.isWhitespace = '"' :: r ∧ r.takeWhile (· != '\n') = t ++ '"' :: b := by
    rintro t ⟨ws, b, e, hw, ht⟩
    simp only [List.nil_append, List.cons.injEq, true_and] at e
    exact ⟨_, _, by rw [e]; exact group_spec hw, takeWhile_text ht⟩
  constructor
  · intro t h
    split at h
    next r hr =>
      obtain ⟨w, e, hq⟩ := (beforeQuote_spec _).1 t h
      constructor
      · have e1 := List.takeWhile_append_dropWhile (p := Char.isWhitespace) (l := s)
        have e2 := List.takeWhile_append_dropWhile (p := (· != '\n')) (l := r)
        refine ⟨s.takeWhile Char.isWhitespace, w ++ r.dropWhile (· != '\n'), ?_, fun c hc => List.mem_takeWhile_imp hc, fun hn => ?_⟩
        · rw [hr, ← e2, e] at e1
          rw [List.nil_append]
          refine congrArg _ (e1.symm.trans ?_)
          simp
        · have : '\n' ∈ r.takeWhile (· != '\n') := by rw [e]; simp [hn]
          have := List.mem_takeWhile_imp this
          simp at this
      · intro t' ht'
        obtain ⟨r', b, h1, h2⟩ := key t' ht'
        rw [hr] at h1
        obtain ⟨-, rfl⟩ := List.cons.inj h1
        exact last_quote (h2.symm.trans e) hq
    next => cases h
  · intro h t ht
    obtain ⟨r, b, h1, h2⟩ := key t ht
    rw [h1] at h
    exact (beforeQuote_spec _).2 h (by rw [h2]; simp)

theorem matches_cons {c : Char} {s a t : Text} : Spec.Matches (c :: s) a t ↔
    (a = [] ∧ c = '=' ∧ Spec.Matches ('=' :: s) [] t) ∨ ∃ a', a = c :: a' ∧ Spec.Matches s a' t := by
  constructor
  · rintro ⟨ws, b, e, hw, ht⟩
    cases a with
    | nil =>
      simp only [List.nil_append, List.cons.injEq] at e
      exact .inl ⟨rfl, e.1, ws, b, by rw [e.2]; rfl, hw, ht⟩
    | cons d a =>
      simp only [List.cons_append, List.cons.injEq] at e
      exact .inr ⟨a, by rw [e.1], ws, b, e.2, hw, ht⟩
  · rintro (⟨rfl, rfl, h⟩ | ⟨a', rfl, ws, b, e, hw, ht⟩)
    · exact h
    · exact ⟨ws, b, by rw [e]; rfl, hw, ht⟩

/-- **C98** (regular expression): what is read from a line is the group of the leftmost match, as long as
possible; nothing is read only if there is no match anywhere in the line. -/
theorem C98_regex (line : Text) :
    (∀ t, quoted line = some t → ∃ a, Spec.Matches line a t ∧
      (∀ a' t', Spec.Matches line a' t' → a.length ≤ a'.length) ∧
      ∀ t', Spec.Matches line a t' → t'.length ≤ t.length) ∧
    (quoted line = none ↔ ∀ a t, ¬ Spec.Matches line a t) := by
  have main : (∀ t, quoted line = some t → ∃ a, Spec.Matches line a t ∧
      (∀ a' t', Spec.Matches line a' t' → a.length ≤ a'.length) ∧
      ∀ t', Spec.Matches line a t' → t'.length ≤ t.length) ∧
      (quoted line = none → ∀ a t, ¬ Spec.Matches line a t) := by
    induction line with
    | nil =>
      refine ⟨fun t h => (by simp [quoted] at h), ?_⟩
      rintro - a t ⟨ws, b, e, -⟩
      simp at e
    | cons c s ih =>
      have rest : (c = '=' → ∀ t, ¬ Spec.Matches ('=' :: s) [] t) → quoted (c :: s) = quoted s →
          (∀ t, quoted (c :: s) = some t → ∃ a, Spec.Matches (c :: s) a t ∧
            (∀ a' t', Spec.Matches (c :: s) a' t' → a.length ≤ a'.length) ∧
            ∀ t', Spec.Matches (c :: s) a t' → t'.length ≤ t.length) ∧
          (quoted (c :: s) = none → ∀ a t, ¬ Spec.Matches (c :: s) a t) := by
        intro hn e
        rw [e]
        constructor
        · intro t h
          obtain ⟨a, h1, h2, h3⟩ := ih.1 t h
          refine ⟨c :: a, matches_cons.2 (.inr ⟨a, rfl, h1⟩), fun a' t' hm => ?_, fun t' hm => ?_⟩
          · rcases matches_cons.1 hm with ⟨-, hc, q⟩ | ⟨a'', rfl, q⟩
            · exact absurd q (hn hc _)
            · simpa using h2 _ _ q
          · rcases matches_cons.1 hm with ⟨q, -⟩ | ⟨a'', q', q⟩
            · cases q
            · obtain ⟨-, rfl⟩ := List.cons.inj q'
              exact h3 _ q
        · intro h a t hm
          rcases matches_cons.1 hm with ⟨-, hc, h'⟩ | ⟨a', -, h'⟩
          · exact hn hc _ h'
          · exact ih.2 h _ _ h'
      by_cases hc : c = '='
      · subst hc
        cases hx : (match s.dropWhile Char.isWhitespace with
            | '"' :: r => beforeQuote (r.takeWhile (· != '\n'))
            | _ => none) with
        | none =>
          refine rest (fun _ => (here_spec s).2 hx) ?_
          rw [quoted, if_pos rfl]
          split
          next r hr =>
            rw [hr] at hx
            simp only at hx
            rw [hx]
          next => rfl
        | some t =>
          obtain ⟨h1, h2⟩ := (here_spec s).1 t hx
          have hq : quoted ('=' :: s) = some t := by
            rw [quoted, if_pos rfl]
            split
            next r hr =>
              rw [hr] at hx
              simp only at hx
              rw [hx]
            next h =>
              split at hx
              next r hr => exact absurd hr (h r)
              next => cases hx
          rw [hq]
          refine ⟨fun t' h => ?_, fun h => by cases h⟩
          obtain rfl := Option.some.inj h
          exact ⟨[], h1, fun _ _ _ => by simp, h2⟩
      · refine rest (fun h => absurd h hc) ?_
        rw [quoted, if_neg hc]
  refine ⟨main.1, main.2, fun h => ?_⟩
  cases hq : quoted line with
  | none => rfl
  | some t =>
    obtain ⟨a, h1, -⟩ := main.1 t hq
    exact absurd h1 (h a t)

/-- A line that counts for a name: it begins with the name and an equals sign, and has a match. -/
def Spec.Counts (name line : Text) : Prop :=
  (name ++ " =".toList) <+: strip line ∧ ∃ a t, Spec.Matches line a t

theorem keyLine_counts (name line : Text) (old : Option Text) :
    (Spec.Counts name line → keyLine (name ++ " =".toList) line old = quoted line ∧ quoted line ≠ none) ∧
    (¬ Spec.Counts name line → keyLine (name ++ " =".toList) line old = old) := by
  unfold keyLine Spec.Counts
  constructor
  · rintro ⟨h1, a, t, h2⟩
    have hn : quoted line ≠ none := fun h => (C98_regex line).2.1 h a t h2
    rw [if_pos (by simpa [startsWith, List.isPrefixOf_iff_prefix] using h1)]
    cases hq : quoted line with
    | none => exact absurd hq hn
    | some t => simp
  · intro h
    split_ifs with hs
    · have hq : quoted line = none := (C98_regex line).2.2 fun a t hm =>
        h ⟨by simpa [startsWith, List.isPrefixOf_iff_prefix] using hs, a, t, hm⟩
      rw [hq]
    · rfl

theorem fold_counts (name : Text) (lines : List Text) :
    (∀ before line after, lines = before ++ line :: after → Spec.Counts name line →
      (∀ l ∈ after, ¬ Spec.Counts name l) →
      lines.foldl (fun k l => keyLine (name ++ " =".toList) l k) none = quoted line ∧ quoted line ≠ none) ∧
    ((∀ l ∈ lines, ¬ Spec.Counts name l) →
      lines.foldl (fun k l => keyLine (name ++ " =".toList) l k) none = none) := by
  have skip : ∀ (ls : List Text) (k : Option Text), (∀ l ∈ ls, ¬ Spec.Counts name l) →
      ls.foldl (fun k l => keyLine (name ++ " =".toList) l k) k = k := by
    intro ls
    induction ls with
    | nil => intro k _; rfl
    | cons l ls ih =>
      intro k h
      rw [List.foldl_cons, (keyLine_counts name l k).2 (h l (by simp))]
      exact ih k fun l hl => h l (by simp [hl])
  refine ⟨?_, skip _ _⟩
  rintro before line after rfl hc ha
  have := (keyLine_counts name line (before.foldl (fun k l => keyLine (name ++ " =".toList) l k) none)).1 hc
  rw [List.foldl_append, List.foldl_cons, this.1]
  exact ⟨skip _ _ ha, this.2⟩

/-- **C98** (any file): each keyword is what the last line that counts for it says, and is missing only
if no line counts; lines that only begin like an assignment change nothing. -/
theorem C98_any_file (lines : List Text) : ∃ k, fileKeywords (.ok lines) = .ok k ∧
    ∀ p ∈ [("git_refnames".toList, k.refnames), ("git_full".toList, k.full), ("git_date".toList, k.date)],
      (∀ before line after, lines = before ++ line :: after → Spec.Counts p.1 line →
        (∀ l ∈ after, ¬ Spec.Counts p.1 l) → ∃ a t, p.2 = some t ∧ Spec.Matches line a t ∧
          (∀ a' t', Spec.Matches line a' t' → a.length ≤ a'.length) ∧
          ∀ t', Spec.Matches line a t' → t'.length ≤ t.length) ∧
      ((∀ l ∈ lines, ¬ Spec.Counts p.1 l) → p.2 = none) := by
  refine ⟨_, rfl, ?_⟩
  have key : ∀ name : Text,
      (∀ before line after, lines = before ++ line :: after → Spec.Counts name line →
        (∀ l ∈ after, ¬ Spec.Counts name l) →
        ∃ a t, lines.foldl (fun k l => keyLine (name ++ " =".toList) l k) none = some t ∧ Spec.Matches line a t ∧
          (∀ a' t', Spec.Matches line a' t' → a.length ≤ a'.length) ∧
          ∀ t', Spec.Matches line a t' → t'.length ≤ t.length) ∧
      ((∀ l ∈ lines, ¬ Spec.Counts name l) →
        lines.foldl (fun k l => keyLine (name ++ " =".toList) l k) none = none) := by
    intro name
    refine ⟨fun before line after e hc ha => ?_, (fold_counts name lines).2⟩
    obtain ⟨h1, h2⟩ := (fold_counts name lines).1 before line after e hc ha
    obtain ⟨t, ht⟩ := Option.ne_none_iff_exists'.1 h2
    obtain ⟨a, h3⟩ := (C98_regex line).1 t ht
    exact ⟨a, t, h1.trans ht, h3⟩
  rw [readLines_parts]
  intro p hp
  simp only [List.mem_cons, List.not_mem_nil, or_false] at hp
  rcases hp with rfl | rfl | rfl
  · exact key "git_refnames".toList
  · exact key "git_full".toList
  · exact key "git_date".toList

theorem run_found {popen popen' : Text → Started} {c : Text} (cs cs' : List Text) (h : popen c = popen' c)
    (hm : popen c ≠ .missing) : runCommand popen (c :: cs) = runCommand popen' (c :: cs') := by
  unfold runCommand
  rw [← h]
  cases hp : popen c with
  | missing => exact absurd hp hm
  | ran out code => cases out <;> rfl
  | _ => rfl

/-- **C98** (which git): on Windows `git.exe` does not matter if there is a `git.cmd`, and it is used if
there is none; elsewhere only `git` matters. -/
theorem C98_which_git (pre : Text) (popen popen' : GitCmd → Text → Started) :
    ((∀ c, popen c "git.cmd".toList = popen' c "git.cmd".toList ∧ popen c "git.cmd".toList ≠ .missing) →
      piecesRun pre popen true = piecesRun pre popen' true) ∧
    ((∀ c, popen c "git.cmd".toList = .missing ∧ popen c "git.exe".toList = popen' c "git".toList) →
      piecesRun pre popen true = piecesRun pre popen' false) := by
  have ext : ∀ w w', (∀ c, runCommand (popen c) (gits w) = runCommand (popen' c) (gits w')) →
      piecesRun pre popen w = piecesRun pre popen' w' := by
    intro w w' h
    unfold piecesRun
    simp only [h]
  constructor
  · exact fun h => ext _ _ fun c => run_found _ _ (h c).1 (h c).2
  · intro h
    refine ext _ _ fun c => ?_
    show runCommand (popen c) ["git.cmd".toList, "git.exe".toList] = runCommand (popen' c) ["git".toList]
    rw [runCommand, (h c).1]
    simp only [runCommand, (h c).2]

/-- The second equals sign is the one that matches, and a later line without quotation marks changes nothing. -/
example : fileKeywords (.ok ["git_full = x = \"abc\"\n".toList, "git_full = None\n".toList]) =
    .ok { full := some "abc".toList } := by decide

/-- The lines of `get_keywords` (24-26) are read back. -/
example : fileKeywords (.ok ["def get_keywords():\n".toList,
    "    git_refnames = \" (tag: v1.0, \"\n".toList, "    git_full = \"abc\"\n".toList,
    "    git_date = \"2021\"\n".toList, "    return keywords\n".toList]) =
    .ok { refnames := some " (tag: v1.0, ".toList, full := some "abc".toList, date := some "2021".toList } := by
  decide

/-- A Windows machine without `git.cmd`, with a `git.exe` that fails outside of a repository. -/
example : runCommand (fun c => if c = "git.exe".toList then .ran (some []) 128 else .missing) (gits true) =
    .ok (none, some 128) := by decide

end Popsynth
