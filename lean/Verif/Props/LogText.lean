import Verif.Model.LogText
import Mathlib.Data.List.Basic

/-!
# The text of log records (C104)
-/

set_option autoImplicit false
set_option linter.unusedSectionVars false

namespace Popsynth

/-! ### A terminal -/

namespace Spec

/-- Where a terminal is in an escape sequence. -/
inductive EscapeState where
  | none
  | escape
  | number (n : Nat)
  deriving DecidableEq

/-- A terminal: the styles in force, and the sequence being read. -/
structure Terminal where
  styles : List Nat
  pending : EscapeState
  deriving DecidableEq

/-- The terminal reads a character: what it shows, in which styles, and its next state.  Code 0
switches all styles off, other codes add a style.  Only sequences `ESC [ number m` are known; any other
sequence ends at the first character that does not fit (no lists of numbers, no titles). -/
def Terminal.read (t : Terminal) (c : Char) : List (Char × List Nat) × Terminal :=
  match t.pending with
  | .none => if c = '\x1b' then ([], { t with pending := .escape }) else ([(c, t.styles)], t)
  | .escape => if c = '[' then ([], { t with pending := .number 0 }) else ([], { t with pending := .none })
  | .number n =>
    if c.isDigit = true then ([], { t with pending := .number (10 * n + (c.toNat - 48)) })
    else if c = 'm' then ([], { styles := if n = 0 then [] else t.styles ++ [n], pending := .none })
    else ([], { t with pending := .none })

/-- The terminal reads a text. -/
def Terminal.show (t : Terminal) : List Char → List (Char × List Nat) × Terminal
  | [] => ([], t)
  | c :: l => ((t.read c).1 ++ ((t.read c).2.show l).1, ((t.read c).2.show l).2)

/-- A terminal without styles. -/
def Terminal.plain : Terminal := ⟨[], .none⟩

/-- The styles of the levels: cyan; green, bright; yellow, dim; red, bright; red on white, bright. -/
def levelStyles (n : Nat) : List Nat :=
  if n = 10 then [36] else if n = 20 then [32, 1] else if n = 30 then [33, 2] else if n = 40 then [31, 1]
  else if n = 50 then [31, 47, 1] else []

/-- A text in given styles. -/
def styled (st : List Nat) (l : List Char) : List (Char × List Nat) := l.map fun c => (c, st)

/-- The records of a log file: the time has 19 characters, and nothing has several lines; the names of
loggers and functions have no bars in them. -/
structure Loggable (r : LogRecord) : Prop where
  stamp : r.time.length = 19
  time : '\n' ∉ r.time
  name : '\n' ∉ r.name ∧ '|' ∉ r.name
  func : '\n' ∉ r.func ∧ '|' ∉ r.func
  message : '\n' ∉ r.message

end Spec

open Spec

theorem show_append (l l' : List Char) : ∀ t : Terminal,
    t.show (l ++ l') = ((t.show l).1 ++ ((t.show l).2.show l').1, ((t.show l).2.show l').2) := by
  induction l with
  | nil => intro t; rfl
  | cons c l ih => intro t; simp [Terminal.show, ih]

theorem show_text {l : List Char} (h : '\x1b' ∉ l) (st : List Nat) :
    Terminal.show ⟨st, .none⟩ l = (styled st l, ⟨st, .none⟩) := by
  induction l with
  | nil => rfl
  | cons c l ih =>
    have hc : c ≠ '\x1b' := fun e => h (by simp [e])
    have hl : '\x1b' ∉ l := fun e => h (by simp [e])
    simp [Terminal.show, Terminal.read, hc, ih hl, styled]

/-! ### Names of levels -/

theorem levelName_eq (n : Nat) : levelName n ∈ [['C', 'R', 'I', 'T', 'I', 'C', 'A', 'L'], ['E', 'R', 'R', 'O', 'R'],
    ['W', 'A', 'R', 'N', 'I', 'N', 'G'], ['I', 'N', 'F', 'O'], ['D', 'E', 'B', 'U', 'G'], ['N', 'O', 'T', 'S', 'E', 'T']] ∨
    levelName n = ['L', 'e', 'v', 'e', 'l', ' '] ++ Nat.toDigits 10 n := by
  unfold levelName
  split_ifs <;> simp

theorem not_digit {c : Char} (hc : c.isDigit = false) (n : Nat) : c ∉ Nat.toDigits 10 n := by
  intro h
  rw [Nat.isDigit_of_mem_toDigits (by decide) (by decide) h] at hc
  cases hc

theorem levelName_clean {c : Char} (n : Nat) (hc : c = '\x1b' ∨ c = '|' ∨ c = '\n') : c ∉ levelName n := by
  have hd : c ∉ Nat.toDigits 10 n := not_digit (by rcases hc with rfl | rfl | rfl <;> decide) n
  rcases levelName_eq n with h | h
  · generalize levelName n = x at h
    simp only [List.mem_cons, List.not_mem_nil, or_false] at h
    rcases h with rfl | rfl | rfl | rfl | rfl | rfl <;> rcases hc with rfl | rfl | rfl <;> decide
  · rw [h, List.mem_append, not_or]
    exact ⟨by rcases hc with rfl | rfl | rfl <;> decide, hd⟩

theorem toDigits_inj {n m : Nat} (h : Nat.toDigits 10 n = Nat.toDigits 10 m) : n = m := by
  rw [← Nat.ofDigitChars_toDigits (b := 10) (n := n) (by decide) (by decide), h,
    Nat.ofDigitChars_toDigits (by decide) (by decide)]

/-- **C104** (levels): different levels have different names. -/
theorem C104_levels {n m : Nat} (h : levelName n = levelName m) : n = m := by
  unfold levelName at h
  split_ifs at h <;> simp_all
  exact toDigits_inj h

theorem color_none {n : Nat} (h : n ≠ 10 ∧ n ≠ 20 ∧ n ≠ 30 ∧ n ≠ 40 ∧ n ≠ 50) : levelColor (levelName n) = [] := by
  obtain ⟨h1, h2, h3, h4, h5⟩ := h
  unfold levelColor
  have q : ∀ k, n ≠ k → levelName n ≠ levelName k := fun k hk e => hk (C104_levels e)
  exact (if_neg (q 10 h1)).trans ((if_neg (q 20 h2)).trans ((if_neg (q 30 h3)).trans
    ((if_neg (q 40 h4)).trans (if_neg (q 50 h5)))))

theorem color_show (n : Nat) :
    Terminal.plain.show (levelColor (levelName n)) = ([], ⟨levelStyles n, .none⟩) := by
  by_cases h : n = 10 ∨ n = 20 ∨ n = 30 ∨ n = 40 ∨ n = 50
  · rcases h with rfl | rfl | rfl | rfl | rfl <;> decide
  · have h' : n ≠ 10 ∧ n ≠ 20 ∧ n ≠ 30 ∧ n ≠ 40 ∧ n ≠ 50 := by omega
    rw [color_none h']
    obtain ⟨h1, h2, h3, h4, h5⟩ := h'
    simp [levelStyles, h1, h2, h3, h4, h5, Terminal.show, Terminal.plain]

theorem reset_show (st : List Nat) : Terminal.show ⟨st, .none⟩ resetAllStyle = ([], Terminal.plain) := rfl

theorem pad8_clean (n : Nat) : '\x1b' ∉ [' '] ++ pad8 (levelName n) ++ [' '] := by
  have := levelName_clean (c := '\x1b') n (.inl rfl)
  unfold pad8
  simp [this]

/-! ### The console -/

/-- **C104** (console): the name of the level is shown in the colours of the level, then a bar without
colours, then the message in the colours of the level; afterwards the terminal has no colours. -/
theorem C104_console (r : LogRecord) (h : '\x1b' ∉ r.message) :
    Terminal.plain.show (consoleText r) =
      (styled (levelStyles r.level) ([' '] ++ pad8 (levelName r.level) ++ [' ']) ++ styled [] ['|', ' '] ++
        styled (levelStyles r.level) ([' '] ++ r.message ++ [' ']), Terminal.plain) := by
  have e : consoleText r = levelColor (levelName r.level) ++ (([' '] ++ pad8 (levelName r.level) ++ [' ']) ++
      (resetAllStyle ++ (['|', ' '] ++ (levelColor (levelName r.level) ++ (([' '] ++ r.message ++ [' ']) ++ resetAllStyle))))) := by
    unfold consoleText
    simp only [List.append_assoc]
  have hm : '\x1b' ∉ [' '] ++ r.message ++ [' '] := by simp [h]
  have hb : Terminal.plain.show ['|', ' '] = (styled [] ['|', ' '], Terminal.plain) := show_text (by decide) []
  rw [e, show_append, color_show, show_append, show_text (pad8_clean r.level), show_append, reset_show, show_append, hb,
    show_append, color_show, show_append, show_text hm, reset_show]
  simp

theorem show_space (t : Terminal) : (t.show [' ']).2.pending = .none := by
  obtain ⟨st, pe⟩ := t
  cases pe <;> simp [Terminal.show, Terminal.read, show (' '.isDigit) = false from rfl]

/-- **C104** (colours end with the record): whatever characters the message has in it, escape
sequences whole or cut short among them, the terminal of the specification has no colours afterwards. -/
theorem C104_reset (r : LogRecord) : (Terminal.plain.show (consoleText r)).2 = Terminal.plain := by
  have h : (Terminal.show ⟨levelStyles r.level, .none⟩ ([' '] ++ r.message ++ [' '])).2.pending = .none := by
    rw [show_append]
    exact show_space _
  have e : consoleText r = levelColor (levelName r.level) ++ (([' '] ++ pad8 (levelName r.level) ++ [' ']) ++
      (resetAllStyle ++ (['|', ' '] ++ (levelColor (levelName r.level) ++ (([' '] ++ r.message ++ [' ']) ++ resetAllStyle))))) := by
    unfold consoleText
    simp only [List.append_assoc]
  have hb : Terminal.plain.show ['|', ' '] = (styled [] ['|', ' '], Terminal.plain) := show_text (by decide) []
  rw [e, show_append, color_show, show_append, show_text (pad8_clean r.level), show_append, reset_show, show_append, hb,
    show_append, color_show, show_append]
  generalize hz : (Terminal.show ⟨levelStyles r.level, .none⟩ ([' '] ++ r.message ++ [' '])).2 = z at h
  obtain ⟨st, pe⟩ := z
  simp only at h
  subst h
  simp only [hz, reset_show]

/-! ### The files -/

theorem cut_unique {c : Char} : ∀ {a a' b b' : List Char}, c ∉ a → c ∉ a' → a ++ c :: b = a' ++ c :: b' → a = a' ∧ b = b'
  | [], [], _, _, _, _, h => by simpa using h
  | [], x :: _, _, _, _, h', h => by
    simp only [List.nil_append, List.cons_append, List.cons.injEq] at h
    exact absurd (by simp [h.1]) h'
  | x :: _, [], _, _, h', _, h => by
    simp only [List.nil_append, List.cons_append, List.cons.injEq] at h
    exact absurd (by simp [h.1]) h'
  | x :: a, x' :: a', b, b', h1, h2, h => by
    simp only [List.cons_append, List.cons.injEq] at h
    obtain ⟨rfl, h⟩ := h
    obtain ⟨rfl, rfl⟩ := cut_unique (fun m => h1 (by simp [m])) (fun m => h2 (by simp [m])) h
    exact ⟨rfl, rfl⟩

theorem bar_unique {a a' b b' : List Char} (h1 : '|' ∉ a) (h2 : '|' ∉ a') (h : a ++ (bar ++ b) = a' ++ (bar ++ b')) :
    a = a' ∧ b = b' := by
  have h3 : (a ++ [' ']) ++ '|' :: (' ' :: b) = (a' ++ [' ']) ++ '|' :: (' ' :: b') := by simpa [bar] using h
  obtain ⟨q1, q2⟩ := cut_unique (by simp [h1]) (by simp [h2]) h3
  exact ⟨List.append_cancel_right q1, by simpa using q2⟩

theorem std_name {x : List Char} (h : x ∈ [['C', 'R', 'I', 'T', 'I', 'C', 'A', 'L'], ['E', 'R', 'R', 'O', 'R'],
    ['W', 'A', 'R', 'N', 'I', 'N', 'G'], ['I', 'N', 'F', 'O'], ['D', 'E', 'B', 'U', 'G'], ['N', 'O', 'T', 'S', 'E', 'T']]) :
    ' ' ∉ x ∧ (pad8 x).head? ≠ some 'L' := by
  simp only [List.mem_cons, List.not_mem_nil, or_false] at h
  rcases h with rfl | rfl | rfl | rfl | rfl | rfl <;> decide

theorem pad8_inj {n m : Nat} (h : pad8 (levelName n) = pad8 (levelName m)) : n = m := by
  have key : ∀ x y : List Char, ' ' ∉ x → ' ' ∉ y → pad8 x = pad8 y → x = y := by
    intro x y hx hy e
    have e' : x ++ ' ' :: List.replicate (8 - x.length) ' ' = y ++ ' ' :: List.replicate (8 - y.length) ' ' := by
      rw [← List.replicate_succ, ← List.replicate_succ, List.replicate_succ', List.replicate_succ', ← List.append_assoc,
        ← List.append_assoc]
      exact congrArg (· ++ [' ']) e
    exact (cut_unique hx hy e').1
  have lev : ∀ k, pad8 (['L', 'e', 'v', 'e', 'l', ' '] ++ Nat.toDigits 10 k) =
      ['L', 'e', 'v', 'e', 'l', ' '] ++ (Nat.toDigits 10 k ++ List.replicate (2 - (Nat.toDigits 10 k).length) ' ') := by
    intro k
    unfold pad8
    rw [List.append_assoc]
    congr 3
    simp only [List.length_append, List.length_cons, List.length_nil]
    omega
  refine C104_levels ?_
  rcases levelName_eq n with h1 | h1 <;> rcases levelName_eq m with h2 | h2
  · exact key _ _ (std_name h1).1 (std_name h2).1 h
  · exact absurd (by rw [h, h2, lev]; rfl) (std_name h1).2
  · exact absurd (by rw [← h, h1, lev]; rfl) (std_name h2).2
  · rw [h1, h2, lev, lev] at h
    have h := List.append_cancel_left h
    have e' : Nat.toDigits 10 n ++ ' ' :: List.replicate (2 - (Nat.toDigits 10 n).length) ' ' =
        Nat.toDigits 10 m ++ ' ' :: List.replicate (2 - (Nat.toDigits 10 m).length) ' ' := by
      rw [← List.replicate_succ, ← List.replicate_succ, List.replicate_succ', List.replicate_succ', ← List.append_assoc,
        ← List.append_assoc]
      exact congrArg (· ++ [' ']) h
    rw [h1, h2, (cut_unique (not_digit (by decide) _) (not_digit (by decide) _) e').1]

/-- **C104** (console): level and message can be read off a record. -/
theorem C104_console_unique (r r' : LogRecord) (h : consoleText r = consoleText r') :
    r.level = r'.level ∧ r.message = r'.message := by
  have hl : r.level = r'.level := by
    unfold consoleText at h
    by_cases h1 : r.level = 10 ∨ r.level = 20 ∨ r.level = 30 ∨ r.level = 40 ∨ r.level = 50 <;>
      by_cases h2 : r'.level = 10 ∨ r'.level = 20 ∨ r'.level = 30 ∨ r'.level = 40 ∨ r'.level = 50
    · rcases h1 with h1 | h1 | h1 | h1 | h1 <;> rcases h2 with h2 | h2 | h2 | h2 | h2 <;> rw [h1, h2] at h ⊢ <;>
        first
          | rfl
          | (exfalso
             simp [levelName, levelColor, foreCyan, foreGreen, foreYellow, foreRed, backWhite, styleBright, styleDim, ansi] at h)
    · exfalso
      rw [color_none (n := r'.level) (by omega)] at h
      rcases h1 with h1 | h1 | h1 | h1 | h1 <;> rw [h1] at h <;>
        simp [levelName, levelColor, foreCyan, foreGreen, foreYellow, foreRed, ansi] at h
    · exfalso
      rw [color_none (n := r.level) (by omega)] at h
      rcases h2 with h2 | h2 | h2 | h2 | h2 <;> rw [h2] at h <;>
        simp [levelName, levelColor, foreCyan, foreGreen, foreYellow, foreRed, ansi] at h
    · rw [color_none (by omega), color_none (by omega)] at h
      simp only [List.append_assoc, List.nil_append] at h
      have h := List.append_cancel_left h
      have q := cut_unique (a := pad8 (levelName r.level) ++ [' ']) (a' := pad8 (levelName r'.level) ++ [' ']) (c := '\x1b')
        (fun m => pad8_clean r.level (by simpa using m)) (fun m => pad8_clean r'.level (by simpa using m)) (by simpa [resetAllStyle, ansi] using h)
      exact pad8_inj (List.append_cancel_right q.1)
  refine ⟨hl, ?_⟩
  unfold consoleText at h
  rw [hl] at h
  simp only [List.append_assoc] at h
  have h := List.append_cancel_left h
  have h := List.append_cancel_left h
  have h := List.append_cancel_left h
  have h := List.append_cancel_left h
  have h := List.append_cancel_left h
  have h := List.append_cancel_left h
  have h := List.append_cancel_left h
  have h := List.append_cancel_left h
  exact List.append_cancel_right h

/-- **C104** (`usr.log`): time, level and message can be read off a record. -/
theorem C104_user (r r' : LogRecord) (h1 : r.time.length = 19) (h2 : r'.time.length = 19) (h : userText r = userText r') :
    r.time = r'.time ∧ r.level = r'.level ∧ r.message = r'.message := by
  unfold userText at h
  simp only [List.append_assoc] at h
  obtain ⟨t, h⟩ := List.append_inj h (by rw [h1, h2])
  have h := List.append_cancel_left h
  obtain ⟨q1, q2⟩ := bar_unique (levelName_clean _ (.inr (.inl rfl))) (levelName_clean _ (.inr (.inl rfl))) h
  exact ⟨t, C104_levels q1, q2⟩

/-- **C104** (`dev.log`): everything can be read off a record. -/
theorem C104_dev (r r' : LogRecord) (hr : Loggable r) (hr' : Loggable r') (h : devText r = devText r') : r = r' := by
  unfold devText at h
  simp only [List.append_assoc] at h
  obtain ⟨t, h⟩ := List.append_inj h (by rw [hr.stamp, hr'.stamp])
  have h := List.append_cancel_left h
  obtain ⟨q1, h⟩ := bar_unique hr.name.2 hr'.name.2 h
  obtain ⟨q2, h⟩ := cut_unique (levelName_clean _ (.inr (.inl rfl))) (levelName_clean _ (.inr (.inl rfl))) h
  obtain ⟨-, h⟩ := List.cons.inj h
  change r.func ++ _ = r'.func ++ _ at h
  obtain ⟨q3, h⟩ := bar_unique hr.func.2 hr'.func.2 h
  obtain ⟨q4, h⟩ := bar_unique (not_digit (by decide) _) (not_digit (by decide) _) h
  obtain ⟨a1, a2, a3, a4, a5, a6⟩ := r
  obtain ⟨b1, b2, b3, b4, b5, b6⟩ := r'
  have := C104_levels q2
  have := toDigits_inj q4
  simp_all

theorem file_unique {text : LogRecord → List Char} {ok : LogRecord → Prop} (hn : ∀ r, ok r → '\n' ∉ text r) :
    ∀ l l' : List LogRecord, (∀ r ∈ l, ok r) → (∀ r ∈ l', ok r) → logFile text l = logFile text l' →
      l.map text = l'.map text
  | [], [], _, _, _ => rfl
  | [], r :: l, _, _, h => by simp [logFile] at h
  | r :: l, [], _, _, h => by simp [logFile] at h
  | r :: l, r' :: l', h1, h2, h => by
    have h' : text r ++ '\n' :: logFile text l = text r' ++ '\n' :: logFile text l' := by
      simpa [logFile] using h
    obtain ⟨q1, q2⟩ := cut_unique (hn r (h1 r (by simp))) (hn r' (h2 r' (by simp))) h'
    rw [List.map_cons, List.map_cons, q1, file_unique hn l l' (fun r m => h1 r (by simp [m])) (fun r m => h2 r (by simp [m])) q2]

/-- **C104** (files): if no message has several lines, the records can be read back from the developer's
file, in order and each once, and from the user's file up to what is not written there. -/
theorem C104_files (l l' : List LogRecord) (h : ∀ r ∈ l, Loggable r) (h' : ∀ r ∈ l', Loggable r) :
    (logFile devText l = logFile devText l' → l = l') ∧
    (logFile userText l = logFile userText l' →
      l.map (fun r => (r.time, r.level, r.message)) = l'.map fun r => (r.time, r.level, r.message)) := by
  have hl : ∀ n, '\n' ∉ levelName n := fun n => levelName_clean n (.inr (.inr rfl))
  have hd : ∀ n, '\n' ∉ Nat.toDigits 10 n := fun n => not_digit (by decide) n
  have key : ∀ {β : Type} (text : LogRecord → List Char) (f : LogRecord → β) (_ : ∀ r, Loggable r → '\n' ∉ text r)
      (_ : ∀ r r', Loggable r → Loggable r' → text r = text r' → f r = f r'),
      logFile text l = logFile text l' → l.map f = l'.map f := by
    intro β text f hn hf hh
    have e := file_unique hn l l' h h' hh
    have len : l.length = l'.length := by simpa using congrArg List.length e
    refine List.ext_getElem (by simpa using len) fun i h1 h2 => ?_
    simp only [List.length_map] at h1 h2
    simp only [List.getElem_map]
    refine hf _ _ (h _ (List.getElem_mem h1)) (h' _ (List.getElem_mem h2)) ?_
    have := congrArg (fun z => z[i]?) e
    simpa [h1, h2] using this
  constructor
  · intro hh
    have := key devText id (fun r hr => ?_) (fun r r' hr hr' => C104_dev r r' hr hr') hh
    · simpa using this
    · unfold devText bar
      simp [hr.time, hr.name.1, hr.func.1, hr.message, hl, hd]
  · refine key userText _ (fun r hr => ?_) fun r r' hr hr' hh => ?_
    · unfold userText bar
      simp [hr.time, hr.message, hl]
    · obtain ⟨q1, q2, q3⟩ := C104_user r r' hr.stamp hr'.stamp hh
      rw [q1, q2, q3]

/-- **C104** (violated for messages of several lines): such a record cannot be told from two records. -/
theorem C104_violated_lines (r r' : LogRecord) :
    logFile userText [{ r with message := r.message ++ ['\n'] ++ userText r' }] = logFile userText [r, r'] := by
  simp [logFile, userText]

example : Terminal.plain.show (consoleText ⟨[], [], 30, [], 0, ['h', 'i']⟩) =
    (styled [33, 2] [' ', 'W', 'A', 'R', 'N', 'I', 'N', 'G', ' ', ' '] ++ styled [] ['|', ' '] ++
      styled [33, 2] [' ', 'h', 'i', ' '], Terminal.plain) :=
  C104_console _ (by decide)

example : userText ⟨List.replicate 19 '0', [], 45, [], 7, ['h', 'i']⟩ =
    List.replicate 19 '0' ++ [' ', '|', ' ', 'L', 'e', 'v', 'e', 'l', ' ', '4', '5', ' ', '|', ' ', 'h', 'i'] := by
  decide

end Popsynth
