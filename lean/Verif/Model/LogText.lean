import Verif.Model.Logging

/-!
# The text of log records (`popsynth/utils/logging.py`)

Texts are lists of characters.  `logging.Formatter` fills in the format strings; records carry no
exception.  The colours are those of `colorama`.
-/

set_option autoImplicit false

namespace Popsynth

/-- What a record of Python's `logging` says; `time` is `asctime` in the format of lines 62 and 78. -/
structure LogRecord where
  time : List Char
  name : List Char
  level : Nat
  func : List Char
  line : Nat
  message : List Char
  deriving DecidableEq

/-- `logging.getLevelName(level)`. -/
def levelName (n : Nat) : List Char :=
  if n = 50 then ['C', 'R', 'I', 'T', 'I', 'C', 'A', 'L']
  else if n = 40 then ['E', 'R', 'R', 'O', 'R']
  else if n = 30 then ['W', 'A', 'R', 'N', 'I', 'N', 'G']
  else if n = 20 then ['I', 'N', 'F', 'O']
  else if n = 10 then ['D', 'E', 'B', 'U', 'G']
  else if n = 0 then ['N', 'O', 'T', 'S', 'E', 'T']
  else ['L', 'e', 'v', 'e', 'l', ' '] ++ Nat.toDigits 10 n

/-- An escape sequence of `colorama`. -/
def ansi (code : List Char) : List Char := ['\x1b', '['] ++ code ++ ['m']

/-- `Fore.CYAN`, `Fore.GREEN`, `Fore.YELLOW`, `Fore.RED`, `Back.WHITE`, `Style.BRIGHT`, `Style.DIM`. -/
def foreCyan : List Char := ansi ['3', '6']
def foreGreen : List Char := ansi ['3', '2']
def foreYellow : List Char := ansi ['3', '3']
def foreRed : List Char := ansi ['3', '1']
def backWhite : List Char := ansi ['4', '7']
def styleBright : List Char := ansi ['1']
def styleDim : List Char := ansi ['2']

/-- `Style.RESET_ALL`, logging.py:39. -/
def resetAllStyle : List Char := ansi ['0']

/-- `self.colors.get(record.levelname, "")`, logging.py:38 with the colours of 89-95. -/
def levelColor (name : List Char) : List Char :=
  if name = ['D', 'E', 'B', 'U', 'G'] then foreCyan
  else if name = ['I', 'N', 'F', 'O'] then foreGreen ++ styleBright
  else if name = ['W', 'A', 'R', 'N', 'I', 'N', 'G'] then foreYellow ++ styleDim
  else if name = ['E', 'R', 'R', 'O', 'R'] then foreRed ++ styleBright
  else if name = ['C', 'R', 'I', 'T', 'I', 'C', 'A', 'L'] then foreRed ++ backWhite ++ styleBright
  else []

/-- `{levelname:8}`. -/
def pad8 (l : List Char) : List Char := l ++ List.replicate (8 - l.length) ' '

/-- `ColoredFormatter.format` with the format of line 86, logging.py:35-41 and 85-96. -/
def consoleText (r : LogRecord) : List Char :=
  levelColor (levelName r.level) ++ [' '] ++ pad8 (levelName r.level) ++ [' '] ++ resetAllStyle ++ ['|', ' '] ++
    levelColor (levelName r.level) ++ [' '] ++ r.message ++ [' '] ++ resetAllStyle

/-- `" | "`. -/
def bar : List Char := [' ', '|', ' ']

/-- The format of `usr.log`, logging.py:77-79. -/
def userText (r : LogRecord) : List Char :=
  r.time ++ bar ++ levelName r.level ++ bar ++ r.message

/-- The format of `dev.log`, logging.py:60-63 (there is no space before the second bar but one). -/
def devText (r : LogRecord) : List Char :=
  r.time ++ bar ++ r.name ++ bar ++ levelName r.level ++ ['|', ' '] ++ r.func ++ bar ++
    Nat.toDigits 10 r.line ++ bar ++ r.message

/-- What a handler has written after these records (`StreamHandler.terminator` is a newline). -/
def logFile (text : LogRecord → List Char) (l : List LogRecord) : List Char :=
  l.flatMap fun r => text r ++ ['\n']

end Popsynth
