import Verif.Model.Py

/-!
# `popsynth/utils/logging.py`

The state is what the functions of the module read and write: the levels of the three
handlers, the levels stored by `LoggingState`, the filters of the user and console
handlers and `popsynth_config.show_progress`.  `Handler.addFilter` and `removeFilter` are
those of Python's `logging.Filterer` (append if absent, remove if present).  Level names
are numbers (`logging.DEBUG = 10`, …); an unknown level name raises `ValueError` in
`setLevel` and changes nothing.
-/

set_option autoImplicit false

namespace Popsynth

/-- `logging.DEBUG`, `INFO`, `ERROR`, `CRITICAL`. -/
def lvlDebug : Nat := 10
def lvlInfo : Nat := 20
def lvlError : Nat := 40
def lvlCritical : Nat := 50

/-- The filter `warning_filter`, logging.py:104 (other filters have other numbers). -/
def warningFilter : Nat := 0

structure LogSt where
  dev : Nat
  usr : Nat
  con : Nat
  /-- `_log_state.popsynth_usr_log_handler_state` -/
  usrStored : Nat
  /-- `_log_state.popsynth_console_log_handler_state` -/
  conStored : Nat
  usrFilters : List Nat := []
  conFilters : List Nat := []
  progress : Bool := true
  deriving DecidableEq

/-- State when the module has been imported, logging.py:66, 74, 100-102, 172-175: `u` and `c`
are the configured levels. -/
def LogSt.init (u c : Nat) : LogSt :=
  { dev := lvlDebug, usr := u, con := c, usrStored := u, conStored := c }

/-- `Filterer.addFilter` -/
def addFilter (f : Nat) (l : List Nat) : List Nat := if f ∈ l then l else l ++ [f]

/-- `Filterer.removeFilter` -/
def removeFilter (f : Nat) (l : List Nat) : List Nat := if f ∈ l then l.erase f else l

/-- `LoggingState._store_state`, 128-133. -/
def storeState (s : LogSt) : LogSt := { s with usrStored := s.usr, conStored := s.con }

/-- `LoggingState.restore_last_state`, 135-142. -/
def restoreLast (s : LogSt) : LogSt := { s with usr := s.usrStored, con := s.conStored }

/-- `LoggingState.silence_logs`, 144-151. -/
def stateSilence (s : LogSt) : LogSt :=
  { storeState s with usr := lvlCritical, con := lvlCritical }

/-- `LoggingState.loud_logs`, 153-161. -/
def stateLoud (s : LogSt) : LogSt := { storeState s with usr := lvlInfo, con := lvlInfo }

/-- `LoggingState.debug_logs`, 163-169. -/
def stateDebug (s : LogSt) : LogSt := { storeState s with con := lvlDebug }

/-- The module's functions without a context manager, 178-262. -/
inductive LogOp where
  | silenceWarnings
  | activateWarnings
  /-- `update_logging_level(level)`; `none` is an unknown level name. -/
  | updateLevel (l : Option Nat)
  | silenceLogs
  | showProgress
  | silenceProgress
  | quietMode
  | loudMode
  | activateLogs
  | debugMode

/-- `silence_logs()`, 204-210. -/
def silenceLogs (s : LogSt) : LogSt := stateSilence { s with dev := lvlCritical }

/-- One call, 178-262. -/
def logOp : LogOp → Py LogSt Unit
  | .silenceWarnings => modify fun s =>
    { s with usrFilters := addFilter warningFilter s.usrFilters
             conFilters := addFilter warningFilter s.conFilters }
  | .activateWarnings => modify fun s =>
    { s with usrFilters := removeFilter warningFilter s.usrFilters
             conFilters := removeFilter warningFilter s.conFilters }
  | .updateLevel (some l) => modify fun s => { s with con := l }
  | .updateLevel none => raise .value
  | .silenceLogs => modify silenceLogs
  | .showProgress => modify fun s => { s with progress := true }
  | .silenceProgress => modify fun s => { s with progress := false }
  | .quietMode => modify fun s => silenceLogs { s with progress := false }
  | .loudMode => modify fun s => stateLoud { s with progress := true }
  | .activateLogs => modify fun s => restoreLast { s with dev := lvlDebug }
  | .debugMode => modify stateDebug

/-- `with silence_console_log(): body`, 265-280; `body` is arbitrary. -/
def silenceConsole {α : Type} (body : Py LogSt α) : Py LogSt α := fun s =>
  match body { s with con := lvlError, usr := lvlError } with
  | .ok a s' => .ok a { s' with con := s.con, usr := s.usr }
  | .error e s' => .error e { s' with con := s.con, usr := s.usr }

/-! ### What is written -/

/-- `logging.WARNING`. -/
def lvlWarning : Nat := 30

/-- The switches of the configuration that `setup_logger` reads, 301-308:
`logging.debug`, `logging.console.on`, `logging.file.on`. -/
structure LogSetup where
  debug : Bool
  console : Bool
  file : Bool

/-- The three handlers, 53-102. -/
inductive Sink where
  | dev
  | usr
  | con
  deriving DecidableEq

/-- `Logger.addHandler` (Python's `logging`: append if absent). -/
def addHandler (k : Sink) (l : List Sink) : List Sink := if k ∈ l then l else l ++ [k]

/-- `setup_logger`, 282-313, on a logger that has the handlers `l` so far (the same name gives
the same logger). -/
def setupLogger (c : LogSetup) (l : List Sink) : List Sink :=
  let l := if c.debug then addHandler .dev l else l
  let l := if c.console then addHandler .con l else l
  if c.file then addHandler .usr l else l

/-- Does a filter let a record of level `lvl` pass?  `MyFilter.filter`, 44-49 and 104; `other`
are the filters of the user. -/
def filterPasses (other : Nat → Nat → Bool) (lvl f : Nat) : Bool :=
  if f = warningFilter then lvl != lvlWarning else other f lvl

/-- Does a handler write a record (`Logger.callHandlers`, `Filterer.filter` of Python's
`logging`)? -/
def handles (other : Nat → Nat → Bool) (s : LogSt) (lvl : Nat) : Sink → Bool
  | .dev => decide (s.dev ≤ lvl)
  | .usr => decide (s.usr ≤ lvl) && s.usrFilters.all (filterPasses other lvl)
  | .con => decide (s.con ≤ lvl) && s.conFilters.all (filterPasses other lvl)

/-- Where a record of level `lvl` of a logger with the handlers `l` is written; the logger's
own level is `DEBUG` (297). -/
def emit (other : Nat → Nat → Bool) (l : List Sink) (s : LogSt) (lvl : Nat) : List Sink :=
  if lvlDebug ≤ lvl then l.filter (handles other s lvl) else []

/-- A history of calls; exceptions are caught by the caller. -/
def logRun (ops : List LogOp) (s : LogSt) : LogSt :=
  ops.foldl (fun s o => endState (logOp o s)) s

end Popsynth
