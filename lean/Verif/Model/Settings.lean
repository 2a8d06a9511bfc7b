import Verif.Model.Logging

/-!
# `popsynth/utils/configuration.py` and the readers of the configuration

The configuration is a tree with values at its leaves.  OmegaConf is not in /repo; its `merge` of a
structured configuration with a loaded file is taken as documented: the file's entries replace the
defaults, entries the structure does not have are refused, and a value is converted to the type of
the field or refused.  Which values can be converted is a parameter.  `None`, interpolations and
lists in the file are left out.  The file system is the configuration file, which is absent or
holds a tree.
-/

set_option autoImplicit false

namespace Popsynth

/-- A tree: a value, or named entries. -/
inductive CTree (V : Type) where
  | leaf (v : V)
  | nil
  | cons (k : String) (sub rest : CTree V)
  deriving DecidableEq

variable {V : Type}

/-- The entry called `k`. -/
def CTree.entry (k : String) : CTree V → Option (CTree V)
  | .leaf _ => none
  | .nil => none
  | .cons k' t rest => if k' = k then some t else rest.entry k

/-- Replace the entry called `k`. -/
def CTree.put : CTree V → String → CTree V → CTree V
  | .leaf v, _, _ => .leaf v
  | .nil, _, _ => .nil
  | .cons k' t rest, k, m => if k' = k then .cons k' m rest else .cons k' t (rest.put k m)

/-- `OmegaConf.merge(config, local)`, configuration.py:66-68.  `conv w v` is the value `v` of the
file converted to the type of the field, whose default is `w` (`ValidationError` is recorded as
`Err.value`, `ConfigKeyError` as `Err.key`). -/
def mergeConfig (conv : V → V → Except Err V) : CTree V → CTree V → Except Err (CTree V)
  | .leaf w, .leaf v => (conv w v).map .leaf
  | .leaf _, _ => .error .value
  | _, .leaf _ => .error .value
  | c, .nil => .ok c
  | c, .cons k t rest =>
    match c.entry k with
    | none => .error .key
    | some ct => do
      let m ← mergeConfig conv ct t
      mergeConfig conv (c.put k m) rest

/-- Importing the module, configuration.py:55-78: merge with the file if there is one, otherwise
write the defaults. -/
def importConfig (conv : V → V → Except Err V) (defaults : CTree V) :
    Py (Option (CTree V)) (CTree V) := fun file =>
  match file with
  | some l => match mergeConfig conv defaults l with
    | .ok c => .ok c file
    | .error e => .error e file
  | none => .ok defaults (some defaults)

/-! ### The values -/

/-- A value of the configuration. -/
inductive CVal (F : Type) where
  | bool (b : Bool)
  | str (s : String)
  | num (x : F)
  deriving DecidableEq

/-- Entries from a list. -/
def CTree.ofList : List (String × CTree V) → CTree V
  | [] => .nil
  | (k, t) :: rest => .cons k t (CTree.ofList rest)

/-- The defaults, configuration.py:17-52; `om` and `h` are the literals 0.307 and 67.7. -/
def defaultConfig {F : Type} (om h : F) : CTree (CVal F) :=
  let handler : CTree (CVal F) := .ofList [("on", .leaf (.bool true)), ("level", .leaf (.str "WARNING"))]
  .ofList
    [("logging", .ofList [("debug", .leaf (.bool false)), ("console", handler), ("file", handler)]),
     ("cosmology", .ofList [("Om", .leaf (.num om)), ("h0", .leaf (.num h))]),
     ("show_progress", .leaf (.bool true))]

/-- `config[a][b]…`: `KeyError` for a missing entry. -/
def CTree.read : CTree V → List String → Except Err (CTree V)
  | t, [] => .ok t
  | t, k :: p => match t.entry k with
    | none => .error .key
    | some t' => t'.read p

/-- A leaf. -/
def CTree.value (t : CTree V) (p : List String) : Except Err V :=
  match t.read p with
  | .ok (.leaf v) => .ok v
  | .ok _ => .error .type
  | .error e => .error e

/-- How Python reads a value as a condition; OmegaConf stores Booleans in Boolean fields. -/
def CVal.asBool {F : Type} : CVal F → Except Err Bool
  | .bool b => .ok b
  | _ => .error .type

def CVal.asStr {F : Type} : CVal F → Except Err String
  | .str s => .ok s
  | _ => .error .type

def CVal.asNum {F : Type} : CVal F → Except Err F
  | .num x => .ok x
  | _ => .error .type

/-- `logging._checkLevel` of Python's standard library: `ValueError` for an unknown name. -/
def levelOf (s : String) : Except Err Nat :=
  match s with
  | "DEBUG" => .ok lvlDebug
  | "INFO" => .ok lvlInfo
  | "WARNING" => .ok lvlWarning
  | "WARN" => .ok lvlWarning
  | "ERROR" => .ok lvlError
  | "CRITICAL" => .ok lvlCritical
  | "FATAL" => .ok lvlCritical
  | "NOTSET" => .ok 0
  | _ => .error .value

deriving instance DecidableEq for LogSetup

/-- What importing the package takes from the configuration: the levels of the two handlers,
logging.py:74 and 100-102, the switches of `setup_logger`, logging.py:299-308, the cosmology,
cosmology.py:29-30, and whether progress is shown. -/
structure Settings (F : Type) where
  log : LogSt
  setup : LogSetup
  Om : F
  h0 : F
  deriving DecidableEq

/-- Importing logging.py and cosmology.py with the configuration `c`. -/
def readSettings {F : Type} (c : CTree (CVal F)) : Except Err (Settings F) := do
  let u ← levelOf (← (← c.value ["logging", "file", "level"]).asStr)
  let k ← levelOf (← (← c.value ["logging", "console", "level"]).asStr)
  let debug ← (← c.value ["logging", "debug"]).asBool
  let console ← (← c.value ["logging", "console", "on"]).asBool
  let file ← (← c.value ["logging", "file", "on"]).asBool
  let Om ← (← c.value ["cosmology", "Om"]).asNum
  let h0 ← (← c.value ["cosmology", "h0"]).asNum
  let progress ← (← c.value ["show_progress"]).asBool
  pure { log := { LogSt.init u k with progress }, setup := { debug, console, file }, Om, h0 }

end Popsynth
