import Verif.Model.Settings

/-!
# Files and directories at import

`popsynth/utils/package_data.py` and the parts of `popsynth/utils/configuration.py` and
`popsynth/utils/logging.py` that touch the file system when the package is imported.

A program is a tree of atomic requests to the file system, so that several processes can be
interleaved.  A path is the list of its components, innermost first; `[]` is the root.  The calls of
Python's standard library follow its documentation and, for `Path.mkdir`, its source.  Links,
deletion by other programs, encodings and a full disk are left out; reading files and appending to
existing ones is always allowed, `deny d` says that nothing can be made in the directory `d`.  Text
written by one call appears at once.
-/

set_option autoImplicit false

namespace Popsynth
namespace Files

/-- A path, innermost component first. -/
abbrev FPath := List String

/-- `OSError`s. -/
inductive OsErr where
  | fileNotFound
  | fileExists
  | notADirectory
  | isADirectory
  | permission
  deriving DecidableEq

/-- An entry of the file system: a directory, or a file with its text. -/
inductive Node (D : Type) where
  | dir
  | file (d : D)
  deriving DecidableEq

/-- The file system. -/
abbrev Disk (D : Type) := FPath → Option (Node D)

/-- Requests to the operating system. -/
inductive Req (D : Type) where
  | stat (p : FPath)
  | mkdir (p : FPath)
  | read (p : FPath)
  | openW (p : FPath)
  | openA (p : FPath)
  | write (p : FPath) (d : D)

/-- Answers. -/
inductive Answer (D : Type) where
  | done
  | node (n : Option (Node D))
  | data (d : D)
  | err (e : OsErr)

/-- What is raised at import: by the operating system, or by OmegaConf. -/
inductive ImportErr where
  | os (e : OsErr)
  | config (e : Err)
  deriving DecidableEq

/-- A program. -/
inductive Prog (D α : Type) where
  | ret (a : α)
  | fail (e : ImportErr)
  | ask (q : Req D) (k : Answer D → Prog D α)

variable {D α β : Type}

/-- One statement after another. -/
def Prog.bind : Prog D α → (α → Prog D β) → Prog D β
  | .ret a, f => f a
  | .fail e, _ => .fail e
  | .ask q k, f => .ask q fun r => (k r).bind f

/-- Put an entry. -/
def put (s : Disk D) (p : FPath) (n : Node D) : Disk D := fun q => if q = p then some n else s q

/-- Why nothing can be found at a path that does not exist: a component is missing, or is a file. -/
def missing (s : Disk D) : FPath → OsErr
  | [] => .fileNotFound
  | _ :: p => match s p with
    | none => missing s p
    | some (.file _) => .notADirectory
    | some .dir => .fileNotFound

/-- Making an entry that does not exist. -/
def make (deny : FPath → Bool) (s : Disk D) (p : FPath) (n : Node D) : Answer D × Disk D :=
  match missing s p with
  | .fileNotFound => match s p.tail with
    | some _ => if deny p.tail then (.err .permission, s) else (.done, put s p n)
    | none => (.err .fileNotFound, s)
  | e => (.err e, s)

/-- The operating system.  `blank` is the text of an empty file. -/
def answer (deny : FPath → Bool) (blank : D) (s : Disk D) : Req D → Answer D × Disk D
  | .stat p => (.node (s p), s)
  | .mkdir p => match s p with
    | some _ => (.err .fileExists, s)
    | none => make deny s p .dir
  | .read p => match s p with
    | some (.file d) => (.data d, s)
    | some .dir => (.err .isADirectory, s)
    | none => (.err (missing s p), s)
  | .openW p => match s p with
    | some (.file _) => (.done, put s p (.file blank))
    | some .dir => (.err .isADirectory, s)
    | none => make deny s p (.file blank)
  | .openA p => match s p with
    | some (.file _) => (.done, s)
    | some .dir => (.err .isADirectory, s)
    | none => make deny s p (.file blank)
  | .write p d => match s p with
    | some (.file _) => (.done, put s p (.file d))
    | some .dir => (.err .isADirectory, s)
    | none => make deny s p (.file d)

/-- A program that runs alone. -/
def Prog.run (deny : FPath → Bool) (blank : D) : Prog D α → Disk D → Except ImportErr α × Disk D
  | .ret a, s => (.ok a, s)
  | .fail e, s => (.error e, s)
  | .ask q k, s => (k (answer deny blank s q).1).run deny blank (answer deny blank s q).2

/-- `Path.mkdir` after an `OSError` other than `FileNotFoundError`:
`if not exist_ok or not self.is_dir(): raise`. -/
def orDir (existOk : Bool) (p : FPath) (e : OsErr) : Prog D Unit :=
  if existOk then
    .ask (.stat p) fun
      | .node (some .dir) => .ret ()
      | _ => .fail (.os e)
  else .fail (.os e)

/-- `Path.mkdir(exist_ok=…)`. -/
def mkdir1 (existOk : Bool) (p : FPath) : Prog D Unit :=
  .ask (.mkdir p) fun
    | .err .fileNotFound => .fail (.os .fileNotFound)
    | .err e => orDir existOk p e
    | _ => .ret ()

/-- `Path.mkdir(parents=True, exist_ok=…)`. -/
def mkdirs (existOk : Bool) : FPath → Prog D Unit
  | [] => mkdir1 existOk []
  | c :: p => .ask (.mkdir (c :: p)) fun
    | .err .fileNotFound => (mkdirs true p).bind fun _ => mkdir1 existOk (c :: p)
    | .err e => orDir existOk (c :: p) e
    | _ => .ret ()

/-- `~/.config/popsynth`, configuration.py:8. -/
def configDir (home : FPath) : FPath := "popsynth" :: ".config" :: home

/-- `_config_file`, configuration.py:10-12. -/
def configFile (home : FPath) : FPath := "popsynth_config.yml" :: configDir home

/-- `~/.log/popsynth`, package_data.py:16. -/
def logDir (home : FPath) : FPath := "popsynth" :: ".log" :: home

/-- `get_path_of_log_dir`, package_data.py:14-22. -/
def getLogDir (home : FPath) : Prog D FPath :=
  .ask (.stat (logDir home)) fun
    | .node (some _) => .ret (logDir home)
    | _ => (mkdirs false (logDir home)).bind fun _ => .ret (logDir home)

/-- `get_path_of_log_file`, package_data.py:25-27. -/
def getLogFile (home : FPath) (name : String) : Prog D FPath :=
  (getLogDir home).bind fun d => .ret (name :: d)

/-- Turn an answer to a request that only returns or raises into a program. -/
def orRaise (k : Prog D α) : Answer D → Prog D α
  | .err e => .fail (.os e)
  | _ => k

/-- A file handler for the log `name`, logging.py:56-58 and 73-75: the constructor opens the file
to append to it. -/
def openLog (home : FPath) (name : String) : Prog D Unit :=
  (getLogFile home name).bind fun p => .ask (.openA p) (orRaise (.ret ()))

section
variable {V : Type} (conv : V → V → Except Err V) (defaults : CTree V) (load : D → Except Err (CTree V))
  (text : D) (home : FPath)

/-- configuration.py:58-78.  `load` reads a text as YAML, `text` is what `OmegaConf.save` writes of
the defaults; `save` opens the file, which is already open, a second time. -/
def getConfig : Prog D (CTree V) :=
  .ask (.stat (configFile home)) fun
    | .node (some (.file _)) => .ask (.read (configFile home)) fun
      | .data d => match load d >>= mergeConfig conv defaults with
        | .ok c => .ret c
        | .error e => .fail (.config e)
      | .err e => .fail (.os e)
      | _ => .fail (.os .fileNotFound)
    | _ => (mkdirs true (configDir home)).bind fun _ =>
      .ask (.openW (configFile home)) (orRaise
        (.ask (.openW (configFile home)) (orRaise
          (.ask (.write (configFile home) text) (orRaise (.ret defaults))))))

/-- Importing the package: configuration.py, then the handlers of logging.py:54-75.  What is then
taken from the configuration is `readSettings`. -/
def importFiles : Prog D (CTree V) :=
  (getConfig conv defaults load text home).bind fun c =>
    (openLog home "dev.log").bind fun _ => (openLog home "usr.log").bind fun _ => .ret c

end
end Files
end Popsynth
