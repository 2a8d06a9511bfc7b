import Verif.Model.Config

/-!
# Configuration files of synthesizers

`PopulationSynth.write_to` (popsynth/population_synth.py:186-200) and `from_file`
(popsynth/population_synth.py:753-764).  A YAML file is modelled by its document; an empty file
has the document `None`.  PyYAML's loader is trusted to return the document that was dumped.
-/

set_option autoImplicit false

namespace Popsynth

variable {F : Type}

/-! ### `yaml.dump` with `SafeDumper` -/

mutual
/-- Has `SafeDumper` a representation of the value?  It has none for numpy arrays and numpy
numbers; `py v` tells whether the number `v` is one of Python's. -/
def represents (py : F → Bool) : PVal F → Bool
  | .num v => py v
  | .arr _ => false
  | .other => false
  | .list l => representsList py l
  | .dict d => representsItems py d
  | _ => true

def representsList (py : F → Bool) : List (PVal F) → Bool
  | [] => true
  | v :: l => represents py v && representsList py l

def representsItems (py : F → Bool) : List (String × PVal F) → Bool
  | [] => true
  | (_, v) :: d => represents py v && representsItems py d
end

/-- Insert an entry into a sorted dictionary. -/
def insertItem {α : Type} (p : String × α) : Dict α → Dict α
  | [] => [p]
  | q :: d => if p.1 < q.1 then p :: q :: d else q :: insertItem p d

/-- `sorted(mapping.items())`. -/
def sortItems {α : Type} : Dict α → Dict α
  | [] => []
  | p :: d => insertItem p (sortItems d)

mutual
/-- The document that is written: `yaml.dump` sorts the keys of every dictionary. -/
def sortVal : PVal F → PVal F
  | .list l => .list (sortList l)
  | .dict d => .dict (sortItems (sortValues d))
  | v => v

def sortList : List (PVal F) → List (PVal F)
  | [] => []
  | v :: l => sortVal v :: sortList l

def sortValues : List (String × PVal F) → List (String × PVal F)
  | [] => []
  | (k, v) :: d => (k, sortVal v) :: sortValues d
end

/-- `yaml.dump(data, Dumper=yaml.SafeDumper)`: the whole document is represented before anything
is written; `RepresenterError` is an exception of PyYAML. -/
def yamlDump (py : F → Bool) (v : PVal F) : Except Err (PVal F) :=
  if represents py v then .ok (sortVal v) else .error .user

/-! ### Files -/

/-- The documents of the files that exist. -/
abbrev Files (F : Type) := String → Option (PVal F)

/-- The files after writing one. -/
def Files.write (fs : Files F) (name : String) (v : PVal F) : Files F :=
  fun n => if n = name then some v else fs n

/-- `open(file_name, "w")`: `OSError` if the file cannot be opened, otherwise the file is empty
now. -/
def openWrite (can : String → Bool) (name : String) : Py (Files F) Unit := do
  if can name then modify fun fs => fs.write name .none else throw .os

/-- `write_to`, 186-200. -/
def writeTo (R : Registry F) (fuel : Nat) (can : String → Bool) (py : F → Bool) (y : CSynth F)
    (name : String) : Py (Files F) Unit := do
  openWrite can name
  let d ← liftE (toDict R fuel y)
  let v ← liftE (yamlDump py (.dict d))
  modify fun fs => fs.write name v

variable [LE F] [DecidableLE F]

/-- `from_file`, 753-764: `from_dict` of anything but a dictionary is a `TypeError`, from the
test in 348 or the subscript in 388. -/
def fromFile (R : Registry F) (C : Conv F) (name : String) : Py (Files F) (CSynth F) := do
  match (← get) name with
  | none => throw .os
  | some (.dict d) =>
    match fromDict R C d with
    | .ok y _ => pure y
    | .error e _ => throw e
  | some _ => throw .type

end Popsynth
