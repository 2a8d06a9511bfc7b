import Verif.Model.Population

/-!
# `popsynth/utils/hdf5_utils.py` and the part of h5py it uses

An HDF5 group is a dictionary from link names to datasets and groups.  h5py resolves a name
with slashes by its components; empty components and `.` are skipped.  A path is therefore
modelled by its list of components; joining strings with `/` joins the lists.  Iteration
over a group in h5py is by name; here entries stay in the order of creation and results are
compared as dictionaries (Python's dictionary equality ignores order).

`chk` stands for what h5py accepts as a dataset (e.g. it refuses strings with NUL
characters, integers beyond 64 bits and arrays of objects).
-/

set_option autoImplicit false

namespace Popsynth

variable {F G : Type}

/-- The components of a link name, split at `/`, skipping empty components and `.`. -/
def compsFrom (cur : List Char) : List Char → List String
  | [] => if cur = [] ∨ cur = ['.'] then [] else [String.ofList cur]
  | c :: cs =>
    if c = '/' then
      (if cur = [] ∨ cur = ['.'] then [] else [String.ofList cur]) ++ compsFrom [] cs
    else compsFrom (cur ++ [c]) cs

def comps (k : String) : List String := compsFrom [] k.toList

/-- Contents of a dataset. -/
inductive Leaf (F : Type) where
  | bool (b : Bool)
  | int (i : Int)
  | num (v : F)
  | str (s : String)
  | bytes (b : List UInt8)
  | arr (l : List F)
  | idx (l : List Nat)
  | mask (l : List Bool)
  deriving DecidableEq

/-- A dataset or a group. -/
inductive H5 (F : Type) where
  | data (v : Leaf F)
  | group (c : List (String × H5 F))

/-- The links of a group. -/
abbrev Tree (F : Type) := List (String × H5 F)

/-- `g[path] = x`, for a dataset or new group `x`: creates missing groups on the way; the
last link must be new. -/
def create (x : H5 F) : Tree F → List String → Except Err (Tree F)
  | _, [] => .error .value
  | g, [k] => match Dict.get? g k with
    | none => .ok (Dict.set g k x)
    | some _ => .error .value
  | g, k :: k' :: ks => match Dict.get? g k with
    | none => do
      let c ← create x [] (k' :: ks)
      .ok (Dict.set g k (.group c))
    | some (.group c) => do
      let c ← create x c (k' :: ks)
      .ok (Dict.set g k (.group c))
    | some (.data _) => .error .value

/-- `g[path] = v` for a value. -/
def put (chk : Leaf F → Except Err Unit) (g : Tree F) (path : List String) (v : Leaf F) :
    Except Err (Tree F) := do
  chk v
  create (.data v) g path

/-- The strings of a list, if it has nothing else, hdf5_utils.py:18-30. -/
def allStrings : List (PVal F) → Option (List String)
  | [] => some []
  | .str s :: l => (allStrings l).map (s :: ·)
  | _ :: _ => none

/-- `tmp`, 34-38: a dictionary with the strings as keys and empty dictionaries as values. -/
def asKeys (l : List String) : Dict (PVal F) :=
  l.foldl (fun d s => Dict.set d s (.dict [])) []

mutual
/-- One round of the loop, hdf5_utils.py:16-64, for an entry that is no list; `p` are the
components of `path + "/" + key`. -/
def saveVal (chk : Leaf F → Except Err Unit) (g : Tree F) (p : List String) :
    PVal F → Except Err (Tree F)
  | .none => .error .value
  | .other => .error .value
  | .bool b => put chk g p (.bool b)
  | .int i => put chk g p (.int i)
  | .num v => put chk g p (.num v)
  | .str s => put chk g p (.str s)
  | .bytes b => put chk g p (.bytes b)
  | .arr l => put chk g p (.arr l)
  | .list l => match allStrings l with
    | none => .error .value
    | some [] => put chk g p (.str "FILL_VALUE")
    | some (s :: ss) => saveEmpties chk g p (asKeys (F := F) (s :: ss)).keys
  | .dict [] => put chk g p (.str "FILL_VALUE")
  | .dict (x :: d) => saveItems chk g p (x :: d)

/-- `recursively_save_dict_contents_to_group(h5file, path, dic)`, 7-64. -/
def saveItems (chk : Leaf F → Except Err Unit) (g : Tree F) (p : List String) :
    List (String × PVal F) → Except Err (Tree F)
  | [] => .ok g
  | (k, v) :: d => do
    let g ← saveVal chk g (p ++ comps k) v
    saveItems chk g p d

/-- The same for a dictionary whose values are empty dictionaries (built from a list of
strings, 34-40). -/
def saveEmpties (chk : Leaf F → Except Err Unit) (g : Tree F) (p : List String) :
    List String → Except Err (Tree F)
  | [] => .ok g
  | k :: ks => do
    let g ← put chk g (p ++ comps k) (.str "FILL_VALUE")
    saveEmpties chk g p ks
end

/-- `recursively_load…`, 81-94, for a dataset; `decode` is UTF-8 decoding.  Strings are read
as bytes and decoded, `FILL_VALUE` becomes an empty dictionary; what cannot be decoded stays
as it is. -/
def loadLeaf (decode : List UInt8 → Option String) : Leaf F → PVal F
  | .bool b => .bool b
  | .int i => .int i
  | .num v => .num v
  | .str s => if s = "FILL_VALUE" then .dict [] else .str s
  | .bytes b => match decode b with
    | some s => if s = "FILL_VALUE" then .dict [] else .str s
    | none => .bytes b
  | .arr l => .arr l
  | .idx _ => .other
  | .mask _ => .other

mutual
/-- One entry of a group, 79-98. -/
def loadVal (decode : List UInt8 → Option String) : H5 F → PVal F
  | .data v => loadLeaf decode v
  | .group c => .dict (loadItems decode c)

/-- `recursively_load_dict_contents_from_group` on an opened group, 67-99. -/
def loadItems (decode : List UInt8 → Option String) : Tree F → List (String × PVal F)
  | [] => []
  | (k, x) :: c => (k, loadVal decode x) :: loadItems decode c
end

/-- `h5file[path]`, which must be a group to have items. -/
def openGroup : Tree F → List String → Except Err (Tree F)
  | g, [] => .ok g
  | g, k :: ks => match Dict.get? g k with
    | none => .error .key
    | some (.group c) => openGroup c ks
    | some (.data _) => .error .attribute

/-- `recursively_load_dict_contents_from_group(h5file, path)`. -/
def loadAt (decode : List UInt8 → Option String) (g : Tree F) (p : List String) :
    Except Err (List (String × PVal F)) := do
  let c ← openGroup g p
  .ok (loadItems decode c)

/-! ### Graph dictionaries, hdf5_utils.py:102-135 -/

/-- Nested dictionaries as `nx.to_dict_of_dicts` makes them. -/
inductive GDict where
  | dict (d : List (String × GDict))

mutual
/-- `fill_graph_dict` of an entry, 110-115; the fill value is 1. -/
def fillEntry : GDict → PVal F
  | .dict [] => .int 1
  | .dict (x :: d) => .dict (fillItems (x :: d))

/-- `fill_graph_dict`, 102-116. -/
def fillItems : List (String × GDict) → List (String × PVal F)
  | [] => []
  | (k, v) :: d => (k, fillEntry v) :: fillItems d
end

mutual
/-- `clean_graph_dict` of an entry, 127-134. -/
def cleanEntry : PVal F → GDict
  | .dict d => .dict (cleanItems d)
  | _ => .dict []

/-- `clean_graph_dict`, 119-135. -/
def cleanItems : List (String × PVal F) → List (String × GDict)
  | [] => []
  | (k, v) :: d => (k, cleanEntry v) :: cleanItems d
end

end Popsynth
