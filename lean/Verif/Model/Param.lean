import Verif.Model.Py

/-!
# `popsynth/utils/meta.py`: the `Parameter` descriptor

The number type `F` carries an arbitrary decidable relation `≤` (no laws), so
IEEE doubles including NaN are covered: `value >= vmin` is `vmin ≤ value`.
Python's `None` is `Option.none`.
-/

namespace Popsynth

/-- Declaration of one parameter: `Parameter.__init__`, meta.py:9-34
(the name is the dictionary key under which it is declared, meta.py:163-166). -/
structure ParamDecl (F : Type) where
  default : Option F := none
  vmin : Option F := none
  vmax : Option F := none
  free : Bool := true
  isNorm : Bool := false

/-- Per-instance parameter state: `_parameter_storage` and
`_normalization_parameter` (distribution.py:45-46; selection_probability.py:49;
auxiliary_sampler.py:197). -/
structure Obj (F : Type) where
  storage : Dict (Option F) := []
  norm : Option String := none

variable {F : Type}

/-- The effect shared by lines 46-48 of `__get__` and 75-77 of `__set__`:
touching a normalization parameter records its name on the object. -/
def touchNorm (d : ParamDecl F) (n : String) (o : Obj F) : Obj F :=
  if d.isNorm then { o with norm := some n } else o

/-- `Parameter.__get__`, meta.py:44-70, for the parameter declared as `d` under
name `n`. -/
def paramGet (d : ParamDecl F) (n : String) : Py (Obj F) F := do
  -- 46-48
  modify (touchNorm d n)
  let o ← get
  match o.storage.get? n with
  | some (some v) =>
    -- 56-60
    pure v
  | some none =>
    -- 52-54: stored None is replaced by the default, then 56-60
    modify fun o => { o with storage := o.storage.set n d.default }
    match d.default with
    | some v => pure v
    | none => raise .assertion
  | none =>
    -- KeyError branch 62-70
    modify fun o => { o with storage := o.storage.set n d.default }
    match d.default with
    | some v => pure v
    | none => raise .assertion

variable [LE F] [DecidableLE F]

/-- The lower-bound test, meta.py:84-90.  Comparing `None` raises `TypeError`. -/
def checkMin (vmin : Option F) (v : Option F) : Except Err Unit :=
  match vmin, v with
  | none, _ => .ok ()
  | some _, none => .error .type
  | some m, some x => if m ≤ x then .ok () else .error .runtime

/-- The upper-bound test, meta.py:92-98. -/
def checkMax (vmax : Option F) (v : Option F) : Except Err Unit :=
  match vmax, v with
  | none, _ => .ok ()
  | some _, none => .error .type
  | some m, some x => if x ≤ m then .ok () else .error .runtime

/-- `Parameter.__set__`, meta.py:72-100.  `free` is the current value of the
descriptor's `_free` flag (it can be changed after declaration, 104-134). -/
def paramSet (d : ParamDecl F) (free : Bool) (n : String) (v : Option F) :
    Py (Obj F) Unit := do
  -- 75-77 (before any check)
  modify (touchNorm d n)
  -- 79-82
  if !free then raise .runtime
  -- 84-90
  liftE (checkMin d.vmin v)
  -- 92-98
  liftE (checkMax d.vmax v)
  -- 100
  modify fun o => { o with storage := o.storage.set n v }

/-- `Distribution.truth` / `SelectionProbability.parameters` /
`AuxiliarySampler.truth`: the stored entries that are not `None`
(distribution.py:92-105, selection_probability.py:135-146,
auxiliary_sampler.py:654-668). -/
def truthOf (o : Obj F) : Dict F :=
  o.storage.filterMap fun p => p.2.map fun v => (p.1, v)

/-! ### A class with many instances -/

/-- All instances (addressed by a number) of one class plus the class-level
`_free` flags of its descriptors (meta.py:33, 104-134). -/
structure ClassState (F : Type) where
  objs : Nat → Obj F
  free : String → Bool

/-- A newly declared class with new instances. -/
def ClassState.init (decl : String → ParamDecl F) : ClassState F where
  objs := fun _ => {}
  free := fun n => (decl n).free

/-- User operations on a class and its instances. -/
inductive POp (F : Type) where
  | assign (i : Nat) (n : String) (v : Option F)
  | read (i : Nat) (n : String)
  /-- `p.free = b` / `p.fix = not b` on the descriptor, meta.py:104-134. -/
  | setFree (n : String) (b : Bool)

/-- Replace instance `i`. -/
def ClassState.setObj (s : ClassState F) (i : Nat) (o : Obj F) : ClassState F :=
  { s with objs := fun j => if j = i then o else s.objs j }

/-- One user operation; exceptions are caught by the user, effects stay. -/
def stepOp (decl : String → ParamDecl F) (s : ClassState F) : POp F → ClassState F
  | .assign i n v => s.setObj i (endState (paramSet (decl n) (s.free n) n v (s.objs i)))
  | .read i n => s.setObj i (endState (paramGet (decl n) n (s.objs i)))
  | .setFree n b => { s with free := fun m => if m = n then b else s.free m }

/-- A whole history, oldest operation first. -/
def runOps (decl : String → ParamDecl F) (s : ClassState F) (ops : List (POp F)) :
    ClassState F :=
  ops.foldl (stepOp decl) s

/-! ### Class creation -/

/-- `ParameterMeta.__new__`, meta.py:159-172: the loop over the attributes that
are parameters.  `norm_counter` is initialised to 0 and never incremented. -/
def metaCheck (attrs : List (String × ParamDecl F)) : Except Err Unit :=
  let rec loop (normCounter : Nat) : List (String × ParamDecl F) → Except Err Unit
    | [] => .ok ()
    | (_, d) :: rest =>
      if d.isNorm then
        if normCounter > 0 then .error .assertion else loop normCounter rest
      else loop normCounter rest
  loop 0 attrs

end Popsynth
