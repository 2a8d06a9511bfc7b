import Verif.Model.SimVar

/-!
# Arrays derived from simulated variables

numpy makes copies, views and results of array methods of the class of the array and then
calls `__array_finalize__` (popsynth/simulated_variable.py:105-115).  The methods below return
such arrays without using `__getitem__` or `__array_ufunc__`.
-/

set_option autoImplicit false

namespace Popsynth

/-- An attribute that is not set, `None` or a value. -/
inductive OptAttr (α : Type) where
  | missing
  | none
  | val (a : α)
  deriving DecidableEq

/-- An array of class `SimulatedVariable`, with the attributes `_latent_values` and
`_selection`. -/
structure AVar (F : Type) where
  obs : List F
  dt : DType := .float
  latent : OptAttr (List F)
  sel : OptAttr (List Bool × DType)
  deriving DecidableEq

variable {F : Type}

/-- A simulated variable made by `__new__`, 29-61. -/
def SVar.toAVar (x : SVar F) : AVar F :=
  { obs := x.obs, dt := x.dt, latent := .val x.latent, sel := .val (x.sel, x.selDt) }

/-- The argument `obj` of `__array_finalize__`: `None`, an array of another class, or a
simulated variable. -/
inductive Template (F : Type) where
  | nothing
  | plain
  | var (x : AVar F)

/-- `getattr(obj, name, None)`. -/
def OptAttr.orNone {α : Type} : OptAttr α → OptAttr α
  | .missing => .none
  | a => a

/-- `__array_finalize__`, 105-115, of a new array with the given values. -/
def finalize (obs : List F) (dt : DType) : Template F → AVar F
  | .nothing => { obs, dt, latent := .missing, sel := .missing }
  | .plain => { obs, dt, latent := .none, sel := .none }
  | .var x => { obs, dt, latent := x.latent.orNone, sel := x.sel.orNone }

/-! ### Methods of numpy arrays -/

/-- `x.copy()`, `x.view()`, `x.ravel()`. -/
def AVar.copy (x : AVar F) : AVar F := finalize x.obs x.dt (.var x)

/-- `x.take(indices)`: `IndexError` out of range. -/
def AVar.take (x : AVar F) (l : List Int) : Except Err (AVar F) := do
  let ps ← normIdxs x.obs.length l
  pure (finalize (takeAt x.obs ps) x.dt (.var x))

/-- `x.repeat(k)`. -/
def AVar.repeatEach (x : AVar F) (k : Nat) : AVar F :=
  finalize (x.obs.flatMap fun v => List.replicate k v) x.dt (.var x)

/-- `np.sort(x)`: a copy, sorted in place. -/
def AVar.sort [LE F] [DecidableLE F] (x : AVar F) : AVar F :=
  { x.copy with obs := x.obs.mergeSort fun a b => decide (a ≤ b) }

/-- `np.concatenate(xs)`: a new array of the class of the arguments, which is finalized without
template. -/
def concatenate (xs : List (AVar F)) (dt : DType) : AVar F :=
  finalize (xs.flatMap AVar.obs) dt .nothing

/-- `a.view(SimulatedVariable)` of a plain array. -/
def viewPlain (a : List F) (dt : DType) : AVar F := finalize a dt .plain

/-! ### What can be asked of such an array -/

/-- `latent`, 63-74: `none` is Python's `None`. -/
def AVar.latentValues (x : AVar F) : Except Err (Option (List F)) :=
  match x.latent with
  | .missing => .error .attribute
  | .none => .ok none
  | .val l => .ok (some l)

/-- Both attributes as those of a simulated variable: `AttributeError` if one is not set;
indexing `None` is a `TypeError`. -/
def AVar.attrs (x : AVar F) : Except Err (SVar F) :=
  match x.sel, x.latent with
  | .missing, _ => .error .attribute
  | _, .missing => .error .attribute
  | .none, _ => .error .type
  | _, .none => .error .type
  | .val s, .val l => .ok { obs := x.obs, dt := x.dt, latent := l, sel := s.1, selDt := s.2 }

/-- `selected`, 76-88. -/
def AVar.selected (x : AVar F) : Except Err (SVar F) := do
  let v ← x.attrs
  v.selected

/-- `non_selected`, 90-103. -/
def AVar.nonSelected (x : AVar F) : Except Err (SVar F) := do
  let v ← x.attrs
  v.nonSelected

end Popsynth
