/-!
# Python basics used by the model

Not a model of a particular popsynth file: exceptions, the effect monad and
insertion-ordered dictionaries of Python itself.
-/

namespace Popsynth

/-- Python exceptions raised (explicitly or implicitly) by popsynth code.
`diverge` is not an exception: it marks that a Python `while` loop used up the
iteration budget of the model, see `Verif/Model/Distance.lean`. -/
inductive Err where
  | runtime
  | assertion
  | value
  | type
  | attribute
  | key
  | index
  | unboundLocal
  | recursion
  | os
  | user
  | diverge
  deriving DecidableEq, Repr, Inhabited

deriving instance DecidableEq for Except
deriving instance DecidableEq for EStateM.Result

/-- A Python method acting on state `σ`.  The state at the time an exception is
raised is kept (Python does not undo side effects). -/
abbrev Py (σ α : Type) := EStateM Err σ α

/-- `raise e`. -/
@[inline] def raise {σ α : Type} (e : Err) : Py σ α := fun s => .error e s

/-- `for x in l: f(x)` without `break`/`continue`. -/
def forEach {σ α : Type} : List α → (α → Py σ Unit) → Py σ Unit
  | [], _ => pure ()
  | x :: xs, f => do
    f x
    forEach xs f

/-- `assert b`. -/
@[inline] def pyAssert {σ : Type} (b : Bool) : Py σ Unit :=
  if b then pure () else raise .assertion

/-- Lift a computation that can only fail (no state). -/
@[inline] def liftE {σ α : Type} : Except Err α → Py σ α
  | .ok a => pure a
  | .error e => raise e

/-- State after a computation, whether it returned or raised. -/
def endState {σ α : Type} : EStateM.Result Err σ α → σ
  | .ok _ s => s
  | .error _ s => s

/-- What the caller sees of a call: the returned value or the exception. -/
def outcome {σ α : Type} : EStateM.Result Err σ α → Except Err α
  | .ok a _ => .ok a
  | .error e _ => .error e

/-- Insertion-ordered Python `dict` with string keys. -/
abbrev Dict (α : Type) := List (String × α)

namespace Dict
variable {α : Type}

/-- `d.get(k)`; `none` means `KeyError` for `d[k]`. -/
def get? : Dict α → String → Option α
  | [], _ => none
  | (k', v) :: t, k => if k' = k then some v else get? t k

/-- `d[k] = v`: overwrites in place or appends. -/
def set : Dict α → String → α → Dict α
  | [], k, v => [(k, v)]
  | (k', v') :: t, k, v => if k' = k then (k', v) :: t else (k', v') :: set t k v

/-- `list(d.keys())`. -/
def keys (d : Dict α) : List String := d.map Prod.fst

/-- `k in d`. -/
def has (d : Dict α) (k : String) : Bool := (get? d k).isSome

/-- `d.pop(k)` on an existing key / `del d[k]` (removes the entry). -/
def erase : Dict α → String → Dict α
  | [], _ => []
  | (k', v') :: t, k => if k' = k then t else (k', v') :: erase t k

end Dict
end Popsynth
