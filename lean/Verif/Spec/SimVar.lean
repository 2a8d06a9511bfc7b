import Verif.Model.SimVar

/-!
# Vocabulary for statements about simulated variables
-/

set_option autoImplicit false

namespace Popsynth.Spec

variable {F : Type}

/-- Observed values, latent values and selection have one length. -/
def Built (x : SVar F) : Prop :=
  x.latent.length = x.obs.length ∧ x.sel.length = x.obs.length

/-- The entries of `a` where the mask equals `b`, in order. -/
def entries {α : Type} (a : List α) (m : List Bool) (b : Bool) : List α :=
  ((a.zip m).filter fun p => p.2 == b).map Prod.fst

/-- Put two lists together again: where the mask is true take the next entry of the first,
else of the second. -/
def interleave {α : Type} : List Bool → List α → List α → List α
  | true :: m, x :: a, b => x :: interleave m a b
  | false :: m, a, y :: b => y :: interleave m a b
  | _, _, _ => []

/-- `b` consists of the entries of `a` at the positions `ps`, in this order. -/
def At {α : Type} (a : List α) (ps : List Nat) (b : List α) : Prop :=
  b.length = ps.length ∧ ∀ (k p : Nat), ps[k]? = some p → b[k]? = a[p]? ∧ p < a.length

/-- A bound of a slice with positive step on an array of length `n`: missing bounds are
replaced by `d`, negative ones count from the end, and the result is clamped to `0..n`. -/
def sliceBound (n : Nat) (d : Int) : Option Int → Int
  | none => d
  | some i => if i < 0 then max (i + n) 0 else min i n

/-- A bound of a slice with negative step: missing bounds are replaced by `d`, negative ones count
from the end, and the result is clamped to `-1..n-1`, where `-1` is the place before the first. -/
def sliceBoundBack (n : Nat) (d : Int) : Option Int → Int
  | none => d
  | some i => if i < 0 then max (i + n) (-1) else min i (n - 1)

/-- Entry `i` of an array in a broadcast computation. -/
def broadcastAt (l : List F) (i : Nat) : Option F := if l.length = 1 then l[0]? else l[i]?

/-- What an operand contributes at position `i`, where `part` says which array of a
simulated variable (observed or latent values) takes part. -/
def argAt (part : SVar F → List F) (i : Nat) : Operand F → Option F
  | .scalar v => some v
  | .arr l => broadcastAt l i
  | .var x => broadcastAt (part x) i

/-- The arguments of an element-wise function at position `i`. -/
def argsAt (part : SVar F → List F) (ops : List (Operand F)) (i : Nat) : List F :=
  ops.filterMap (argAt part i)

/-- The lengths of the arrays among the operands. -/
def HasLen (ops : List (Operand F)) (n : Nat) : Prop :=
  (∃ x, Operand.var x ∈ ops ∧ x.obs.length = n) ∨ ∃ l, Operand.arr l ∈ ops ∧ l.length = n

/-- The first simulated variable among the operands. -/
def FirstVar (ops : List (Operand F)) (x : SVar F) : Prop :=
  ∃ pre post, ops = pre ++ .var x :: post ∧ ∀ y, Operand.var y ∉ pre

/-- The selection is a mask `m`: all simulated variables among the operands carry it
(with boolean dtype) and there is at least one of them; the rest are scalars. -/
def OneMask (m : List Bool) (ops : List (Operand F)) : Prop :=
  (∃ x, Operand.var x ∈ ops) ∧
  ∀ o ∈ ops, (∃ v, o = .scalar v) ∨
    ∃ x, o = .var x ∧ Built x ∧ x.sel = m ∧ x.selDt = .bool

/-- An operand and its selected (`b = true`) or non-selected part. -/
inductive PartOf (b : Bool) : Operand F → Operand F → Prop where
  | scalar (v : F) : PartOf b (.scalar v) (.scalar v)
  | var (x y : SVar F) (h : (if b then x.selected else x.nonSelected) = .ok y) :
      PartOf b (.var x) (.var y)

/-- The same, operand by operand. -/
inductive PartsOf (b : Bool) : List (Operand F) → List (Operand F) → Prop where
  | nil : PartsOf b [] []
  | cons {o o' : Operand F} {ops ops' : List (Operand F)} (h : PartOf b o o')
      (t : PartsOf b ops ops') : PartsOf b (o :: ops) (o' :: ops')

end Popsynth.Spec
