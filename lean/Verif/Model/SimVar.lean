import Verif.Model.Survey

/-!
# `popsynth/simulated_variable.py`

One-dimensional arrays.  The stored selection is an array of zeros and ones
(`np.ones_like`, `np.zeros_like`, or a boolean mask); its entries are modelled as
booleans together with the dtype, because numpy treats boolean, integer and floating
point arrays differently when they are used as an index.
-/

set_option autoImplicit false

namespace Popsynth

/-- numpy's kinds of dtypes. -/
inductive DType where
  | bool
  | int
  | float
  deriving DecidableEq

/-- A `SimulatedVariable`: observed values (the array itself) with their dtype, latent
values, and the selection with its dtype. -/
structure SVar (F : Type) where
  obs : List F
  dt : DType := .float
  latent : List F
  sel : List Bool
  selDt : DType := .bool
  deriving DecidableEq

variable {F : Type}

/-- The simulated variables a population holds: the mask is boolean. -/
def SimVar.toSVar (x : SimVar F) (dt : DType) : SVar F :=
  { obs := x.obs, dt, latent := x.latent, sel := x.selection }

/-- `SimulatedVariable.__new__`, 29-61. -/
def mkSVar (obs : List F) (dt : DType) (latent : List F) (sel : List Bool) (selDt : DType) :
    Except Err (SVar F) :=
  if sel.length ≠ obs.length then .error .assertion
  else if latent.length ≠ obs.length then .error .assertion
  else .ok { obs, dt, latent, sel, selDt }

/-- One integer index: negative ones count from the end, `IndexError` out of range. -/
def normIdx (n : Nat) (i : Int) : Except Err Nat :=
  if 0 ≤ i ∧ i < n then .ok i.toNat
  else if -n ≤ i ∧ i < 0 then .ok (i + n).toNat
  else .error .index

/-- The positions an integer index array refers to. -/
def normIdxs (n : Nat) : List Int → Except Err (List Nat)
  | [] => .ok []
  | i :: is => do
    let k ← normIdx n i
    let ks ← normIdxs n is
    pure (k :: ks)

/-- The positions a boolean mask selects. -/
def maskPositions (n : Nat) (m : List Bool) : Except Err (List Nat) :=
  if m.length = n then .ok (selectionIndex m) else .error .index

/-- The positions `a[selection]` refers to for an array of length `n`: boolean arrays are
masks, integer arrays lists of positions (0 or 1), other dtypes raise `IndexError`. -/
def selPositions (n : Nat) (sel : List Bool) : DType → Except Err (List Nat)
  | .bool => maskPositions n sel
  | .int => normIdxs n (sel.map fun b => if b then 1 else 0)
  | .float => .error .index

/-- The positions `a[~selection]` refers to: `~` negates booleans, maps integers 0, 1 to
-1, -2 and is not defined for floats (`TypeError`). -/
def nonSelPositions (n : Nat) (sel : List Bool) : DType → Except Err (List Nat)
  | .bool => maskPositions n (sel.map not)
  | .int => normIdxs n (sel.map fun b => if b then -2 else -1)
  | .float => .error .type

/-- The entries at valid positions. -/
def takeAt {α : Type} (a : List α) (ps : List Nat) : List α := ps.filterMap fun p => a[p]?

/-- `selected`, 76-88. -/
def SVar.selected (x : SVar F) : Except Err (SVar F) := do
  let p ← selPositions x.obs.length x.sel x.selDt
  let q ← selPositions x.latent.length x.sel x.selDt
  let obs := takeAt x.obs p
  mkSVar obs x.dt (takeAt x.latent q) (List.replicate obs.length true) x.dt

/-- `non_selected`, 90-103. -/
def SVar.nonSelected (x : SVar F) : Except Err (SVar F) := do
  let p ← nonSelPositions x.obs.length x.sel x.selDt
  let q ← nonSelPositions x.latent.length x.sel x.selDt
  let obs := takeAt x.obs p
  mkSVar obs x.dt (takeAt x.latent q) (List.replicate obs.length false) x.dt

/-! ### Indexing -/

/-- Indices of 1-d arrays. -/
inductive Idx where
  | int (i : Int)
  | slice (start stop : Option Int) (step : Int)
  | mask (m : List Bool)
  | ints (l : List Int)

/-- Python's `slice.indices(n)`: first position and end (exclusive, in direction of the
step). -/
def sliceBounds (n : Nat) (start stop : Option Int) (step : Int) : Int × Int :=
  let lower : Int := if step < 0 then -1 else 0
  let upper : Int := if step < 0 then (n : Int) - 1 else n
  let clamp (i : Int) : Int :=
    if i < 0 then max (i + n) lower else min i upper
  (match start with
    | none => if step < 0 then upper else lower
    | some i => clamp i,
   match stop with
    | none => if step < 0 then lower else upper
    | some i => clamp i)

/-- Number of positions of a slice. -/
def sliceCount (start stop step : Int) : Nat :=
  if step < 0 then ((start - stop + (-step) - 1) / (-step)).toNat
  else ((stop - start + step - 1) / step).toNat

/-- The positions of a slice; `ValueError` for step 0. -/
def slicePositions (n : Nat) (start stop : Option Int) (step : Int) : Except Err (List Nat) :=
  if step = 0 then .error .value
  else
    let b := sliceBounds n start stop step
    .ok ((List.range (sliceCount b.1 b.2 step)).map fun k : Nat => (b.1 + (k : Int) * step).toNat)

/-- What indexing returns: a scalar or a simulated variable. -/
inductive Got (F : Type) where
  | scalar (v : F)
  | var (x : SVar F)

/-- The positions of an array index (`none` for a scalar index). -/
def idxPositions (n : Nat) : Idx → Except Err (List Nat)
  | .int i => do
    let k ← normIdx n i
    pure [k]
  | .slice a b c => slicePositions n a b c
  | .mask m => maskPositions n m
  | .ints l => normIdxs n l

/-- `__getitem__`, 117-129. -/
def SVar.getItem (x : SVar F) (i : Idx) : Except Err (Got F) :=
  match i with
  | .int i => do
    let k ← normIdx x.obs.length i
    match x.obs[k]? with
    | some v => pure (.scalar v)
    | none => .error .index
  | i => do
    let p ← idxPositions x.obs.length i
    let q ← idxPositions x.latent.length i
    let r ← idxPositions x.sel.length i
    let y ← mkSVar (takeAt x.obs p) x.dt (takeAt x.latent q) (takeAt x.sel r) x.selDt
    pure (.var y)

/-! ### Universal functions -/

/-- An operand of a ufunc. -/
inductive Operand (F : Type) where
  | var (x : SVar F)
  | arr (l : List F)
  | scalar (v : F)

/-- The plain array numpy computes with for the observed values (140-146). -/
def Operand.obs : Operand F → Operand F
  | .var x => .arr x.obs
  | o => o

/-- … and for the latent values. -/
def Operand.latent : Operand F → Operand F
  | .var x => .arr x.latent
  | o => o

/-- Length of an operand, `none` for scalars. -/
def Operand.len : Operand F → Option Nat
  | .var x => some x.obs.length
  | .arr l => some l.length
  | .scalar _ => none

/-- Common length after broadcasting 1-d operands; `ValueError` if impossible. -/
def commonLen : List (Operand F) → Except Err (Option Nat)
  | [] => .ok none
  | o :: os => do
    let r ← commonLen os
    match o.len, r with
    | none, r => pure r
    | some n, none => pure (some n)
    | some n, some m =>
      if n = m then pure (some n)
      else if n = 1 then pure (some m)
      else if m = 1 then pure (some n)
      else .error .value

/-- Entry `i` of an operand broadcast to length `n`. -/
def Operand.at (o : Operand F) (i : Nat) : Option F :=
  match o with
  | .scalar v => some v
  | .arr l => if l.length = 1 then l[0]? else l[i]?
  | .var x => if x.obs.length = 1 then x.obs[0]? else x.obs[i]?

/-- An element-wise function: for each tuple of arguments the tuple of results
(`ufunc.nout` of them) and the dtype of each result. -/
structure UFunc (F : Type) where
  nout : Nat
  f : List F → Nat → F
  dt : Nat → DType := fun _ => .float

/-- numpy's call on plain operands: one array per output; for scalars only, arrays of
length one stand for the scalars. -/
def UFunc.call (u : UFunc F) (ops : List (Operand F)) : Except Err (List (List F) × Option Nat) := do
  let n ← commonLen ops
  let k := n.getD 1
  pure ((List.range u.nout).map fun j : Nat =>
    (List.range k).map fun i : Nat => u.f (ops.filterMap fun o => o.at i) j, n)

/-- The selection of the object whose `__array_ufunc__` numpy calls: the first
`SimulatedVariable` among the operands. -/
def firstSel : List (Operand F) → Option (List Bool × DType)
  | [] => none
  | .var x :: _ => some (x.sel, x.selDt)
  | _ :: os => firstSel os

/-- `__array_ufunc__`, 131-222, called without `out` (method `__call__`). -/
def ufuncCall (u : UFunc F) (ops : List (Operand F)) : Except Err (List (SVar F)) := do
  let (res, _) ← u.call (ops.map Operand.obs)
  let (lat, _) ← u.call (ops.map Operand.latent)
  match firstSel ops with
  | none => .error .type
  | some (sel, selDt) =>
    (List.range u.nout).foldrM (fun j acc => do
      let v ← mkSVar (res.getD j []) (u.dt j) (lat.getD j []) sel selDt
      pure (v :: acc)) []

/-! ### In-place operators -/

/-- A simulated variable in memory: its observed and latent values are stored in buffers
(which may be the same one, as for the distances and luminosities of a population:
`SimulatedVariable(distances, distances, selection)` with `np.asarray`, population.py:117-123,
simulated_variable.py:38). -/
structure MVar where
  obsBuf : Nat
  latBuf : Nat

/-- Memory. -/
abbrev Mem (F : Type) := Nat → List F

/-- The right-hand side of an in-place operator. -/
inductive MOperand (F : Type) where
  | var (x : MVar)
  | scalar (v : F)

/-- What it contributes at position `i` to the observed computation … -/
def MOperand.obsAt (m : Mem F) (i : Nat) : MOperand F → Option F
  | .var x => (m x.obsBuf)[i]?
  | .scalar v => some v

/-- … and to the latent one. -/
def MOperand.latAt (m : Mem F) (i : Nat) : MOperand F → Option F
  | .var x => (m x.latBuf)[i]?
  | .scalar v => some v

/-- One numpy call `f(a, b, out=buf)` on equally long arrays: entry by entry the old
contents of `src` and of the operand. -/
def outCall (f : F → F → F) (m : Mem F) (src out : Nat) (b : Nat → Option F) : Mem F := fun k =>
  if k = out then
    (List.range (m src).length).filterMap fun i => do
      let x ← (m src)[i]?
      let y ← b i
      pure (f x y)
  else m k

/-- `x op= y`: `__array_ufunc__` with `out=(x,)`, 151-176: both the observed and the
latent results are computed with the same `out`, the buffer of the observed values; `x`
itself is returned. -/
def inPlaceOp (f : F → F → F) (x : MVar) (y : MOperand F) (m : Mem F) : Mem F :=
  let m1 := outCall f m x.obsBuf x.obsBuf (fun i => y.obsAt m i)
  outCall f m1 x.latBuf x.obsBuf (fun i => y.latAt m1 i)

end Popsynth
