import Verif.Model.Param

/-!
# `popsynth/selection_probability/*.py`

Selectors.  `F` is an arbitrary number type, `G` the state of numpy's global
random generator.  Masks are lists of booleans.
-/

namespace Popsynth

/-- Numerical and random primitives used by selectors (external code: numpy and
scipy), as parameters. -/
structure SelEnv (F G : Type) where
  /-- one `stats.bernoulli.rvs(p)`; arrays are filled by successive draws -/
  bern : F → G → Bool × G
  /-- scipy's argument check `0 <= p <= 1` (false for NaN) -/
  validProb : F → Bool
  /-- `expit(strength * (log10 v - log10 boundary))`: strength, boundary, value -/
  softLog : F → F → F → F
  /-- `expit(strength * (v - boundary))` -/
  softLin : F → F → F → F
  /-- unary minus -/
  neg : F → F

/-- What a spatial selection can see of the spatial distribution: distances and
galactic latitudes (the latter computed by astropy's `SkyCoord` from ra/dec,
spatial_selection.py:57-66; astropy is not modelled). -/
structure SpatialView (F : Type) where
  distances : List F
  galB : List F

/-- The data a selector holds (selection_probability.py:47-61 and
spatial_selection.py:22).  `None` is `none`. -/
structure SelData (F : Type) where
  flux : Option (List F) := none
  obsValue : Option (List F) := none
  distance : Option (List F) := none
  luminosity : Option (List F) := none
  spatial : Option (SpatialView F) := none
  useObs : Bool := false
  useDistance : Bool := false
  useLuminosity : Bool := false
  useFlux : Bool := false

/-- The class of a selector.  `HardFluxSelection` is `lower` and
`SoftFluxSelection` is `soft`, both created with `use_flux=True`
(flux_selectors.py:8-42).  `custom` is a user-written `draw`. -/
inductive SelKind (F G : Type) where
  | unity
  | bernoulli
  | box
  | lower
  | upper
  | soft
  | dummy
  | distance
  | galactic
  | custom (draw : SelData F → Nat → G → Except Err (List Bool) × G)

/-- A selector object (selection_probability.py:47-61). -/
structure Selector (F G : Type) where
  kind : SelKind F G
  cls : String := ""
  name : String := ""
  params : Obj F := {}
  data : SelData F := {}
  selection : Option (List Bool) := none
  isSampled : Bool := false

/-- `isinstance(s, UnitySelection)`. -/
def SelKind.isUnity {F G : Type} : SelKind F G → Bool
  | .unity => true
  | _ => false

/-- `isinstance(s, SpatialSelection)`. -/
def SelKind.isSpatial {F G : Type} : SelKind F G → Bool
  | .distance => true
  | .galactic => true
  | _ => false

variable {F G : Type}

/-- A selector together with the random state it draws from. -/
structure SelSt (F G : Type) where
  sel : Selector F G
  rng : G

/-! ### Parameters of the built-in selectors -/

/-- `boundary = SelectionParameter()` generic_selectors.py:137,200,263 -/
def declBoundary : ParamDecl F := {}
/-- `vmin/vmax = SelectionParameter()` generic_selectors.py:72-73 -/
def declBox : ParamDecl F := {}
/-- `strength = SelectionParameter(vmin=0)` generic_selectors.py:264 -/
def declStrength [OfNat F 0] : ParamDecl F := { vmin := some 0 }
/-- `min_distance/max_distance = SelectionParameter(vmin=0)` spatial_selection.py:77-78 -/
def declDistance [OfNat F 0] : ParamDecl F := { vmin := some 0 }

/-- Read a parameter of the selector (`self.boundary` etc.). -/
def selParam (d : ParamDecl F) (n : String) : Py (SelSt F G) F := fun s =>
  match paramGet d n s.sel.params with
  | .ok v o => .ok v { s with sel := { s.sel with params := o } }
  | .error e o => .error e { s with sel := { s.sel with params := o } }

/-- `self._selection = m`. -/
def setMask (m : List Bool) : Py (SelSt F G) Unit :=
  modify fun s => { s with sel := { s.sel with selection := some m } }

/-! ### `draw` -/

/-- The cascade choosing the values to select on (generic_selectors.py:116-129,
179-192, 242-255, 308-321): four consecutive `if`s, later ones overwrite
`values`; if none is taken the local variable is unbound. -/
def chosenValues (d : SelData F) : Except Err (Option (List F)) :=
  let v0 : Option (Option (List F)) := none
  let v1 := if d.useDistance then some d.distance else v0
  let v2 := if d.useObs then some d.obsValue else v1
  let v3 := if d.useLuminosity then some d.luminosity else v2
  let v4 := if d.useFlux then some d.flux else v3
  match v4 with
  | none => .error .unboundLocal
  | some v => .ok v

/-- Using an array attribute that is still `None` in a comparison or in
`np.log10` raises `TypeError`. -/
def needArray : Option (List F) → Except Err (List F)
  | some v => .ok v
  | none => .error .type

section order
variable [LE F] [DecidableLE F]

/-- `values >= b` (numpy, elementwise). -/
def geMask (vs : List F) (b : F) : List Bool := vs.map fun v => decide (b ≤ v)
/-- `values <= b`. -/
def leMask (vs : List F) (b : F) : List Bool := vs.map fun v => decide (v ≤ b)
end order

/-- `a & b` of two equally long masks. -/
def andMask (a b : List Bool) : List Bool := List.zipWith (· && ·) a b
/-- `a | b` of two equally long masks. -/
def orMask (a b : List Bool) : List Bool := List.zipWith (· || ·) a b

/-- `stats.bernoulli.rvs(probs)`: one draw per probability, in order. -/
def bernMany (env : SelEnv F G) : List F → G → List Bool × G
  | [], g => ([], g)
  | p :: ps, g =>
    let (b, g1) := env.bern p g
    let (bs, g2) := bernMany env ps g1
    (b :: bs, g2)

/-- The loop of `BernoulliSelection.draw` with progress bar
(generic_selectors.py:49-58): start from zeros, set entry `i` on success. -/
def bernLoop (env : SelEnv F G) (p : F) : List Nat → List Bool → G → List Bool × G
  | [], m, g => (m, g)
  | i :: is, m, g =>
    let (b, g1) := env.bern p g
    bernLoop env p is (if b then m.set i true else m) g1

variable [LE F] [DecidableLE F] [OfNat F 0] [OfNat F 1]

/-- `probability = SelectionParameter(vmin=0, vmax=1, default=0.5)`
generic_selectors.py:33; `half` is the literal 0.5. -/
def declProb (half : F) : ParamDecl F := { default := some half, vmin := some 0, vmax := some 1 }
/-- `b_limit = SelectionParameter(vmin=0, vmax=90)` spatial_selection.py:42 -/
def declBLimit (ninety : F) : ParamDecl F := { vmin := some 0, vmax := some ninety }

/-- The `draw(size)` method of each selector class. `half`/`ninety` are the
literals `0.5`, `90`; `showProgress` is `popsynth_config.show_progress`. -/
def selDraw (env : SelEnv F G) (half ninety : F) (showProgress : Bool) (size : Nat) :
    Py (SelSt F G) Unit := do
  let s ← get
  match s.sel.kind with
  | .unity =>
    -- generic_selectors.py:25-27
    setMask (List.replicate size true)
  | .bernoulli =>
    -- generic_selectors.py:45-66
    if showProgress then
      setMask (List.replicate size false)
      -- the parameter is read inside the loop body (56), i.e. only if size > 0
      if size = 0 then pure ()
      else
        let p ← selParam (declProb half) "probability"
        if env.validProb p then
          let s ← get
          let (m, g) := bernLoop env p (List.range size) (List.replicate size false) s.rng
          setMask m
          modify fun s => { s with rng := g }
        else raise .value
    else
      let p ← selParam (declProb half) "probability"
      if env.validProb p then
        let s ← get
        let (m, g) := bernMany env (List.replicate size p) s.rng
        setMask m
        modify fun s => { s with rng := g }
      else raise .value
  | .box =>
    -- generic_selectors.py:114-131
    let v ← liftE (chosenValues s.sel.data)
    let lo ← selParam declBox "vmin"
    let vs ← liftE (needArray v)
    let hi ← selParam declBox "vmax"
    setMask (andMask (geMask vs lo) (leMask vs hi))
  | .lower =>
    -- generic_selectors.py:177-194; flux_selectors.py:20-22
    let v ← liftE (chosenValues s.sel.data)
    let b ← selParam declBoundary "boundary"
    let vs ← liftE (needArray v)
    setMask (geMask vs b)
  | .upper =>
    -- generic_selectors.py:240-257
    let v ← liftE (chosenValues s.sel.data)
    let b ← selParam declBoundary "boundary"
    let vs ← liftE (needArray v)
    setMask (leMask vs b)
  | .soft =>
    -- generic_selectors.py:306-336 with the default use_log=True;
    -- flux_selectors.py:35-42
    let v ← liftE (chosenValues s.sel.data)
    let k ← selParam declStrength "strength"
    let vs ← liftE (needArray v)
    let b ← selParam declBoundary "boundary"
    let probs := vs.map (env.softLog k b)
    if probs.all env.validProb then
      let s ← get
      let (m, g) := bernMany env probs s.rng
      setMask m
      modify fun s => { s with rng := g }
    else raise .value
  | .dummy =>
    -- selection_probability.py:194-195
    pure ()
  | .distance =>
    -- spatial_selection.py:91-95
    match s.sel.data.spatial with
    | none => raise .attribute
    | some sp =>
      let lo ← selParam declDistance "min_distance"
      let hi ← selParam declDistance "max_distance"
      setMask (andMask (geMask sp.distances lo) (leMask sp.distances hi))
  | .galactic =>
    -- spatial_selection.py:56-67
    match s.sel.data.spatial with
    | none => raise .attribute
    | some sp =>
      let l1 ← selParam (declBLimit ninety) "b_limit"
      let l2 ← selParam (declBLimit ninety) "b_limit"
      setMask (orMask (geMask sp.galB l1) (leMask sp.galB (env.neg l2)))
  | .custom f =>
    let r := f s.sel.data size s.rng
    modify fun s => { s with rng := r.2 }
    match r.1 with
    | .ok m => setMask m
    | .error e => raise e

/-- `SelectionProbability.select`, selection_probability.py:121-133.  The debug
message evaluates `sum(self._selection)` and raises `TypeError` on `None`. -/
def selSelect (env : SelEnv F G) (half ninety : F) (showProgress : Bool) (size : Nat) :
    Py (SelSt F G) Unit := do
  let s ← get
  if !s.sel.isSampled then
    selDraw env half ninety showProgress size
  let s ← get
  match s.sel.selection with
  | none => raise .type
  | some _ => modify fun s => { s with sel := { s.sel with isSampled := true } }

omit [LE F] [DecidableLE F] [OfNat F 0] [OfNat F 1] in
/-- `SelectionProbability.reset`, selection_probability.py:110-119. -/
def Selector.reset (s : Selector F G) : Selector F G :=
  if s.isSampled then { s with isSampled := false, selection := none } else s

omit [LE F] [DecidableLE F] [OfNat F 0] [OfNat F 1] in
/-- The `selection` property, selection_probability.py:148-157. -/
def Selector.mask (s : Selector F G) : Except Err (List Bool) :=
  match s.selection with
  | some m => .ok m
  | none => .error .runtime

/-! ### Counting and indices, selection_probability.py:159-177 -/

/-- `sum(mask)` -/
def countTrue (m : List Bool) : Nat := (m.filter id).length
/-- `~mask` -/
def notMask (m : List Bool) : List Bool := m.map not
/-- `np.where(mask)[0]` (indices counted from `k`). -/
def whereFrom : Nat → List Bool → List Nat
  | _, [] => []
  | k, b :: bs => if b then k :: whereFrom (k + 1) bs else whereFrom (k + 1) bs
/-- `n_selected`, 159-161 -/
def nSelected (m : List Bool) : Nat := countTrue m
/-- `n_non_selected`, 163-165 -/
def nNonSelected (m : List Bool) : Nat := countTrue (notMask m)
/-- `n_objects`, 167-169 -/
def nObjects (m : List Bool) : Nat := m.length
/-- `selection_index`, 171-173 -/
def selectionIndex (m : List Bool) : List Nat := whereFrom 0 m
/-- `non_selection_index`, 175-177 -/
def nonSelectionIndex (m : List Bool) : List Nat := whereFrom 0 (notMask m)

/-! ### Combination -/

/-- `np.logical_and` of two 1-d boolean arrays with numpy broadcasting. -/
def logicalAnd (a b : List Bool) : Except Err (List Bool) :=
  if a.length = b.length then .ok (List.zipWith (· && ·) a b)
  else if a.length = 1 then .ok (b.map fun x => (a.headD true) && x)
  else if b.length = 1 then .ok (a.map fun x => x && (b.headD true))
  else .error .value

omit [LE F] [DecidableLE F] [OfNat F 0] [OfNat F 1] in
/-- `SelectionProbability.__add__`, selection_probability.py:63-71: a fresh
`DummySelection` holding the conjunction.  (`self._selection` being `None` is
modelled as `TypeError`; popsynth never adds to an undrawn selection.) -/
def Selector.add (a b : Selector F G) : Except Err (Selector F G) := do
  let mb ← b.mask
  match a.selection with
  | none => .error .type
  | some ma =>
    let m ← logicalAnd ma mb
    pure { kind := .dummy, cls := "DummySelection", name := "dummy", selection := some m }

end Popsynth
