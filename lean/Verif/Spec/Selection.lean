import Verif.Model.Selection
import Verif.Spec.Param

/-!
# Specification vocabulary for selections (C05–C11)
-/

namespace Popsynth.Spec
variable {F G : Type}

/-- The quantity a value selector is documented to act on: the strongest flag
that is set, in the order flux, luminosity, observed value, distance.
`none` – no flag; `some none` – flag set but quantity never provided. -/
def source (d : SelData F) : Option (Option (List F)) :=
  if d.useFlux then some d.flux
  else if d.useLuminosity then some d.luminosity
  else if d.useObs then some d.obsValue
  else if d.useDistance then some d.distance
  else none

/-- The mask `m` selects exactly the entries of `vs` satisfying `P`. -/
def SelectsExactly (m : List Bool) (vs : List F) (P : F → Prop) : Prop :=
  m.length = vs.length ∧
    ∀ i (h1 : i < m.length) (h2 : i < vs.length), m[i] = true ↔ P vs[i]

/-- Object `i` is selected by the mask (false beyond its end). -/
def Selects (m : List Bool) (i : Nat) : Prop := m[i]? = some true

end Popsynth.Spec

namespace Popsynth
variable {F G : Type}

/-- User operations on one selector (selection_probability.py:77-133,
spatial_selection.py:24-35). -/
inductive SelOp (F : Type) where
  | select (size : Nat)
  | reset
  | setFlux (v : List F)
  | setObs (v : List F)
  | setDistance (v : List F)
  | setLuminosity (v : List F)
  | setSpatial (v : SpatialView F)
  | readMask

/-- Run an operation, keeping effects and dropping a caught exception. -/
def selStep [LE F] [DecidableLE F] [OfNat F 0] [OfNat F 1]
    (env : SelEnv F G) (half ninety : F) (showProgress : Bool) (s : SelSt F G) :
    SelOp F → SelSt F G
  | .select n => endState (selSelect env half ninety showProgress n s)
  | .reset => { s with sel := s.sel.reset }
  | .setFlux v => { s with sel := { s.sel with data := { s.sel.data with flux := some v } } }
  | .setObs v => { s with sel := { s.sel with data := { s.sel.data with obsValue := some v } } }
  | .setDistance v => { s with sel := { s.sel with data := { s.sel.data with distance := some v } } }
  | .setLuminosity v =>
    { s with sel := { s.sel with data := { s.sel.data with luminosity := some v } } }
  | .setSpatial v => { s with sel := { s.sel with data := { s.sel.data with spatial := some v } } }
  | .readMask => s

/-- A history of operations. -/
def selRun [LE F] [DecidableLE F] [OfNat F 0] [OfNat F 1]
    (env : SelEnv F G) (half ninety : F) (showProgress : Bool) (s : SelSt F G)
    (ops : List (SelOp F)) : SelSt F G :=
  ops.foldl (selStep env half ninety showProgress) s

end Popsynth
