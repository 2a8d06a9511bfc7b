import Verif.Model.SimVar
import Verif.Model.Sky
import Mathlib.Analysis.SpecialFunctions.Log.Basic

/-!
# Plots and displays of a population (`popsynth/population.py:925-1351`)

What is drawn on a matplotlib axis, in an ipyvolume figure and by IPython's `display`.  The
libraries are taken to show the values of an array given to them, which for a
`SimulatedVariable` are the observed ones.  Colours, sizes, transparencies and scales of the axes
are left out, except for the colour scale of the fluxes.
-/

set_option autoImplicit false

namespace Popsynth

/-- Something drawn on an axis: points with a label, an arrow, or a histogram of values. -/
inductive Artist (F : Type) where
  | points (label : Option String) (xs ys : List F)
  | arrow (x y dx dy : F)
  | bars (label : String) (xs : List F)
  deriving DecidableEq

/-- An axis: what was drawn on it and the limits that were set. -/
structure Axes (F : Type) where
  artists : List (Artist F) := []
  bottom : Option F := none
  right : Option F := none
  deriving DecidableEq

/-- Primitives. -/
structure PlotEnv (F : Type) where
  zero : F
  sub : F → F → F
  /-- the smallest of some numbers -/
  min : List F → F

section
variable {F : Type}

/-- `ax.scatter`: `ValueError` for different lengths. -/
def scatter (label : Option String) (xs ys : List F) : Py (Axes F) Unit := fun a =>
  if xs.length = ys.length then
    .ok () { a with artists := a.artists ++ [.points label xs ys] }
  else .error .value a

/-- `x.min()`: `ValueError` for an empty array. -/
def npMin (env : PlotEnv F) (xs : List F) : Except Err F :=
  if xs.isEmpty then .error .value else .ok (env.min xs)

/-- `min([self._fluxes.min(), self._fluxes.selected.min()])`, population.py:996, 1051. -/
def lowestFlux (env : PlotEnv F) (P : Population F) : Except Err F := do
  let a ← npMin env P.fluxes.obs
  let s ← (P.fluxes.toSVar .float).selected
  let b ← npMin env s.obs
  pure (env.min [a, b])

/-- `display_true_fluxes`, population.py:962-1004. -/
def displayTrueFluxes (env : PlotEnv F) (P : Population F) : Py (Axes F) Unit := do
  scatter (some "True flux") P.distances.obs P.fluxes.obs
  match lowestFlux env P with
  | .ok b => modify fun a => { a with bottom := some b }
  | .error .value => do
    let b ← liftE (npMin env P.fluxes.obs)
    modify fun a => { a with bottom := some b }
  | .error e => raise e

/-- `display_obs_fluxes`, population.py:1006-1056. -/
def displayObsFluxes (env : PlotEnv F) (P : Population F) : Py (Axes F) Unit :=
  if P.noDetection then pure ()
  else do
    let d ← liftE (P.distances.toSVar .float).selected
    let f ← liftE (P.fluxes.toSVar .float).selected
    scatter (some "Detected flux") d.obs f.obs
    let b ← liftE (lowestFlux env P)
    modify fun a => { a with bottom := some b, right := some P.rMax }

/-- The arrows of `display_fluxes`, 1089-1110: `zip` iterates over the observed values. -/
def drawArrows (env : PlotEnv F) : List F → List F → List F → Py (Axes F) Unit
  | start :: ss, stop :: ts, z :: zs => do
    modify fun a => { a with artists := a.artists ++ [.arrow z start env.zero (env.sub stop start)] }
    drawArrows env ss ts zs
  | _, _, _ => pure ()

/-- The values of what indexing returned. -/
def Got.values : Got F → List F
  | .scalar v => [v]
  | .var x => x.obs

/-- `display_fluxes`, population.py:1058-1112. -/
def displayFluxes (env : PlotEnv F) (withArrows : Bool) (P : Population F) : Py (Axes F) Unit := do
  displayTrueFluxes env P
  if !P.noDetection then displayObsFluxes env P
  if withArrows && !P.noDetection then
    let s ← liftE ((P.fluxes.toSVar .float).getItem (.mask P.selection))
    let f ← liftE (P.fluxes.toSVar .float).selected
    let d ← liftE (P.distances.toSVar .float).selected
    drawArrows env s.values f.obs d.obs

/-- `display_luminosities`, population.py:1114-1151. -/
def displayLuminosities (P : Population F) : Py (Axes F) Unit := do
  let d ← liftE (P.distances.toSVar .float).selected
  let l ← liftE (P.luminosities.toSVar .float).selected
  scatter none d.obs l.obs
  let d ← liftE (P.distances.toSVar .float).nonSelected
  let l ← liftE (P.luminosities.toSVar .float).nonSelected
  scatter none d.obs l.obs

/-- `ax.hist`. -/
def histogram (label : String) (xs : List F) : Py (Axes F) Unit :=
  modify fun a => { a with artists := a.artists ++ [.bars label xs] }

/-- `display_distances`, population.py:1304-1338. -/
def displayDistances (P : Population F) : Py (Axes F) Unit := do
  histogram "Total Pop." P.distances.obs
  let d ← liftE (P.distances.toSVar .float).selected
  histogram "Obs. Pop." d.obs

/-- Something shown by IPython. -/
inductive Shown (F : Type) where
  | counts (name : String) (detected objects : Nat)
  | title (s : String)
  | formula (s : Option String)
  | table (rows : List (String × Option F))
  deriving DecidableEq

/-- `display`, population.py:925-960; `lf` and `sp` are the parameters now (`None` has no
`items`: `AttributeError`). -/
def displayPopulation (P : Population F) (lf sp : Option (Dict (Option F))) :
    Py (List (Shown F)) Unit := do
  modify fun l => l ++ [.counts P.name (countTrue P.selection) P.fluxes.obs.length]
  match lf with
  | none => pure ()
  | some d => modify fun l => l ++ [.title "Luminosity Function", .formula P.lfForm, .table d]
  modify fun l => l ++ [.title "Spatial Function"]
  match sp with
  | none => raise .attribute
  | some d => modify fun l => l ++ [.formula P.spatialForm, .table d]

/-- The three numbers of `__repr__`, population.py:496-503. -/
def reprCounts (P : Population F) : Nat × Nat × Nat :=
  (P.nDetections + P.nNonDetections, P.nDetections, P.nNonDetections)

end

/-! ### Spheres -/

noncomputable section

/-- Position of a value between 0 and 1 on a colour scale: `Normalize` and `LogNorm` as used by
`array_to_cmap`, array_to_cmap.py:5-31 (a logarithmic scale needs positive values, `ValueError`
otherwise; if all values are equal the position is 0). -/
def arrayToCmap (values : List ℝ) (useLog : Bool) : Except Err (List ℝ) :=
  open Classical in
  match values.min?, values.max? with
  | some lo, some hi =>
    if lo = hi then .ok (values.map fun _ => 0)
    else if useLog then
      if 0 < lo then .ok (values.map fun v => (Real.log v - Real.log lo) / (Real.log hi - Real.log lo))
      else .error .value
    else .ok (values.map fun v => (v - lo) / (hi - lo))
  | _, _ => .error .value

/-- A sphere drawn in a figure: where and in which colour. -/
structure Marker where
  pos : ℝ × ℝ × ℝ
  colour : ℝ

/-- The figures made so far; ipyvolume draws into the last one. -/
abbrev Scene := List (List Marker)

/-- Draw into the current figure. -/
def Scene.draw (s : Scene) (ms : List Marker) : Scene :=
  match s.reverse with
  | [] => [ms]
  | f :: fs => (f ++ ms) :: fs |>.reverse

/-- The positions, `_create_sphere_variables`, population.py:1341-1351: `ValueError` for arrays
of different lengths. -/
def sphereVariables (distance theta phi : List ℝ) : Except Err (List (ℝ × ℝ × ℝ)) :=
  if distance.length = theta.length ∧ distance.length = phi.length then
    .ok (List.zipWith (fun d (a : ℝ × ℝ) => xyz d a.1 a.2) distance (List.zip theta phi))
  else .error .value

/-- `_display_sphere`, population.py:1153-1209.  The result says whether a figure is returned
(`None` otherwise); `fig` says whether one is given.  `useLog` is not used. -/
def displaySphere (fluxes distances theta phi : List ℝ) (transform : Option (ℝ → ℝ))
    (_useLog : Bool) (fig : Bool) : Py Scene Bool := do
  if fluxes.isEmpty then
    pure false
  else
    if !fig then modify fun s => s ++ [[]]
    let distance := transform.elim distances fun t => distances.map t
    let ps ← liftE (sphereVariables distance theta phi)
    let cs ← liftE (arrayToCmap fluxes true)
    modify fun s => s.draw (List.zipWith (fun p c => Marker.mk p c) ps cs)
    pure true

/-- `display_obs_fluxes_sphere`, population.py:1211-1240 (`fig` is one of the keyword arguments
passed on). -/
def displayObsSphere (P : Population ℝ) (transform : Option (ℝ → ℝ)) (useLog fig : Bool) :
    Py Scene Bool := do
  let theta ← liftE ((P.theta.toSVar .float).getItem (.mask P.selection))
  let phi ← liftE ((P.phi.toSVar .float).getItem (.mask P.selection))
  let f ← liftE (P.fluxes.toSVar .float).selected
  let d ← liftE (P.distances.toSVar .float).selected
  displaySphere f.obs d.obs theta.values phi.values transform useLog fig

/-- `display_hidden_fluxes_sphere`, population.py:1242-1271. -/
def displayHiddenSphere (P : Population ℝ) (transform : Option (ℝ → ℝ)) (useLog fig : Bool) :
    Py Scene Bool := do
  let theta ← liftE (P.theta.toSVar .float).nonSelected
  let phi ← liftE (P.phi.toSVar .float).nonSelected
  let f ← liftE (P.fluxes.toSVar .float).nonSelected
  let d ← liftE (P.distances.toSVar .float).nonSelected
  displaySphere f.obs d.obs theta.obs phi.obs transform useLog fig

/-- `display_flux_sphere`, population.py:1273-1302. -/
def displayFluxSphere (P : Population ℝ) (transform : Option (ℝ → ℝ)) (useLog : Bool) :
    Py Scene Bool := do
  let fig ← displayObsSphere P transform useLog false
  displayHiddenSphere P transform useLog fig

end

end Popsynth
