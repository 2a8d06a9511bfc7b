import Verif.Model.Sampler

/-!
# `popsynth/distribution.py`: `SpatialDistribution` and `LuminosityDistribution`

The density code of a distribution (`dNdV`, `differential_volume`,
`time_adjustment`) is arbitrary code acting on the parameter storage; the
integrator is an arbitrary adaptive rule that may only evaluate the integrand.
-/

set_option autoImplicit false

namespace Popsynth

/-- An adaptive quadrature rule such as `scipy.integrate.quad`, seen from
outside: evaluate the integrand at a point chosen from the values so far, any
finite number of times, then answer. -/
inductive QuadStrat (F : Type) where
  | done (v : F)
  | query (x : F) (k : F → QuadStrat F)

/-- Run a quadrature rule on an integrand with side effects. -/
def QuadStrat.run {σ F : Type} (f : F → Py σ F) : QuadStrat F → Py σ F
  | .done v => pure v
  | .query x k => do
    let y ← f x
    (k y).run f

/-- Primitives used by the distributions (numpy, scipy), as parameters. -/
structure DistEnv (F G : Type) where
  /-- `np.random.uniform(low=0, high=h)`; may raise for non-finite ranges -/
  uniform : F → G → Except Err F × G
  /-- `integrate.quad(·, 0, hi)[0]` -/
  quad : F → QuadStrat F
  /-- `np.linspace(0, hi, 500)` -/
  grid : F → List F
  /-- `np.max` -/
  npMax : List F → F
  div : F → F → F
  lt : F → F → Bool
  /-- `u ↦ arccos(1 - 2u)` -/
  thetaOf : F → F
  twoPi : F
  /-- the default of `r_max` (distribution.py:164) -/
  ten : F
  /-- bound on the number of trials of one `while` loop; the Python loop has none -/
  budget : Nat

/-- A spatial distribution object (distribution.py:45-52, 178-179, 375, 385). -/
structure Spat (F : Type) where
  params : Obj F := {}
  distances : Option (List F) := none
  theta : Option (List F) := none
  phi : Option (List F) := none
  probability : Option (List F) := none

/-- A spatial distribution together with the random state it draws from. -/
structure SpSt (F G : Type) where
  sp : Spat F
  rng : G

/-- The density of a spatial distribution,
`dNdV(r) * differential_volume(r) / time_adjustment(r)` (distribution.py:313-317),
called with a number and with an array. -/
structure DensityCode (F : Type) where
  at' : F → Py (Obj F) F
  onArr : List F → Py (Obj F) (List F)

/-- A class whose density reads the parameters `reads` (in this order) and then
computes a pure function of them; all built-in classes have this form. -/
structure SpClass (F : Type) where
  decl : String → ParamDecl F
  reads : List String
  dens : List F → F → F

variable {F G : Type}

/-- Read parameters one after the other. -/
def readAll (decl : String → ParamDecl F) : List String → Py (Obj F) (List F)
  | [] => pure []
  | n :: ns => do
    let v ← paramGet (decl n) n
    let vs ← readAll decl ns
    pure (v :: vs)

/-- The density code of such a class (arrays: one read of the parameters, then
elementwise). -/
def SpClass.code (c : SpClass F) : DensityCode F where
  at' r := do
    let vs ← readAll c.decl c.reads
    pure (c.dens vs r)
  onArr rs := do
    let vs ← readAll c.decl c.reads
    pure (rs.map (c.dens vs))

/-- Run something on the parameter storage of the distribution. -/
def onParams {α : Type} (m : Py (Obj F) α) : Py (SpSt F G) α := fun s =>
  match m s.sp.params with
  | .ok a o => .ok a { s with sp := { s.sp with params := o } }
  | .error e o => .error e { s with sp := { s.sp with params := o } }

/-- `normalization_parameter` getter, distribution.py:54-57 (only used when
`_normalization_parameter` is not `None`). -/
def getNorm : Py (Obj F) (Option F) := fun o =>
  match o.norm with
  | none => .error .key o
  | some n => match o.storage.get? n with
    | none => .error .key o
    | some v => .ok v o

/-- `normalization_parameter` setter, distribution.py:59-61: writes the storage
directly, without the bounds check of the descriptor. -/
def setNorm (v : Option F) : Py (Obj F) Unit := fun o =>
  match o.norm with
  | none => .ok () o
  | some n => .ok () { o with storage := o.storage.set n v }

section
variable [OfNat F 0] [OfNat F 1]

/-- `r_max = DistributionParameter(vmin=0, default=10)`, distribution.py:164. -/
def declRMax (env : DistEnv F G) : ParamDecl F := { default := some env.ten, vmin := some 0 }

/-- `self.r_max`. -/
def readRMax (env : DistEnv F G) : Py (Obj F) F := paramGet (declRMax env) "r_max"

omit [OfNat F 0] in
/-- Lines 323-326 and 380-383: if there is a normalization parameter remember it
in `old_value` and set it to one.  `old` is the local variable before (`none` is
unbound). -/
def pushNorm (old : Option (Option F)) : Py (Obj F) (Option (Option F)) := fun o =>
  match o.norm with
  | none => .ok old o
  | some _ => match getNorm o with
    | .error e o => .error e o
    | .ok v o => match setNorm (some 1) o with
      | .error e o => .error e o
      | .ok _ o => .ok (some v) o

omit [OfNat F 0] [OfNat F 1] in
/-- Lines 332-334 and 387-389: if there is (now) a normalization parameter set it
back to `old_value`. -/
def popNorm (old : Option (Option F)) : Py (Obj F) Unit := fun o =>
  match o.norm with
  | none => .ok () o
  | some _ => match old with
    | none => .error .unboundLocal o
    | some v => setNorm v o

/-- Lines 319-338: the integral used for normalization; `none` when `normalize` is
false.  Also returns the local variable `old_value`. -/
def normBlock (env : DistEnv F G) (code : DensityCode F) (normalize : Bool) :
    Py (Obj F) (Option F × Option (Option F)) :=
  if normalize then do
    let old ← pushNorm none
    let rm ← readRMax env
    let i ← (env.quad rm).run code.at'
    popNorm old
    pure (some i, old)
  else pure (none, none)

omit [OfNat F 0] [OfNat F 1] in
/-- `dNdr_norm(r)`, line 330 or 338. -/
def normAt (env : DistEnv F G) (code : DensityCode F) (i : Option F) (r : F) : Py (Obj F) F := do
  let v ← code.at' r
  pure (match i with
    | none => v
    | some x => env.div v x)

omit [OfNat F 0] [OfNat F 1] in
/-- `dNdr_norm` of an array. -/
def normArr (env : DistEnv F G) (code : DensityCode F) (i : Option F) (rs : List F) :
    Py (Obj F) (List F) := do
  let v ← code.onArr rs
  pure (match i with
    | none => v
    | some x => v.map fun y => env.div y x)

omit [OfNat F 0] [OfNat F 1] in
/-- `np.random.uniform(low=0, high=hi)`. -/
def drawUniform (env : DistEnv F G) (hi : F) : Py (SpSt F G) F := fun s =>
  match env.uniform hi s.rng with
  | (.ok v, g) => .ok v { s with rng := g }
  | (.error e, g) => .error e { s with rng := g }

omit [OfNat F 0] [OfNat F 1] in
/-- The loop of lines 353-368 (and of rejection_sample.py:19-34) for one object:
`xmax` is how the upper limit is obtained in each trial, `f` the function compared
with. -/
def rejectOne (env : DistEnv F G) (ymax : F) (xmax : Py (Obj F) F) (f : F → Py (Obj F) F) :
    Nat → Py (SpSt F G) F
  | 0 => raise .diverge
  | k + 1 => do
    let y ← drawUniform env ymax
    let hi ← onParams xmax
    let r ← drawUniform env hi
    let d ← onParams (f r)
    if env.lt y d then pure r else rejectOne env ymax xmax f k

omit [OfNat F 0] [OfNat F 1] in
/-- The loop over the objects, line 352 and rejection_sample.py:17. -/
def rejectMany (env : DistEnv F G) (ymax : F) (xmax : Py (Obj F) F) (f : F → Py (Obj F) F) :
    Nat → Py (SpSt F G) (List F)
  | 0 => pure []
  | n + 1 => do
    let r ← rejectOne env ymax xmax f env.budget
    let rs ← rejectMany env ymax xmax f n
    pure (r :: rs)

/-- Lines 351-373: with a progress bar the loop is in `draw_distance` and compares
with `dNdr_norm`, reading `r_max` in each trial; without it `rejection_sample` gets
`dNdr` and `r_max` once. -/
def drawRadii (env : DistEnv F G) (code : DensityCode F) (showProgress : Bool)
    (i : Option F) (ymax : F) (size : Nat) : Py (SpSt F G) (List F) :=
  if showProgress then
    rejectMany env ymax (readRMax env) (normAt env code i) size
  else do
    let rm ← onParams (readRMax env)
    rejectMany env ymax (pure rm) code.at' size

/-- `draw_distance(size, normalize)`, distribution.py:304-389. -/
def drawDistance (env : DistEnv F G) (code : DensityCode F) (showProgress : Bool)
    (size : Nat) (normalize : Bool) : Py (SpSt F G) Unit := do
  -- 319-338
  let (i, old) ← onParams (normBlock env code normalize)
  -- 341-344
  let rm ← onParams (readRMax env)
  let ys ← onParams (normArr env code i (env.grid rm))
  let ymax := env.npMax ys
  -- 347-375
  let rs ← drawRadii env code showProgress i ymax size
  modify fun s => { s with sp := { s.sp with distances := some rs } }
  -- 380-389
  let old ← onParams (pushNorm old)
  let p ← onParams (normArr env code i rs)
  modify fun s => { s with sp := { s.sp with probability := some p } }
  onParams (popNorm old)

omit [OfNat F 0] [OfNat F 1] in
/-- `np.random.uniform(0, hi, size=n)`: successive draws. -/
def uniformMany (env : DistEnv F G) (hi : F) : Nat → Py (SpSt F G) (List F)
  | 0 => pure []
  | n + 1 => do
    let v ← drawUniform env hi
    let vs ← uniformMany env hi n
    pure (v :: vs)

omit [OfNat F 0] in
/-- `draw_sky_positions(size)`, distribution.py:293-302 with
`sample_theta_phi`, spherical_geometry.py:4-13. -/
def drawSky (env : DistEnv F G) (size : Nat) : Py (SpSt F G) Unit := do
  let us ← uniformMany env 1 size
  let ps ← uniformMany env env.twoPi size
  modify fun s => { s with sp := { s.sp with theta := some (us.map env.thetaOf), phi := some ps } }

omit [OfNat F 0] [OfNat F 1] in
/-- population_synth.py:1004-1008: restore only if `old_value` is not `None`. -/
def restoreNorm : Option (Option F) → Py (Obj F) Unit
  | some (some v) => setNorm (some v)
  | _ => pure ()

/-- The Poisson mean of `draw_survey`, population_synth.py:976-1025.  Here
`old_value` is initialised to `None`. -/
def expectedCount (env : DistEnv F G) (code : DensityCode F) (normalize : Bool) : Py (Obj F) F :=
  if normalize then do
    let old ← pushNorm (some none)
    let rm ← readRMax env
    let i ← (env.quad rm).run code.at'
    restoreNorm old
    let rm ← readRMax env
    (env.quad rm).run (normAt env code (some i))
  else do
    let rm ← readRMax env
    (env.quad rm).run code.at'

end

/-- A luminosity distribution object (distribution.py:45-52). -/
structure Lum (F : Type) where
  params : Obj F := {}
  probability : Option (List F) := none

/-- A luminosity distribution together with the random state it draws from. -/
structure LumSt (F G : Type) where
  lum : Lum F
  rng : G

/-- The overridable methods of a luminosity distribution, distribution.py:413-434. -/
structure LumCode (F G : Type) where
  draw : Nat → Py (LumSt F G) (List F)
  phi : List F → Py (Obj F) (List F)

/-- `compute_probability(L)`, distribution.py:436-438. -/
def computeLumProbability (c : LumCode F G) (l : List F) : Py (LumSt F G) Unit := fun s =>
  match c.phi l s.lum.params with
  | .ok p o => .ok () { s with lum := { params := o, probability := some p } }
  | .error e o => .error e { s with lum := { s.lum with params := o } }

end Popsynth
