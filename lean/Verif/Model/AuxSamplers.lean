import Verif.Model.Sampler

/-!
# The built-in auxiliary samplers

`popsynth/aux_samplers/*.py`: the parameters they declare, `true_sampler`,
`observation_sampler` and `_compute_probability`.  Numbers, arithmetic and random generators are
parameters (`AuxEnv`), so the floating point numbers are covered.  Which parameters are read, in
which order, and what is computed from them is modelled; reading a parameter stores its default
(meta.py:44-70).
-/

set_option autoImplicit false

namespace Popsynth

/-- What the samplers use of Python, NumPy, SciPy and numba. -/
structure AuxEnv (F G : Type) where
  /-- numeric literals -/
  num : Nat → F
  /-- one standard normal number of NumPy's global generator -/
  normal : G → F × G
  /-- one uniform number in [0, 1) of NumPy's global generator -/
  uniform : G → F × G
  /-- one uniform number of numba's own generator -/
  numbaUniform : G → F × G
  /-- one standard normal number truncated to the given limits -/
  truncStd : F → F → G → F × G
  /-- one number of `np.random.pareto(a)` -/
  pareto : F → G → F × G
  /-- one trial of `stats.bernoulli.rvs(p)` -/
  bernoulli : F → G → Bool × G
  add : F → F → F
  sub : F → F → F
  mul : F → F → F
  /-- division of NumPy numbers -/
  div : F → F → F
  /-- division of Python numbers: `ZeroDivisionError`, recorded as `Err.value` -/
  pyDiv : F → F → Except Err F
  /-- `==` -/
  eq : F → F → Bool
  /-- `<` -/
  lt : F → F → Bool
  exp : F → F
  /-- `np.power(10, x)` -/
  exp10 : F → F
  log : F → F
  log10 : F → F
  arccos : F → F
  sin : F → F
  /-- `np.cos(np.deg2rad(x))` -/
  cosDeg : F → F
  pi : F
  /-- `stats.norm.ppf(1e-5, loc, scale)` -/
  ppfLow : F → F → F
  /-- `_sample_power_law` for one uniform number (plaw_aux_sampler.py:160-180) -/
  plaw : F → F → F → F → F
  /-- the first weight of `integrate_pl` (bpl_distribution.py:68-94) -/
  bplWeight : F → F → F → F → F → Except Err F
  /-- the inverse transform of one piece (bpl_distribution.py:157-169) -/
  bplPiece : F → F → F → F → F

/-- The classes in `popsynth/aux_samplers`. -/
inductive AuxKind where
  | normal | logNormal | log10Normal | delta
  | truncNormal | truncLogNormal | truncLog10Normal
  | pareto | powerLaw | brokenPowerLaw
  | viewingAngle | ra | dec
  deriving DecidableEq, Repr

/-- What sampler code works on: its parameter storage, `_true_values`, `_obs_values` and the
random generators. -/
structure CodeSt (F G : Type) where
  params : Obj F
  trueVals : Option (List F)
  obsVals : Option (List F)
  rng : G

variable {F G : Type}

/-- Run sampler code written in the effect monad. -/
def asCode (m : SView F → Nat → Py (CodeSt F G) Unit) (v : SView F) (n : Nat) (g : G) : SOut F G :=
  match m v n { params := v.params, trueVals := v.trueVals, obsVals := v.obsVals, rng := g } with
  | .ok _ s => { trueVals := s.trueVals, obsVals := s.obsVals, params := s.params, rng := s.rng }
  | .error e s =>
    { err := some e, trueVals := s.trueVals, obsVals := s.obsVals, params := s.params, rng := s.rng }

/-- Draw `n` numbers one after the other. -/
def drawMany {α : Type} (f : G → α × G) : Nat → G → List α × G
  | 0, g => ([], g)
  | n + 1, g =>
    let (x, g) := f g
    let (xs, g) := drawMany f n g
    (x :: xs, g)

/-- Consume random numbers. -/
def sampleRng {α : Type} (f : G → α × G) : Py (CodeSt F G) α := fun s =>
  .ok (f s.rng).1 { s with rng := (f s.rng).2 }

/-- The parameters each class declares, in order: normal_aux_sampler.py:9-11,
lognormal_aux_sampler.py:10-12 and 57-59, delta_aux_sampler.py:10-11,
trunc_normal_aux_sampler.py:10-14, trunc_lognormal_aux_sampler.py:10-14 and 83-87,
plaw_aux_sampler.py:12-14, 58-61 and 107-111, viewing_angle_sampler.py:9.  The sky samplers
declare none. -/
def auxDecl (env : AuxEnv F G) : AuxKind → Dict (ParamDecl F)
  | .normal | .logNormal | .log10Normal =>
    [("mu", { default := some (env.num 0) }),
     ("tau", { default := some (env.num 1), vmin := some (env.num 0) }),
     ("sigma", { default := some (env.num 1), vmin := some (env.num 0) })]
  | .delta =>
    [("xp", { default := some (env.num 0) }),
     ("sigma", { default := some (env.num 1), vmin := some (env.num 0) })]
  | .truncNormal =>
    [("mu", { default := some (env.num 0) }),
     ("tau", { default := some (env.num 1), vmin := some (env.num 0) }),
     ("lower", {}),
     ("upper", {}),
     ("sigma", { default := some (env.num 1), vmin := some (env.num 0) })]
  | .truncLogNormal | .truncLog10Normal =>
    [("mu", { default := some (env.num 0) }),
     ("tau", { default := some (env.num 1), vmin := some (env.num 0) }),
     ("lower", { vmin := some (env.num 0) }),
     ("upper", { vmin := some (env.num 0) }),
     ("sigma", { default := some (env.num 1), vmin := some (env.num 0) })]
  | .pareto =>
    [("xmin", { default := some (env.num 1), vmin := some (env.num 0) }),
     ("alpha", { default := some (env.num 1), vmin := some (env.num 0) }),
     ("sigma", { default := some (env.num 1), vmin := some (env.num 0) })]
  | .powerLaw =>
    [("xmin", { default := some (env.num 1), vmin := some (env.num 0) }),
     ("xmax", { default := some (env.num 2), vmin := some (env.num 0) }),
     ("alpha", { default := some (env.num 1) }),
     ("sigma", { default := some (env.num 1), vmin := some (env.num 0) })]
  | .brokenPowerLaw =>
    [("xmin", { vmin := some (env.num 0) }),
     ("alpha", {}),
     ("xbreak", { vmin := some (env.num 0) }),
     ("beta", {}),
     ("xmax", { vmin := some (env.num 0) })]
  | .viewingAngle =>
    [("max_angle", { default := some (env.num 90), vmin := some (env.num 0),
                     vmax := some (env.num 180) })]
  | .ra | .dec => []

/-- `self.<name>`: `AttributeError` if the class does not declare it. -/
def auxAttr (env : AuxEnv F G) (k : AuxKind) (name : String) : Py (CodeSt F G) F := fun s =>
  match (auxDecl env k).get? name with
  | none => .error .attribute s
  | some d => match paramGet d name s.params with
    | .ok x o => .ok x { s with params := o }
    | .error e o => .error e { s with params := o }

/-- `self._true_values = x`. -/
def setTrue (x : List F) : Py (CodeSt F G) Unit := modify fun s => { s with trueVals := some x }

variable [LE F] [DecidableLE F]

/-- `stats.norm.rvs(loc, scale, size)` where `loc` is an array of the right size or a number
repeated: a scale that is not at least zero is refused, a scale of zero returns the locations
without using random numbers. -/
def normRvs (env : AuxEnv F G) (loc : List F) (scale : F) (size : Nat) :
    Py (CodeSt F G) (List F) :=
  if loc.length ≠ size then raise .value
  else if env.num 0 ≤ scale then
    if env.eq scale (env.num 0) then pure loc
    else do
      let zs ← sampleRng (drawMany env.normal size)
      pure (List.zipWith (fun m z => env.add (env.mul z scale) m) loc zs)
  else raise .value

/-- `stats.truncnorm.rvs(a, b, loc, scale, size)`: the limits have to increase. -/
def truncnormRvs (env : AuxEnv F G) (a b loc scale : F) (size : Nat) : Py (CodeSt F G) (List F) :=
  if env.lt a b = true ∧ env.num 0 ≤ scale then
    if env.eq scale (env.num 0) then pure (List.replicate size loc)
    else do
      let zs ← sampleRng (drawMany (env.truncStd a b) size)
      pure (zs.map fun z => env.add (env.mul z scale) loc)
  else raise .value

/-- `assert np.alltrue(self._true_values >= self.lower)` and the same for the upper limit. -/
def assertLimits (env : AuxEnv F G) (k : AuxKind) (x : List F) : Py (CodeSt F G) Unit := do
  let lower ← auxAttr env k "lower"
  pyAssert (x.all fun v => decide (lower ≤ v))
  let upper ← auxAttr env k "upper"
  pyAssert (x.all fun v => decide (v ≤ upper))

/-- trunc_normal_aux_sampler.py:45-59. -/
def truncNormalCode (env : AuxEnv F G) (n : Nat) : Py (CodeSt F G) Unit := do
  let k := AuxKind.truncNormal
  let lower ← auxAttr env k "lower"
  let mu ← auxAttr env k "mu"
  let tau ← auxAttr env k "tau"
  let a ← liftE (env.pyDiv (env.sub lower mu) tau)
  let upper ← auxAttr env k "upper"
  let mu ← auxAttr env k "mu"
  let tau ← auxAttr env k "tau"
  let b ← liftE (env.pyDiv (env.sub upper mu) tau)
  let mu ← auxAttr env k "mu"
  let tau ← auxAttr env k "tau"
  let x ← truncnormRvs env a b mu tau n
  setTrue x
  assertLimits env k x

/-- The lower limit of the exponent, trunc_lognormal_aux_sampler.py:44-47 and 119-122. -/
def lowerLimit (env : AuxEnv F G) (k : AuxKind) : Py (CodeSt F G) F := do
  let lower ← auxAttr env k "lower"
  if env.eq lower (env.num 0) then
    let mu ← auxAttr env k "mu"
    let tau ← auxAttr env k "tau"
    pure (env.ppfLow mu tau)
  else
    let lower ← auxAttr env k "lower"
    pure (env.log lower)

/-- trunc_lognormal_aux_sampler.py:42-65 (`logUp = np.log`, `power = np.exp`) and 117-140
(`logUp = np.log10`, `power = 10 ** `). -/
def truncLogCode (env : AuxEnv F G) (k : AuxKind) (logUp power : F → F) (n : Nat) :
    Py (CodeSt F G) Unit := do
  let a ← lowerLimit env k
  let upper ← auxAttr env k "upper"
  let b := logUp upper
  let mu ← auxAttr env k "mu"
  let tau ← auxAttr env k "tau"
  let lo := env.div (env.sub a mu) tau
  let mu ← auxAttr env k "mu"
  let tau ← auxAttr env k "tau"
  let up := env.div (env.sub b mu) tau
  let mu ← auxAttr env k "mu"
  let tau ← auxAttr env k "tau"
  let x ← truncnormRvs env lo up mu tau n
  let x := x.map power
  setTrue x
  assertLimits env k x

/-- normal_aux_sampler.py:35-39. -/
def normalCode (env : AuxEnv F G) (n : Nat) : Py (CodeSt F G) Unit := do
  let mu ← auxAttr env .normal "mu"
  let tau ← auxAttr env .normal "tau"
  let x ← normRvs env (List.replicate n mu) tau n
  setTrue x

/-- lognormal_aux_sampler.py:35-39. -/
def logNormalCode (env : AuxEnv F G) (n : Nat) : Py (CodeSt F G) Unit := do
  let mu ← auxAttr env .logNormal "mu"
  let tau ← auxAttr env .logNormal "tau"
  let x ← normRvs env (List.replicate n mu) tau n
  setTrue (x.map env.exp)

/-- lognormal_aux_sampler.py:84-88. -/
def log10NormalCode (env : AuxEnv F G) (n : Nat) : Py (CodeSt F G) Unit := do
  let mu ← auxAttr env .log10Normal "mu"
  let tau ← auxAttr env .log10Normal "tau"
  let x ← normRvs env (List.replicate n mu) tau n
  setTrue (x.map env.exp10)

/-- delta_aux_sampler.py:35-37. -/
def deltaCode (env : AuxEnv F G) (n : Nat) : Py (CodeSt F G) Unit := do
  let xp ← auxAttr env .delta "xp"
  setTrue (List.replicate n xp)

/-- plaw_aux_sampler.py:38-40; `np.random.pareto` refuses an index that is not positive. -/
def paretoCode (env : AuxEnv F G) (n : Nat) : Py (CodeSt F G) Unit := do
  let alpha ← auxAttr env .pareto "alpha"
  if alpha ≤ env.num 0 then raise .value
  else
    let ys ← sampleRng (drawMany (env.pareto alpha) n)
    let xmin ← auxAttr env .pareto "xmin"
    setTrue (ys.map fun y => env.mul (env.add y (env.num 1)) xmin)

/-- plaw_aux_sampler.py:85-89. -/
def powerLawCode (env : AuxEnv F G) (n : Nat) : Py (CodeSt F G) Unit := do
  let xmin ← auxAttr env .powerLaw "xmin"
  let xmax ← auxAttr env .powerLaw "xmax"
  let alpha ← auxAttr env .powerLaw "alpha"
  let us ← sampleRng (drawMany env.numbaUniform n)
  setTrue (us.map (env.plaw xmin xmax alpha))

/-- plaw_aux_sampler.py:138-144 with `sample_bpl`, bpl_distribution.py:133-171. -/
def brokenPowerLawCode (env : AuxEnv F G) (n : Nat) : Py (CodeSt F G) Unit := do
  let us ← sampleRng (drawMany env.uniform n)
  let x0 ← auxAttr env .brokenPowerLaw "xmin"
  let x1 ← auxAttr env .brokenPowerLaw "xbreak"
  let x2 ← auxAttr env .brokenPowerLaw "xmax"
  let a1 ← auxAttr env .brokenPowerLaw "alpha"
  let a2 ← auxAttr env .brokenPowerLaw "beta"
  let w ← liftE (env.bplWeight x0 x1 x2 a1 a2)
  if env.num 0 ≤ w ∧ w ≤ env.num 1 then
    let cs ← sampleRng (drawMany (env.bernoulli w) us.length)
    setTrue (List.zipWith (fun u (c : Bool) =>
      if c then env.bplPiece x0 x1 a1 u else env.bplPiece x1 x2 a2 u) us cs)
  else raise .value

/-- viewing_angle_sampler.py:26-38. -/
def viewingAngleCode (env : AuxEnv F G) (n : Nat) : Py (CodeSt F G) Unit := do
  let m ← auxAttr env .viewingAngle "max_angle"
  let high := env.sub (env.num 1) (env.cosDeg m)
  let us ← sampleRng (drawMany env.uniform n)
  setTrue (us.map fun u => env.arccos (env.sub (env.num 1) (env.mul high u)))

/-- sky_sampler.py:62-64. -/
def raCode (env : AuxEnv F G) (n : Nat) : Py (CodeSt F G) Unit := do
  let us ← sampleRng (drawMany env.uniform n)
  setTrue (us.map fun u => env.mul (env.mul (env.num 2) env.pi) u)

/-- sky_sampler.py:79-83. -/
def decCode (env : AuxEnv F G) (n : Nat) : Py (CodeSt F G) Unit := do
  let us ← sampleRng (drawMany env.uniform n)
  setTrue (us.map fun u => env.arccos (env.sub (env.num 1) (env.mul (env.num 2) u)))

/-- `true_sampler` of each class. -/
def auxTrue (env : AuxEnv F G) : AuxKind → Nat → Py (CodeSt F G) Unit
  | .normal => normalCode env
  | .logNormal => logNormalCode env
  | .log10Normal => log10NormalCode env
  | .delta => deltaCode env
  | .truncNormal => truncNormalCode env
  | .truncLogNormal => truncLogCode env .truncLogNormal env.log env.exp
  | .truncLog10Normal => truncLogCode env .truncLog10Normal env.log10 env.exp10
  | .pareto => paretoCode env
  | .powerLaw => powerLawCode env
  | .brokenPowerLaw => brokenPowerLawCode env
  | .viewingAngle => viewingAngleCode env
  | .ra => raCode env
  | .dec => decCode env

/-- `self._obs_values = stats.norm.rvs(loc=self._true_values, scale=self.sigma, size=size)`. -/
def noisyObs (env : AuxEnv F G) (k : AuxKind) (n : Nat) : Py (CodeSt F G) Unit := do
  let sigma ← auxAttr env k "sigma"
  let s ← get
  match s.trueVals with
  | none => raise .type
  | some t => do
    let x ← normRvs env t sigma n
    modify fun s => { s with obsVals := some x }

/-- `observation_sampler`: normal_aux_sampler.py:41-51 and the same text in the other files; the
samplers that are never observed inherit auxiliary_sampler.py:716-718, which returns the true
values and stores nothing. -/
def auxObs (env : AuxEnv F G) (k : AuxKind) (v : SView F) (n : Nat) : Py (CodeSt F G) Unit :=
  match k with
  | .viewingAngle | .ra | .dec => pure ()
  | k =>
    if v.isObserved then noisyObs env k n
    else modify fun s => { s with obsVals := s.trueVals }

/-- `_compute_probability`: viewing_angle_sampler.py:40-44, otherwise
auxiliary_sampler.py:403-404.  The parameter has been stored by `true_sampler`. -/
def auxProb (env : AuxEnv F G) : AuxKind → SView F → Except Err (Option (List F))
  | .viewingAngle, v =>
    match outcome (paramGet { default := some (env.num 90) } "max_angle" v.params), v.trueVals with
    | .error e, _ => .error e
    | .ok _, none => .error .type
    | .ok m, some t => .ok (some (t.map fun x =>
        env.div (env.sin x) (env.sub (env.num 1) (env.cosDeg m))))
  | _, _ => .ok none

/-- A built-in sampler class. -/
def auxCode (env : AuxEnv F G) (k : AuxKind) : SamplerCode F G where
  trueSampler := asCode fun _ n => auxTrue env k n
  obsSampler := asCode (auxObs env k)
  prob := auxProb env k

/-- The name and observedness given by the constructors: `None` for a name that the user chooses
(normal_aux_sampler.py:13-33 and the same in the other files, viewing_angle_sampler.py:11-24,
sky_sampler.py:53-60 and 70-77). -/
def auxNew (k : AuxKind) (name : String) (observed : Bool) (q : Nat) : Sampler F :=
  match k with
  | .viewingAngle => newSampler "va" "ViewingAngleSampler" false false false q
  | .ra => newSampler "ra" "RASampler" false false false q
  | .dec => newSampler "dec" "DecSampler" false false false q
  | .normal => newSampler name "NormalAuxSampler" observed false false q
  | .logNormal => newSampler name "LogNormalAuxSampler" observed false false q
  | .log10Normal => newSampler name "Log10NormalAuxSampler" observed false false q
  | .delta => newSampler name "DeltaAuxSampler" observed false false q
  | .truncNormal => newSampler name "TruncatedNormalAuxSampler" observed false false q
  | .truncLogNormal => newSampler name "TruncatedLogNormalAuxSampler" observed false false q
  | .truncLog10Normal => newSampler name "TruncatedLog10NormalAuxSampler" observed false false q
  | .pareto => newSampler name "ParetoAuxSampler" observed false false q
  | .powerLaw => newSampler name "PowerLawAuxSampler" observed false false q
  | .brokenPowerLaw => newSampler name "BrokenPowerLawAuxSampler" observed false false q

end Popsynth
