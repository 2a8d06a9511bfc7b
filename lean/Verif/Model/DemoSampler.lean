import Verif.Model.AuxSamplers

/-!
# The samplers of the test suite

`popsynth/test/test_basic.py:13-57` (and the same text in `test_populations.py:15-59`): a latent
normal quantity, and a derived luminosity sampler that depends on it and on the distance.
-/

set_option autoImplicit false

namespace Popsynth
variable {F G : Type}

/-- `self.<name>` in a class that declares `decl`. -/
def declAttr (decl : Dict (ParamDecl F)) (name : String) : Py (CodeSt F G) F := fun s =>
  match decl.get? name with
  | none => .error .attribute s
  | some d => match paramGet d name s.params with
    | .ok x o => .ok x { s with params := o }
    | .error e o => .error e { s with params := o }

/-- `np.random.normal(loc, scale, size)`: a negative scale is refused. -/
def npNormal (env : AuxEnv F G) (loc scale : F) (size : Nat) : Py (CodeSt F G) (List F) :=
  if env.lt scale (env.num 0) then raise .value
  else do
    let zs ← sampleRng (drawMany env.normal size)
    pure (zs.map fun z => env.add loc (env.mul scale z))

/-- An operation on two arrays: they must have the same length. -/
def elementwise (f : F → F → F) (a b : List F) : Except Err (List F) :=
  if a.length = b.length then .ok (List.zipWith f a b) else .error .value

/-- An attribute that is `None` cannot be computed with. -/
def operand (a : Option (List F)) : Except Err (List F) :=
  match a with
  | some x => .ok x
  | none => .error .type

/-- `DemoSampler`, test_basic.py:15-16. -/
def demoDecl (env : AuxEnv F G) : Dict (ParamDecl F) :=
  [("mu", { default := some (env.num 2) }),
   ("tau", { default := some (env.num 1), vmin := some (env.num 0) })]

/-- `DemoSampler.true_sampler`, test_basic.py:22-24. -/
def demoTrue (env : AuxEnv F G) (n : Nat) : Py (CodeSt F G) Unit := do
  let mu ← declAttr (demoDecl env) "mu"
  let tau ← declAttr (demoDecl env) "tau"
  let x ← npNormal env mu tau n
  setTrue x

/-- `DemoSampler`; `observation_sampler` is that of the base class (auxiliary_sampler.py:713-718). -/
def demoCode (env : AuxEnv F G) : SamplerCode F G where
  trueSampler := asCode fun _ n => demoTrue env n
  obsSampler := asCode fun _ _ => pure ()

/-- `DemoSampler2`, test_basic.py:29-31. -/
def demo2Decl (env : AuxEnv F G) : Dict (ParamDecl F) :=
  [("mu", { default := some (env.num 2) }),
   ("tau", { default := some (env.num 1), vmin := some (env.num 0) }),
   ("sigma", { default := some (env.num 1), vmin := some (env.num 0) })]

/-- `self._secondary_samplers["demo"]`. -/
def demoSecondary (v : SView F) : Except Err (Option (List F) × Option (List F)) :=
  match v.secs.get? "demo" with
  | some s => .ok s
  | none => .error .key

/-- `self._distance`: set by `set_spatial_values` only. -/
def demoDistance (v : SView F) : Except Err (List F) :=
  match v.spatial with
  | some s => .ok s.distance
  | none => .error .attribute

/-- `DemoSampler2.true_sampler`, test_basic.py:37-45. -/
def demo2True (env : AuxEnv F G) (v : SView F) (n : Nat) : Py (CodeSt F G) Unit := do
  let secondary ← liftE (demoSecondary v)
  let mu ← declAttr (demo2Decl env) "mu"
  let tau ← declAttr (demo2Decl env) "tau"
  let x ← npNormal env mu tau n
  let t ← liftE (operand secondary.1)
  let y ← liftE (elementwise env.add x t)
  let r ← liftE (demoDistance v)
  let z ← liftE (elementwise env.sub y (r.map fun d => env.log10 (env.add (env.num 1) d)))
  setTrue z

/-- `DemoSampler2.observation_sampler`, test_basic.py:47-51. -/
def demo2Obs (env : AuxEnv F G) (n : Nat) : Py (CodeSt F G) Unit := do
  let s ← get
  let t ← liftE (operand s.trueVals)
  let sigma ← declAttr (demo2Decl env) "sigma"
  let x ← npNormal env (env.num 0) sigma n
  let y ← liftE (elementwise env.add t x)
  modify fun s => { s with obsVals := some y }

/-- `DemoSampler2.compute_luminosity`, test_basic.py:53-57. -/
def demo2Luminosity (env : AuxEnv F G) (v : SView F) : Except Err (List F) := do
  let secondary ← demoSecondary v
  let t ← operand v.trueVals
  let u ← operand secondary.1
  elementwise env.div (t.map fun x => env.exp10 (env.add x (env.num 54))) u

/-- `DemoSampler2`. -/
def demo2Code (env : AuxEnv F G) : SamplerCode F G where
  trueSampler := asCode (demo2True env)
  obsSampler := asCode fun _ n => demo2Obs env n
  luminosity := demo2Luminosity env

/-- `DemoSampler()`, test_basic.py:18-20. -/
def demoNew (q : Nat) : Sampler F := newSampler "demo" "DemoSampler" false false false q

/-- `DemoSampler2()`, test_basic.py:33-35 with `DerivedLumAuxSampler.__init__`,
auxiliary_sampler.py:738-750: never observed. -/
def demo2New (q : Nat) : Sampler F := newSampler "demo2" "DemoSampler2" false false false q

end Popsynth
