import Verif.Model.Luminosity
import Verif.Model.Distance
import Verif.Model.Builtins

/-!
# The luminosity distribution classes as code

`draw_luminosity` and `phi` of `popsynth/distributions/*.py` as methods: they read the parameters
of the object from its storage and take random numbers from the generator.  The formulas for one
object are those of `Verif.Model.Luminosity` and `Verif.Model.PowerLaw`.

A parameter that Python reads several times in one call is read once, at the first place (a
second reading returns the same and changes nothing, C01).  An array with an element that is not
a finite number is not an array of reals: the model stops with `ValueError` where Python carries
on with `nan` or `inf`.
-/

set_option autoImplicit false

namespace Popsynth

noncomputable section

/-- Random numbers and special functions of NumPy and SciPy. -/
structure LumEnv (G : Type) where
  /-- one uniform number in [0, 1) -/
  uniform : G → ℝ × G
  /-- one standard normal number -/
  normal : G → ℝ × G
  /-- one Bernoulli trial -/
  bern : ℝ → G → Bool × G
  /-- `scipy.special.gammaincinv` -/
  gammaincinv : ℝ → ℝ → Option ℝ

variable {G α : Type}

/-- The elements of a random array are drawn one after the other. -/
def lumNumbers (next : G → α × G) : Nat → G → List α × G
  | 0, g => ([], g)
  | n + 1, g =>
    let (x, g1) := next g
    let (xs, g2) := lumNumbers next n g1
    (x :: xs, g2)

/-- Draw an array of the given size. -/
def lumArray (next : G → α × G) (n : Nat) : Py (LumSt ℝ G) (List α) := fun s =>
  .ok (lumNumbers next n s.rng).1 { s with rng := (lumNumbers next n s.rng).2 }

/-- `self.n` for a parameter that the class body `b` declares. -/
def lumParam (b : Body ℝ) (n : String) : Py (Obj ℝ) ℝ := paramGet ((b.params.get? n).getD {}) n

/-- Run something on the parameter storage of the distribution. -/
def onLumParams {β : Type} (m : Py (Obj ℝ) β) : Py (LumSt ℝ G) β := fun s =>
  match m s.lum.params with
  | .ok a o => .ok a { s with lum := { s.lum with params := o } }
  | .error e o => .error e { s with lum := { s.lum with params := o } }

/-- An array of finite numbers. -/
def finiteAll : List (Option ℝ) → Except Err (List ℝ)
  | [] => .ok []
  | none :: _ => .error .value
  | some v :: rest => match finiteAll rest with
    | .ok vs => .ok (v :: vs)
    | .error e => .error e

/-- Apply a computation that may refuse to each element. -/
def allOk (f : ℝ → Except Err ℝ) : List ℝ → Except Err (List ℝ)
  | [] => .ok []
  | x :: xs => match f x with
    | .error e => .error e
    | .ok v => match allOk f xs with
      | .ok vs => .ok (v :: vs)
      | .error e => .error e

/-- `ParetoDistribution`, pareto_distribution.py:33-47. -/
def paretoLum (env : LumEnv G) : LumCode ℝ G where
  draw n := do
    let alpha ← onLumParams (lumParam bPareto "alpha")
    if alpha ≤ 0 then raise .value
    let us ← lumArray env.uniform n
    let lmin ← onLumParams (lumParam bPareto "Lmin")
    liftE (allOk (paretoDraw lmin alpha) us)
  phi l := do
    let lmin ← lumParam bPareto "Lmin"
    let alpha ← lumParam bPareto "alpha"
    liftE (finiteAll (l.map (paretoPhi .float lmin alpha)))

/-- `SchechterDistribution`, schechter_distribution.py:37-48. -/
def schechterLum (env : LumEnv G) : LumCode ℝ G where
  draw n := do
    let us ← lumArray env.uniform n
    let lmin ← onLumParams (lumParam bSchechter "Lmin")
    let alpha ← onLumParams (lumParam bSchechter "alpha")
    liftE (finiteAll (us.map (schechterDraw env.gammaincinv lmin alpha)))
  phi l := do
    let alpha ← lumParam bSchechter "alpha"
    let lmin ← lumParam bSchechter "Lmin"
    liftE (finiteAll (l.map (schechterPhi lmin alpha)))

/-- `LogNormalDistribution`, log_normal_distribution.py:35-43. -/
def logNormalLum (env : LumEnv G) : LumCode ℝ G where
  draw n := do
    let mu ← onLumParams (lumParam bLogNormal "mu")
    let tau ← onLumParams (lumParam bLogNormal "tau")
    if tau < 0 then raise .value
    let zs ← lumArray env.normal n
    liftE (allOk (logNormalDraw mu tau) zs)
  phi l := do
    let tau ← lumParam bLogNormal "tau"
    let mu ← lumParam bLogNormal "mu"
    liftE (finiteAll (l.map (logNormalPhi mu tau)))

/-- `Log10NormalDistribution`, log10_normal_distribution.py:33-43. -/
def log10NormalLum (env : LumEnv G) : LumCode ℝ G where
  draw n := do
    let mu ← onLumParams (lumParam bLog10Normal "mu")
    let tau ← onLumParams (lumParam bLog10Normal "tau")
    if tau < 0 then raise .value
    let zs ← lumArray env.normal n
    liftE (allOk (log10NormalDraw mu tau) zs)
  phi l := do
    let tau ← lumParam bLog10Normal "tau"
    let mu ← lumParam bLog10Normal "mu"
    liftE (finiteAll (l.map (log10NormalPhi mu tau)))

/-- `LogUniLuminiosityDistribution`, uniform_distribution.py:42-48. -/
def logUniLum (env : LumEnv G) : LumCode ℝ G where
  draw n := do
    let lmin ← onLumParams (lumParam bLogUni "Lmin")
    let lmax ← onLumParams (lumParam bLogUni "Lmax")
    if lmin ≤ 0 ∨ lmax ≤ lmin then raise .value
    let us ← lumArray env.uniform n
    liftE (allOk (logUniDraw lmin lmax) us)
  phi l := do
    let lmax ← lumParam bLogUni "Lmax"
    let lmin ← lumParam bLogUni "Lmin"
    liftE (finiteAll (l.map (logUniPhi lmin lmax)))

/-- `DeltaDistribution`, delta_distribution.py:32-58. -/
def deltaLum : LumCode ℝ G where
  draw n := do
    let lp ← onLumParams (lumParam bDelta "Lp")
    pure (deltaDraw lp n)
  phi l := do
    let lp ← lumParam bDelta "Lp"
    pure (l.map (deltaPhi lp))

/-- `BPLDistribution`, bpl_distribution.py:47-65 and `sample_bpl`, 133-171. -/
def bplLum (env : LumEnv G) : LumCode ℝ G where
  draw n := do
    let us ← lumArray env.uniform n
    let lmin ← onLumParams (lumParam bBPL "Lmin")
    let lbreak ← onLumParams (lumParam bBPL "Lbreak")
    let lmax ← onLumParams (lumParam bBPL "Lmax")
    let alpha ← onLumParams (lumParam bBPL "alpha")
    let beta ← onLumParams (lumParam bBPL "beta")
    match integratePl lmin lbreak lmax alpha beta with
    | none => raise .value
    | some (w1, _, _) =>
      if ¬ (0 ≤ w1 ∧ w1 ≤ 1) then raise .value
      let coins ← lumArray (env.bern w1) n
      let xs ← liftE (sampleBpl us coins lmin lbreak lmax alpha beta)
      liftE (finiteAll xs)
  phi l := do
    let lmin ← lumParam bBPL "Lmin"
    let lmax ← lumParam bBPL "Lmax"
    let lbreak ← lumParam bBPL "Lbreak"
    let alpha ← lumParam bBPL "alpha"
    let beta ← lumParam bBPL "beta"
    liftE (finiteAll (l.map (bplPhi .float lmin lbreak lmax alpha beta)))

end

end Popsynth
