import Verif.Model.AuxSamplers

/-!
# Specification vocabulary for the built-in samplers (C62)

The value of a parameter is what was stored, or else the default of its declaration.  A sampler
draws `n` objects by following the recipe for one object `n` times.
-/

set_option autoImplicit false

namespace Popsynth.Spec
variable {F G : Type}

/-- The value in force of a parameter: the stored one, or else the default. -/
def inForce (d : ParamDecl F) (name : String) (o : Obj F) : Option F :=
  match Dict.get? o.storage name with
  | some (some x) => some x
  | _ => d.default

/-- The parameters declared by the class have the values `V`. -/
def HasValues (env : AuxEnv F G) (k : AuxKind) (V : String → F) (o : Obj F) : Prop :=
  ∀ name d, Dict.get? (auxDecl env k) name = some d → inForce d name o = some (V name)

/-- Declared by the class. -/
def Declared (env : AuxEnv F G) (k : AuxKind) (name : String) : Prop :=
  name ∈ Dict.keys (auxDecl env k)

/-- `scale * z + loc` for a number `z` of the generator; the generator is not used for a scale
of zero. -/
def located (env : AuxEnv F G) (gen : G → F × G) (loc scale : F) (g : G) : F × G :=
  if env.eq scale (env.num 0) then (loc, g)
  else (env.add (env.mul (gen g).1 scale) loc, (gen g).2)

/-- Apply a function to a drawn number. -/
def through {α β : Type} (f : α → β) (gen : G → α × G) (g : G) : β × G := (f (gen g).1, (gen g).2)

/-- The exponent of the lower limit of the logarithmic truncated samplers: the natural logarithm,
or a low quantile if the limit is zero. -/
def lowExponent (env : AuxEnv F G) (V : String → F) : F :=
  if env.eq (V "lower") (env.num 0) then env.ppfLow (V "mu") (V "tau") else env.log (V "lower")

/-- The limits of the standard normal number for given limits of the exponent. -/
def stdLimit (env : AuxEnv F G) (V : String → F) (x : F) : F :=
  env.div (env.sub x (V "mu")) (V "tau")

/-- How one true value is drawn (not for the broken power law, whose uniform numbers are all
drawn before the Bernoulli trials). -/
def recipe (env : AuxEnv F G) (V : String → F) : AuxKind → G → F × G
  | .normal => located env env.normal (V "mu") (V "tau")
  | .logNormal => through env.exp (located env env.normal (V "mu") (V "tau"))
  | .log10Normal => through env.exp10 (located env env.normal (V "mu") (V "tau"))
  | .delta => fun g => (V "xp", g)
  | .truncNormal => located env
      (env.truncStd (stdLimit env V (V "lower")) (stdLimit env V (V "upper"))) (V "mu") (V "tau")
  | .truncLogNormal => through env.exp (located env
      (env.truncStd (stdLimit env V (lowExponent env V)) (stdLimit env V (env.log (V "upper"))))
      (V "mu") (V "tau"))
  | .truncLog10Normal => through env.exp10 (located env
      (env.truncStd (stdLimit env V (lowExponent env V)) (stdLimit env V (env.log10 (V "upper"))))
      (V "mu") (V "tau"))
  | .pareto => through (fun y => env.mul (env.add y (env.num 1)) (V "xmin")) (env.pareto (V "alpha"))
  | .powerLaw => through (env.plaw (V "xmin") (V "xmax") (V "alpha")) env.numbaUniform
  | .brokenPowerLaw => fun g => (V "xmin", g)
  | .viewingAngle => through (fun u => env.arccos (env.sub (env.num 1)
      (env.mul (env.sub (env.num 1) (env.cosDeg (V "max_angle"))) u))) env.uniform
  | .ra => through (env.mul (env.mul (env.num 2) env.pi)) env.uniform
  | .dec => through (fun u => env.arccos (env.sub (env.num 1) (env.mul (env.num 2) u))) env.uniform

variable [LE F]

/-- The drawn values are between the limits. -/
def Inside (gen : G → F × G) (lower upper : F) : Prop := ∀ g, lower ≤ (gen g).1 ∧ (gen g).1 ≤ upper

/-- Values with which the recipe can be followed. -/
def Usable (env : AuxEnv F G) (V : String → F) : AuxKind → Prop
  | .normal | .logNormal | .log10Normal => env.num 0 ≤ V "tau"
  | .delta | .powerLaw | .viewingAngle | .ra | .dec => True
  | .pareto => ¬ V "alpha" ≤ env.num 0
  | .truncNormal => env.num 0 ≤ V "tau" ∧
      (∀ x ∈ [V "lower", V "upper"],
        env.pyDiv (env.sub x (V "mu")) (V "tau") = .ok (stdLimit env V x)) ∧
      env.lt (stdLimit env V (V "lower")) (stdLimit env V (V "upper")) = true ∧
      Inside (recipe env V .truncNormal) (V "lower") (V "upper")
  | .truncLogNormal => env.num 0 ≤ V "tau" ∧
      env.lt (stdLimit env V (lowExponent env V)) (stdLimit env V (env.log (V "upper"))) = true ∧
      Inside (recipe env V .truncLogNormal) (V "lower") (V "upper")
  | .truncLog10Normal => env.num 0 ≤ V "tau" ∧
      env.lt (stdLimit env V (lowExponent env V)) (stdLimit env V (env.log10 (V "upper"))) = true ∧
      Inside (recipe env V .truncLog10Normal) (V "lower") (V "upper")
  | .brokenPowerLaw => ∃ w,
      env.bplWeight (V "xmin") (V "xbreak") (V "xmax") (V "alpha") (V "beta") = .ok w ∧
      env.num 0 ≤ w ∧ w ≤ env.num 1

end Popsynth.Spec
