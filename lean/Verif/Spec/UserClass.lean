import Verif.Model.Builtins

/-!
# Specification vocabulary for class statements of users (C83)
-/

set_option autoImplicit false

namespace Popsynth.Spec

variable {F : Type}

/-- The method `m` is still to be written: some class of the line marks it abstract and no class
nearer to the front defines it. -/
def Pending (c : PyClass F) (m : String) : Prop :=
  ∃ front b back, c = front ++ b :: back ∧ m ∈ b.abstract ∧ ∀ x ∈ front, m ∉ x.defs

/-- The name of a class: that of the nearest body which states one. -/
inductive CalledName : PyClass F → String → Prop
  | own {b : Body F} {rest t} : b.tag = some t → CalledName (b :: rest) t
  | inherited {b : Body F} {rest t} : b.tag = none → CalledName rest t → CalledName (b :: rest) t

/-- `c` is the last class without pending methods that is called `t`. -/
def LastCalled (cs : List (PyClass F)) (t : String) (c : PyClass F) : Prop :=
  ∃ before after, cs = before ++ c :: after ∧ CalledName c t ∧ (∀ m, ¬ Pending c m) ∧
    ∀ d ∈ after, CalledName d t → ∃ m, Pending d m

variable [∀ n, OfNat F n] in
/-- The base classes of the package and what they leave to the user. -/
def duties : List (PyClass F × List String) :=
  [([bSpatial, bDistribution], ["differential_volume", "dNdV", "transform"]),
   ([bSpherical, bSpatial, bDistribution], ["dNdV"]),
   ([bCosmological, bSpatial, bDistribution], ["dNdV"]),
   ([bLuminosity, bDistribution], ["phi", "draw_luminosity"]),
   ([bSelection], ["draw"]),
   ([bSpatialSel, bSelection], ["draw"]),
   ([bSampler], ["true_sampler"]),
   ([bNonObserved, bSampler], ["true_sampler"]),
   ([bDerivedLum, bSampler], ["compute_luminosity", "true_sampler"])]

end Popsynth.Spec
