import Verif.Props.ReadyMade
import Verif.Model.BuiltinClasses

/-!
# The ready-made populations with the classes of the package (C71)
-/

set_option autoImplicit false

namespace Popsynth
open Spec
variable {G : Type}

/-- **C71 (classes of the package).** The classes of the package give the names that a ready-made
population shows. -/
theorem C71_names (M : Machine G) (c n : String) (h : (c, n) ∈ defaultNames) : M.classes.distName c = n := by
  simp only [defaultNames, List.mem_cons, Prod.mk.injEq, List.not_mem_nil, or_false] at h
  show (Dict.get? distNames c).getD "" = n
  rcases h with h | h | h | h | h | h | h | h | h | h <;> obtain ⟨rfl, rfl⟩ := h <;> decide

/-- **C71 (in memory, classes of the package).** -/
theorem C71_in_memory_builtin (M : Machine G) (free : FreeFlags) (r : Except Err (NewSynth ℝ)) (hr : ReadyMade free r)
    (s : NewSynth ℝ) (hs : r = .ok s) (at' : String → Nat) (sel : Role → Nat) (R : Registry ℝ) (fuel : Nat)
    (base : SurveyEnv ℝ G) (code : Nat → SamplerCode ℝ G) :
    (M.classes.synth at' sel s.config).name = s.name ∧ (M.classes.synth at' sel s.config).seed = s.seed ∧
    (M.classes.synth at' sel s.config).spatialName = s.spatial.name ∧
    (M.classes.synth at' sel s.config).lumName = s.luminosity.map (·.name) ∧
    (M.classes.env R fuel base code s.config).spatial =
      M.spatial s.spatial.cls (s.spatial.isRate.elim .none .bool) ∧
    ∀ l, s.luminosity = some l → (M.classes.env R fuel base code s.config).lum =
      (Dict.get? M.lums l.cls).getD deltaLum :=
  C71_in_memory free r hr s hs M.classes (C71_names M) at' sel R fuel base code

end Popsynth
