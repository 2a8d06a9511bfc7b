import Verif.Model.BuiltinClasses
import Verif.Props.AuxSamplers
import Verif.Props.Declarations

/-!
# The samplers that a configuration names (C62)
-/

set_option autoImplicit false
set_option linter.unusedSectionVars false

namespace Popsynth
open Spec
variable {G : Type} (M : Machine G) {V : String → ℝ} {v : SView ℝ}

theorem smp_class (k : AuxKind) : M.classes.smp (auxClass k) = auxCode M.aux k := by
  cases k <;> rfl

theorem auxNew_class (k : AuxKind) (name : String) (observed : Bool) (q : Nat) :
    (auxNew k name observed q : Sampler ℝ).cls = auxClass k := by
  cases k <;> rfl

/-- **C62** (samplers by name): a sampler of a configuration draws by the recipe of the class that
the configuration names, as does a sampler that the user made from the class. -/
theorem C62_by_name {k : AuxKind} (hk : k ≠ .brokenPowerLaw) (hV : HasValues M.aux k V v.params)
    (hu : Usable M.aux V k) (n : Nat) (g : G) (name : String) (observed : Bool) (q : Nat) :
    ∀ cls, cls = auxClass k ∨ cls = (auxNew k name observed q : Sampler ℝ).cls →
      ((M.classes.smp cls).trueSampler v n g).err = none ∧
      ((M.classes.smp cls).trueSampler v n g).trueVals = some (drawMany (recipe M.aux V k) n g).1 ∧
      ((M.classes.smp cls).trueSampler v n g).rng = (drawMany (recipe M.aux V k) n g).2 := by
  intro cls hc
  have e : cls = auxClass k := hc.elim id fun h => h.trans (auxNew_class k name observed q)
  rw [e, smp_class]
  obtain ⟨h1, h2, h3, -⟩ := C62_true hk hV hu n g
  exact ⟨h1, h2, h3⟩

/-- **C62** (the broken power law by name). -/
theorem C62_by_name_broken (hV : HasValues M.aux .brokenPowerLaw V v.params) {w : ℝ}
    (hw : M.aux.bplWeight (V "xmin") (V "xbreak") (V "xmax") (V "alpha") (V "beta") = .ok w)
    (h0 : M.aux.num 0 ≤ w) (h1 : w ≤ M.aux.num 1) (n : Nat) (g : G) :
    ∃ t, ((M.classes.smp "BrokenPowerLawAuxSampler").trueSampler v n g).trueVals = some t ∧ t.length = n ∧
      ∀ (i : Nat) (u : ℝ) (c : Bool), (drawMany M.aux.uniform n g).1[i]? = some u →
        (drawMany (M.aux.bernoulli w) n (drawMany M.aux.uniform n g).2).1[i]? = some c →
        t[i]? = some (if c then M.aux.bplPiece (V "xmin") (V "xbreak") (V "alpha") u
          else M.aux.bplPiece (V "xbreak") (V "xmax") (V "beta") u) := by
  rw [show "BrokenPowerLawAuxSampler" = auxClass .brokenPowerLaw from rfl, smp_class]
  obtain ⟨us, cs, e1, e2, -, -, -, t, h3, h4, h5⟩ := C62_true_broken hV hw h0 h1 n g
  subst e1
  subst e2
  exact ⟨t, h3, h4, h5⟩

/-- A log-normal sampler of a configuration: the exponential of a normal number. -/
example (hV : HasValues M.aux .logNormal V v.params) (hu : M.aux.num 0 ≤ V "tau") (g : G) :
    ((M.classes.smp "LogNormalAuxSampler").trueSampler v 1 g).trueVals =
      some [(through M.aux.exp (located M.aux M.aux.normal (V "mu") (V "tau")) g).1] := by
  obtain ⟨-, h, -⟩ := C62_by_name M (k := .logNormal) (by simp) hV hu 1 g "" true 0 _ (Or.inl rfl)
  rw [show "LogNormalAuxSampler" = auxClass .logNormal from rfl, h]
  rfl

end Popsynth
