import Verif.Props.Builtins
import Verif.Model.Selection
import Verif.Model.Populations
import Verif.Model.AuxSamplers
import Verif.Model.SpatialClasses

/-!
# C64: the declarations used elsewhere are those of the registered classes

Several models describe the same class statement as far as they need it.  They agree with the
class bodies of `Verif/Model/Builtins.lean`, whose parameters `C64_parameters` compares with the
documentation.
-/

set_option autoImplicit false
set_option linter.unusedSectionVars false
set_option linter.unusedSimpArgs false

namespace Popsynth

variable {F G : Type} [∀ n, OfNat F n] [LE F] [DecidableLE F]

/-- **C64 (selections).**  What the selectors of `Verif/Model/Selection.lean` read are the
parameters of the registered classes. -/
theorem C64_selection_declarations (half : F) :
    ∀ cls n d, (cls, n, d) ∈ [("BernoulliSelection", "probability", declProb half),
      ("BoxSelection", "vmin", declBox), ("BoxSelection", "vmax", declBox),
      ("LowerBound", "boundary", declBoundary), ("UpperBound", "boundary", declBoundary),
      ("HardFluxSelection", "boundary", declBoundary),
      ("SoftSelection", "boundary", declBoundary), ("SoftSelection", "strength", declStrength),
      ("SoftFluxSelection", "boundary", declBoundary),
      ("SoftFluxSelection", "strength", declStrength),
      ("GalacticPlaneSelection", "b_limit", declBLimit 90),
      ("DistanceSelection", "min_distance", declDistance),
      ("DistanceSelection", "max_distance", declDistance)] →
    ∃ k, Dict.get? (builtins half).sels cls = some k ∧ Dict.get? k.params n = some d := by
  intro cls n d h
  rw [builtins_sels]
  simp only [List.mem_cons, List.not_mem_nil, or_false, Prod.mk.injEq] at h
  rcases h with ⟨rfl, rfl, rfl⟩ | ⟨rfl, rfl, rfl⟩ | ⟨rfl, rfl, rfl⟩ | ⟨rfl, rfl, rfl⟩ |
    ⟨rfl, rfl, rfl⟩ | ⟨rfl, rfl, rfl⟩ | ⟨rfl, rfl, rfl⟩ | ⟨rfl, rfl, rfl⟩ | ⟨rfl, rfl, rfl⟩ |
    ⟨rfl, rfl, rfl⟩ | ⟨rfl, rfl, rfl⟩ | ⟨rfl, rfl, rfl⟩ | ⟨rfl, rfl, rfl⟩ <;>
  simp [Dict.get?, Dict.keys, asSel, classParams, bSelection, bBernoulli, bBox, bLower, bUpper,
    bSoft, bHardFlux, bSoftFlux, bSpatialSel, bGalacticPlane, bDistanceSel, declProb, declBox,
    declBoundary, declStrength, declBLimit, declDistance]

/-- **C64 (distributions of the ready-made populations).**  `distDecls` has the parameters of the
registered class for every class that a ready-made population uses. -/
theorem C64_population_declarations (half : F) (cls : String) (h : distDecls (F := F) cls ≠ []) :
    ∃ k, Dict.get? (builtins half).dists cls = some k ∧
      ∀ n, Dict.get? (distDecls cls) n = Dict.get? k.params n := by
  rw [builtins_dists]
  unfold distDecls at h ⊢
  split at h
  all_goals first
    | exact absurd rfl h
    | refine ⟨_, by simp [Dict.get?]; rfl, fun n => ?_⟩
      simp [asDist, classParams, Dict.keys, Dict.get?, bDistribution, bSpatial, bLuminosity,
        bSpherical, bConstantSpherical, bZPowerSpherical, bSpiralGalaxy, bFlatland, bCosmological,
        bSFR, bZPowerCosmo, bUniformCosmo, bBPL, bLogNormal, bLog10Normal, bPareto, bSchechter,
        bDelta, bLogUni] <;> grind

/-- The class of a kind of sampler. -/
def Spec.auxClass : AuxKind → String
  | .normal => "NormalAuxSampler"
  | .logNormal => "LogNormalAuxSampler"
  | .log10Normal => "Log10NormalAuxSampler"
  | .delta => "DeltaAuxSampler"
  | .truncNormal => "TruncatedNormalAuxSampler"
  | .truncLogNormal => "TruncatedLogNormalAuxSampler"
  | .truncLog10Normal => "TruncatedLog10NormalAuxSampler"
  | .pareto => "ParetoAuxSampler"
  | .powerLaw => "PowerLawAuxSampler"
  | .brokenPowerLaw => "BrokenPowerLawAuxSampler"
  | .viewingAngle => "ViewingAngleSampler"
  | .ra => "RASampler"
  | .dec => "DecSampler"

/-- **C64 (samplers).**  What the samplers of `Verif/Model/AuxSamplers.lean` read are the
parameters of their classes. -/
theorem C64_sampler_declarations (env : AuxEnv F G) (half : F)
    (hn : env.num 0 = 0 ∧ env.num 1 = 1 ∧ env.num 2 = 2 ∧ env.num 90 = 90 ∧ env.num 180 = 180)
    (a : AuxKind) :
    ∃ k, Dict.get? (builtinsSky half).samplers (Spec.auxClass a) = some k ∧
      ∀ n, Dict.get? (auxDecl env a) n = Dict.get? k.params n := by
  rw [builtinsSky_samplers, builtins_samplers]
  obtain ⟨h0, h1, h2, h90, h180⟩ := hn
  cases a <;> refine ⟨_, by simp [Dict.get?, Spec.auxClass]; rfl, fun n => ?_⟩ <;>
    simp [auxDecl, asSampler, classParams, Dict.keys, Dict.get?, bSampler, bNonObserved,
      bDeltaAux, bLogNormalAux, bLog10NormalAux, bNormalAux, bParetoAux, bPowerLawAux,
      bBrokenPowerLawAux, bTruncNormalAux, bTruncLogNormalAux, bTruncLog10NormalAux,
      bViewingAngle, bRA, bDec, bNamed, bUnnamed, normalParams, h0, h1, h2, h90, h180] <;> grind

/-- Natural numbers as real numbers. -/
@[reducible] noncomputable def Spec.realLit (n : Nat) : OfNat ℝ n := ⟨(n : ℝ)⟩

/-- **C64 (spatial distributions).**  What the spatial distributions over the real numbers read are
the parameters of their classes. -/
theorem C64_spatial_declarations (half : ℝ) (dv : ℝ → ℝ) (rate : Bool) (cls : String)
    (c : SpClass ℝ)
    (h : (cls, c) ∈ [("ConstantSphericalDistribution", constantSpherical),
      ("ZPowerSphericalDistribution", zpowerSpherical), ("SFRDistribution", sfr dv rate),
      ("ZPowerCosmoDistribution", zpowerCosmo dv rate),
      ("UniformCosmoDistribution", uniformCosmo dv rate), ("FlatlandDistribution", flatland),
      ("SpiralGalaxyDistribution", spiralGalaxy)]) :
    ∃ k, Dict.get? (@builtins ℝ Spec.realLit half).dists cls = some k ∧
      (∀ n, n ∈ Dict.keys k.params ↔ n = "r_max" ∨ n ∈ c.reads) ∧
      (∀ n ∈ Dict.keys k.params, Dict.get? k.params n = some (c.decl n)) := by
  have h0 : @OfNat.ofNat ℝ 0 (Spec.realLit 0) = 0 := by simp [Spec.realLit, OfNat.ofNat]
  have h1 : @OfNat.ofNat ℝ 1 (Spec.realLit 1) = 1 := by
    show ((1 : ℕ) : ℝ) = 1
    simp
  have h10 : @OfNat.ofNat ℝ 10 (Spec.realLit 10) = 10 := by
    show ((10 : ℕ) : ℝ) = 10
    simp
  rw [@builtins_dists ℝ Spec.realLit]
  simp only [List.mem_cons, List.not_mem_nil, or_false, Prod.mk.injEq] at h
  rcases h with ⟨rfl, rfl⟩ | ⟨rfl, rfl⟩ | ⟨rfl, rfl⟩ | ⟨rfl, rfl⟩ | ⟨rfl, rfl⟩ | ⟨rfl, rfl⟩ |
    ⟨rfl, rfl⟩ <;> refine ⟨_, by simp [Dict.get?]; rfl, fun n => ?_, ?_⟩ <;>
  simp [asDist, classParams, Dict.keys, Dict.get?, declTable, declRMaxR, constantSpherical,
    zpowerSpherical, sfr, zpowerCosmo, uniformCosmo, flatland, spiralGalaxy, bDistribution,
    bSpatial, bSpherical, bConstantSpherical, bZPowerSpherical, bSpiralGalaxy, bFlatland,
    bCosmological, bSFR, bZPowerCosmo, bUniformCosmo, h0, h1, h10] <;> grind

/-- A negative strength is refused, a positive one is not. -/
example : let conf (strength : Int) : Dict (PVal Int) := [("seed", .int 1),
      ("spatial distribution", .dict [("FlatlandDistribution", .dict [])]),
      ("flux selection", .dict [("SoftFluxSelection", .dict [("strength", .num strength)])])]
    outcome (fromDict (builtins 0) ConfigExample.conv (conf (-1))) = .error .runtime ∧
    ∃ y, outcome (fromDict (builtins 0) ConfigExample.conv (conf 2)) = .ok y ∧
      y.fluxSel.map (fun s => truthOf s.obj) = some [("strength", 2)] := ⟨rfl, _, rfl, rfl⟩

end Popsynth
