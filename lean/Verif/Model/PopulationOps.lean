import Verif.Model.SimVar

/-!
# What is done with a population: `to_stan_data`, `to_sub_population`, attributes
(`popsynth/population.py`)
-/

set_option autoImplicit false

namespace Popsynth

variable {F G : Type}

/-- The objects of the synth that populations refer to, as they are now. -/
structure Shared (F : Type) where
  lfParams : Dict (Option F)
  spatialParams : Dict (Option F)
  modelSpaces : Dict (List F)
  graph : Graph

/-- Those objects of a synth and its state; `Distribution.params` returns the live
parameter storage (distribution.py:84-90), `_model_spaces` and `_graph` are attributes of
the synth (population_synth.py:1391-1402). -/
def sharedOf (y : Synth F) (s : SurvSt F G) : Shared F :=
  { lfParams := s.lum.params.storage, spatialParams := s.sp.params.storage, modelSpaces := y.modelSpaces
    graph := s.graph }

/-! ### Properties, population.py:224-503 -/

namespace Population

/-- `model_spaces` as read now. -/
def spacesNow (P : Population F) (now : Shared F) : Option (Dict (List F)) :=
  P.modelSpaces.map (Ref.get now.modelSpaces)

/-- `luminosity_parameters`, 450-452. -/
def lumParamsNow (P : Population F) (now : Shared F) : Option (Dict (Option F)) :=
  P.lfParams.map (Ref.get now.lfParams)

/-- `spatial_parameters`, 485-494. -/
def spatialParamsNow (P : Population F) (now : Shared F) : Option (Dict (Option F)) :=
  P.spatialParams.map (Ref.get now.spatialParams)

/-- `graph`, 224-233. -/
def graphNow (P : Population F) (now : Shared F) : Option Graph :=
  P.graph.map (Ref.get now.graph)

end Population

/-! ### Stan, population.py:505-546 -/

/-- Entries of the Stan dictionary. -/
inductive StanVal (F : Type) where
  | int (n : Nat)
  | num (v : F)
  | arr (l : List F)
  | idx (l : List Nat)
  deriving DecidableEq

/-- `x.selected` of an attribute of a population, observed values. -/
def SimVar.pickObs (x : SimVar F) : Except Err (List F) := maskIndex x.obs x.selection

/-- Lines 511-529. -/
def stanCore (log10 : F → F) (P : Population F) (z flux : List F) : Dict (StanVal F) :=
  [("N", .int P.nDetections), ("Nz", .int P.knownDistances.length),
   ("Nnz", .int P.unknownIdx.length), ("z_obs", .arr z), ("known_z_obs", .arr P.knownDistances),
   ("z_idx", .idx (P.knownIdx.map (· + 1))), ("z_nidx", .idx (P.unknownIdx.map (· + 1))),
   ("r_obs", .arr z), ("known_r_obs", .arr P.knownDistances),
   ("r_idx", .idx (P.knownIdx.map (· + 1))), ("r_nidx", .idx (P.unknownIdx.map (· + 1))),
   ("log_flux_obs", .arr (flux.map log10)), ("flux_obs", .arr flux),
   ("flux_sigma", .num P.fluxSigma), ("z_max", .num P.rMax), ("r_max", .num P.rMax),
   ("N_model", .int P.nModel)]

/-- Lines 531-534. -/
def stanSpaces : Dict (List F) → Dict (StanVal F) → Dict (StanVal F)
  | [], d => d
  | (k, v) :: l, d => stanSpaces l (Dict.set d k (.arr v))

/-- Lines 536-538. -/
def stanAux (selection : List Bool) : Storage F → Dict (StanVal F) → Except Err (Dict (StanVal F))
  | [], d => .ok d
  | (k, v) :: l, d => do
    let o ← optArray v.obsVals
    let o ← maskIndex o selection
    stanAux selection l (Dict.set d (k ++ "_obs") (.arr o))

/-- An attribute that is `None` has no `items()`. -/
def optItems {α : Type} : Option α → Except Err α
  | some d => .ok d
  | none => .error .attribute

/-- `to_stan_data`, population.py:505-546. -/
def toStan (log10 : F → F) (now : Shared F) (P : Population F) : Except Err (Dict (StanVal F)) := do
  let z ← P.distances.pickObs
  let flux ← P.fluxes.pickObs
  let spaces ← optItems (P.spacesNow now)
  let aux ← optItems P.auxiliary
  stanAux P.selection aux (stanSpaces spaces (stanCore log10 P z flux))

/-! ### Sub-populations, population.py:828-923 -/

/-- Lines 855-864: the auxiliary quantities of the chosen objects. -/
def subAux (selection : List Bool) : Storage F → Except Err (Storage F)
  | [] => .ok []
  | (k, v) :: l => do
    let t ← optArray v.trueVals
    let t ← maskIndex t selection
    let o ← optArray v.obsVals
    let o ← maskIndex o selection
    let rest ← subAux selection l
    pure ((k, { v with trueVals := some t, obsVals := some o }) :: rest)

/-- `new_aux`, 855-868. -/
def subAuxOpt (selection : List Bool) : Option (Storage F) → Except Err (Option (Storage F))
  | none => .ok none
  | some q => do
    let q ← subAux selection q
    pure (some q)

/-- What the loop 870-889 accumulates. -/
structure SubKnown (F : Type) where
  itr : Nat := 0
  known : List F := []
  knownIdx : List Nat := []
  unknownIdx : List Nat := []

/-- The loop 875-889 from position `i` on.  `ofNat` turns the loop counter into a number
(`i in self._known_distances` compares it with the known distances). -/
def subKnown [DecidableEq F] (ofNat : Nat → F) (knownDistances distances : List F) :
    Nat → List Bool → SubKnown F → Except Err (SubKnown F)
  | _, [], a => .ok a
  | i, s :: ss, a => do
    let a ← if s then
        if ofNat i ∈ knownDistances then
          match distances[i]? with
          | some d => .ok { a with itr := a.itr + 1, known := a.known ++ [d]
                                   knownIdx := a.knownIdx ++ [a.itr] }
          | none => .error .index
        else .ok { a with itr := a.itr + 1, unknownIdx := a.unknownIdx ++ [a.itr] }
      else .ok a
    subKnown ofNat knownDistances distances (i + 1) ss a

/-- `_selector(self._probability)`, 890-896. -/
def subProb (selection : List Bool) : Option (SimVar F) → Except Err (Option (List F))
  | none => .ok none
  | some x => do
    let p ← maskIndex x.obs selection
    pure (some p)

/-- `to_sub_population`, population.py:828-923.  The synth dictionary is not passed on. -/
def toSub [DecidableEq F] (ofNat : Nat → F) (now : Shared F) (P : Population F) (observed : Bool) :
    Except Err (Population F) := do
  let selection := if observed then P.selection else notMask P.selection
  let aux ← subAuxOpt selection P.auxiliary
  let k ← subKnown ofNat P.knownDistances P.distances.obs 0 selection {}
  let prob ← subProb selection P.probability
  let lums ← maskIndex P.luminosities.obs selection
  let dist ← maskIndex P.distances.obs selection
  let fluxes ← maskIndex P.fluxes.latent selection
  let fluxObs ← maskIndex P.fluxes.obs selection
  let theta ← maskIndex P.theta.obs selection
  let phi ← maskIndex P.phi.obs selection
  mkPopulation
    { luminosities := lums, distances := dist, knownDistances := k.known, knownIdx := k.knownIdx
      unknownIdx := k.unknownIdx, fluxes, fluxObs
      selection := List.replicate (countTrue selection) true, fluxSigma := P.fluxSigma
      rMax := P.rMax, nModel := P.nModel, lfParams := P.lfParams, spatialParams := P.spatialParams
      spacesNow := (P.spacesNow now).getD [], modelSpaces := P.modelSpaces, seed := P.seed
      name := P.name, aux, truth := P.truth, graph := P.graph, theta, phi, popSynth := none
      probability := prob, spatialForm := P.spatialForm, lfForm := P.lfForm }

/-! ### Attributes -/

/-- `pop.k = v`, population.py:211-222. -/
def Population.assign (P : Population F) (k : String) (v : SimVar F) :
    Except Err (Population F) := do
  let a ← setAttr readOnlyNames P.protectedNames P.attrs k v
  pure { P with attrs := a }

/-- The public methods of `Population`, population.py:505-1304.  They are plain functions of
the class, so an instance attribute of the same name hides them. -/
def methodNames : List String :=
  ["to_stan_data", "writeto", "addto", "from_file", "from_group", "to_sub_population", "display",
   "display_true_fluxes", "display_obs_fluxes", "display_fluxes", "display_luminosities",
   "display_obs_fluxes_sphere", "display_hidden_fluxes_sphere", "display_flux_sphere",
   "display_distances"]

/-- What `pop.k` finds: properties come first, then the instance's attributes, then the
methods of the class. -/
inductive Found (F : Type) where
  | property
  | attr (x : SimVar F)
  | method
  | nothing

/-- Attribute lookup. -/
def Population.lookup (P : Population F) (k : String) : Found F :=
  if k ∈ readOnlyNames then .property
  else match Dict.get? P.attrs k with
    | some x => .attr x
    | none => if k ∈ methodNames then .method else .nothing

end Popsynth
