import Verif.Model.PopulationFile

/-!
# The format of population files (C85)
-/

set_option autoImplicit false

namespace Popsynth
namespace Spec

variable {F : Type}

/-- Links that every file has: datasets with one number per object, the selection and groups. -/
def arrayLinks : List String := ["luminosities", "distances", "theta", "phi", "fluxes", "flux_obs"]
def groupLinks : List String :=
  ["spatial_params", "model_spaces", "auxiliary_quantities", "truth", "graph", "popsynth"]
def knownLinks : List String := ["known_distances", "known_distance_idx", "unknown_distance_idx"]

/-- Attributes that every file has. -/
def fileAttrs : List String := ["has_lf", "flux_sigma", "n_model", "r_max", "seed", "name", "spatial_form"]

/-- The names that reading a file looks at. -/
def formatLinks : List String :=
  arrayLinks ++ groupLinks ++ knownLinks ++ ["selection", "lf_params", "probability"]
def formatAttrs : List String := fileAttrs ++ ["lf_form"]

/-- The files differ only in the link `k`, which is `x` in `f'` (`none`: there is no link). -/
structure LinkChanged (f f' : H5File F) (k : String) (x : Option (H5 F)) : Prop where
  here : Dict.get? f'.tree k = x
  links : ∀ j, j ≠ k → Dict.get? f'.tree j = Dict.get? f.tree j
  attrs : ∀ j, Dict.get? f'.attrs j = Dict.get? f.attrs j

/-- The files differ only in that `f'` lacks the attribute `k`. -/
structure AttrGone (f f' : H5File F) (k : String) : Prop where
  here : Dict.get? f'.attrs k = none
  attrs : ∀ j, j ≠ k → Dict.get? f'.attrs j = Dict.get? f.attrs j
  links : ∀ j, Dict.get? f'.tree j = Dict.get? f.tree j

end Spec
end Popsynth
