import Verif.Model.Config
import Verif.Model.Populations

/-!
# The configuration of a ready-made population

What `to_dict` (population_synth.py:202-335) reads off a synth that was just made by a constructor
of `popsynth/populations`.  The `_seed` of a distribution (distribution.py:48) is read by nothing
in the package and does not appear.
-/

set_option autoImplicit false

namespace Popsynth

variable {F : Type}

/-- The class, parameters and `_is_rate` of a distribution object. -/
def DistObj.config (d : DistObj F) : CDist F :=
  { cls := d.cls, obj := d.obj, isRate := match d.isRate with
      | none => .none
      | some b => .bool b }

/-- A synth as its constructor leaves it, population_synth.py:39-122: no selections, no samplers. -/
def NewSynth.config (s : NewSynth F) : CSynth F :=
  { seed := s.seed, spatial := s.spatial.config, lum := s.luminosity.map (·.config) }

end Popsynth
