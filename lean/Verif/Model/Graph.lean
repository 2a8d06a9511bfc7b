import Verif.Model.Sampler

/-!
# The dependency graph: `PopulationSynth._build_graph` and the graph part of
`AuxiliarySampler.get_secondary_properties`

`nx.DiGraph` is modelled as insertion-ordered nodes with the attribute `observed`
(`none`: not given) and a list of directed edges without repetition.
-/

set_option autoImplicit false

namespace Popsynth

/-- `nx.DiGraph` with the node attribute `observed`. -/
structure Graph where
  nodes : Dict (Option Bool) := []
  edges : List (String × String) := []
  deriving DecidableEq

namespace Graph

/-- `graph.add_node(n)` / `graph.add_node(n, observed=b)`: adds the node if it is
missing; attributes given are updated. -/
def addNode (g : Graph) (n : String) (obs : Option Bool) : Graph :=
  match Dict.get? g.nodes n with
  | none => { g with nodes := Dict.set g.nodes n obs }
  | some _ => match obs with
    | none => g
    | some b => { g with nodes := Dict.set g.nodes n (some b) }

/-- `graph.add_edge(u, v)`: adds missing end points, then the edge if it is missing. -/
def addEdge (g : Graph) (u v : String) : Graph :=
  let g := (g.addNode u none).addNode v none
  if (u, v) ∈ g.edges then g else { g with edges := g.edges ++ [(u, v)] }

end Graph

variable {F G : Type}

/-- `get_secondary_properties(graph, primary, spatial_distribution)`,
auxiliary_sampler.py:452-504, as far as the graph is concerned (`_build_graph` drops
the returned storage).  Line 486 uses `self._graph`, an attribute samplers do not have:
`AttributeError`. -/
def graphSecs (h : Heap F G) : Nat → Nat → String → Py Graph Unit
  | 0, _, _ => raise .recursion
  | k + 1, i, primary =>
    if (h.samplers i).hasSecondary then
      forEach (h.samplers i).secondaries fun p => do
        modify fun g => (g.addNode p.1 (some false)).addEdge p.1 primary
        if (h.samplers p.2).isObserved then
          modify fun g => (g.addNode (h.samplers p.2).obsName (some false)).addEdge p.1
            (h.samplers p.2).obsName
        if (h.samplers p.2).usesDistance then raise .attribute
        graphSecs h k p.2 p.1
    else pure ()

/-- The configuration of a `PopulationSynth`, population_synth.py:57-125.
`_has_derived_luminosity` is true exactly when `_derived_luminosity_sampler` is set
(both are only assigned together, 816-823 and 156-158), so one option stands for
both. -/
structure Synth (F : Type) where
  name : String
  seed : Int
  spatialName : String
  lumName : Option String
  nModel : Nat := 500
  modelSpaces : Dict (List F) := []
  aux : Dict Nat := []
  derived : Option Nat := none
  fluxSel : Nat
  distSel : Nat
  spatSel : Option Nat := none
  fluxSelSet : Bool := false
  distSelSet : Bool := false
  /-- `_form` of the two distributions, distribution.py:50 -/
  spatialForm : String := ""
  lumForm : String := ""

/-- Lines 1512-1540: the part of `_build_graph` for a derived luminosity sampler. -/
def graphDerived (fuel : Nat) (y : Synth F) (h : Heap F G) (d : Nat) : Py Graph Unit := do
  modify fun g => (g.addNode (h.samplers d).name none).addEdge (h.samplers d).name "obs_flux"
  if (h.samplers d).usesDistance then
    modify fun g => g.addEdge y.spatialName (h.samplers d).name
  forEach (h.samplers d).secondaries fun p => do
    modify fun g => (g.addNode p.1 none).addEdge p.1 (h.samplers d).name
    graphSecs h fuel p.2 p.1

/-- Lines 1563-1582: one direct secondary of an attached sampler. -/
def graphAuxSec (fuel : Nat) (y : Synth F) (h : Heap F G) (k : String) (p : String × Nat) :
    Py Graph Unit := do
  modify fun g => (g.addEdge p.1 k).addNode p.1 (some false)
  if (h.samplers p.2).usesDistance then
    modify fun g => g.addEdge y.spatialName p.1
  if (h.samplers p.2).isObserved then
    modify fun g => (g.addNode (h.samplers p.2).obsName (some true)).addEdge p.1
      (h.samplers p.2).obsName
  graphSecs h fuel p.2 p.1

/-- Lines 1545-1582: one attached sampler. -/
def graphAux (fuel : Nat) (y : Synth F) (h : Heap F G) (kv : String × Nat) : Py Graph Unit := do
  pyAssert (!(h.samplers kv.2).isSecondary)
  modify fun g => g.addNode kv.1 (some false)
  if (h.samplers kv.2).isObserved then
    modify fun g => (g.addNode (h.samplers kv.2).obsName (some false)).addEdge kv.1
      (h.samplers kv.2).obsName
    if (h.samplers kv.2).usesDistance then
      modify fun g => g.addEdge y.spatialName kv.1
  forEach (h.samplers kv.2).secondaries (graphAuxSec fuel y h kv.1)

/-- `_build_graph`, population_synth.py:1501-1582, acting on `self._graph`.  Without
any luminosity source `self._luminosity_distribution.name` is an `AttributeError`. -/
def buildGraph (fuel : Nat) (y : Synth F) (h : Heap F G) : Py Graph Unit := do
  modify fun g => (g.addNode "obs_flux" (some true)).addEdge y.spatialName "obs_flux"
  match y.derived with
  | some d => graphDerived fuel y h d
  | none => match y.lumName with
    | none => raise .attribute
    | some l => modify fun g => g.addEdge l "obs_flux"
  forEach y.aux (graphAux fuel y h)

end Popsynth
