import Verif.Model.Hdf5
import Verif.Model.PopulationOps

/-!
# Writing populations to HDF5 and reading them, population.py:548-826

A file or group handle has attributes and links.
Numbers are assumed to survive the file (they are stored in full precision).
-/

set_option autoImplicit false

namespace Popsynth

variable {F : Type}

/-- Attribute values: `np.string_(s)` is a bytes object, written here as its text. -/
inductive Attr (F : Type) where
  | bytes (s : String)
  | bool (b : Bool)
  | int (i : Int)
  | num (v : F)

/-- A file or group handle. -/
structure H5File (F : Type) where
  attrs : Dict (Attr F) := []
  tree : Tree F := []

/-- `f.create_dataset(k, data=np.array([v]))` for all parameters, 586-600: an array with
`None` has no HDF5 type. -/
def writeParams (chk : Leaf F → Except Err Unit) (grp : String) :
    List (String × Option F) → Tree F → Except Err (Tree F)
  | [], g => .ok g
  | (_, none) :: _, _ => .error .type
  | (k, some v) :: l, g => do
    let g ← put chk g (grp :: comps k) (.arr [v])
    writeParams chk grp l g

/-- Lines 646-654. -/
def writeAux (chk : Leaf F → Except Err Unit) :
    List (String × SecC F) → Tree F → Except Err (Tree F)
  | [], g => .ok g
  | (k, v) :: l, g => do
    let g ← create (.group []) g ("auxiliary_quantities" :: comps k)
    let t ← optArray v.trueVals
    let g ← put chk g ("auxiliary_quantities" :: comps k ++ ["true_values"]) (.arr t)
    let o ← optArray v.obsVals
    let g ← put chk g ("auxiliary_quantities" :: comps k ++ ["obs_values"]) (.arr o)
    writeAux chk l g

/-- Lines 658-660. -/
def writeSpaces (chk : Leaf F → Except Err Unit) :
    List (String × List F) → Tree F → Except Err (Tree F)
  | [], g => .ok g
  | (k, v) :: l, g => do
    let g ← put chk g ("model_spaces" :: comps k) (.arr v)
    writeSpaces chk l g

/-- `nx.to_dict_of_dicts(graph)`: successors of every node; edges have no data. -/
def Graph.toDicts (g : Graph) : List (String × GDict) :=
  g.nodes.map fun n =>
    (n.1, .dict ((g.edges.filter (fun e => e.1 = n.1)).map fun e => (e.2, .dict [])))

/-- The truth dictionary as plain data. -/
def truthVal (t : Dict (Dict F)) : List (String × PVal F) :=
  t.map fun p => (p.1, .dict (p.2.map fun q => (q.1, .num q.2)))

/-- `np.string_(s)`; `None` becomes the text `None`. -/
def formBytes : Option String → Attr F
  | some s => .bytes s
  | none => .bytes "None"

/-- Attributes and the luminosity function, 592-607. -/
def writeLf (chk : Leaf F → Except Err Unit) (lf : Option (Dict (Option F))) (form : Option String)
    (f : H5File F) : Except Err (H5File F) :=
  match lf with
  | some l => do
    let g ← create (.group []) f.tree ["lf_params"]
    let g ← writeParams chk "lf_params" l g
    .ok { tree := g, attrs := Dict.set (Dict.set f.attrs "lf_form" (formBytes form)) "has_lf" (.bool true) }
  | none => .ok { f with attrs := Dict.set f.attrs "has_lf" (.bool false) }

/-- Lines 609-614. -/
def writeAttrs (P : Population F) (a : Dict (Attr F)) : Dict (Attr F) :=
  let a := Dict.set a "name" (.bytes P.name)
  let a := Dict.set a "spatial_form" (formBytes P.spatialForm)
  let a := Dict.set a "flux_sigma" (.num P.fluxSigma)
  let a := Dict.set a "n_model" (.int P.nModel)
  let a := Dict.set a "r_max" (.num P.rMax)
  Dict.set a "seed" (.int P.seed)

/-- Lines 616-619, with the name as it is spelt there. -/
def writeProb (chk : Leaf F → Except Err Unit) (p : Option (SimVar F)) (g : Tree F) :
    Except Err (Tree F) :=
  match p with
  | some p => put chk g ["probabilty"] (.arr p.obs)
  | none => .ok g

/-- Lines 621-642: datasets of simulated variables hold the observed values. -/
def writeArrays (chk : Leaf F → Except Err Unit) (P : Population F) (g : Tree F) :
    Except Err (Tree F) := do
  let g ← put chk g ["luminosities"] (.arr P.luminosities.obs)
  let g ← put chk g ["distances"] (.arr P.distances.obs)
  let g ← put chk g ["known_distances"] (.arr P.knownDistances)
  let g ← put chk g ["known_distance_idx"] (.idx P.knownIdx)
  let g ← put chk g ["unknown_distance_idx"] (.idx P.unknownIdx)
  let g ← put chk g ["fluxes"] (.arr P.fluxes.latent)
  let g ← put chk g ["flux_obs"] (.arr P.fluxes.obs)
  let g ← put chk g ["selection"] (.mask P.selection)
  let g ← put chk g ["theta"] (.arr P.theta.obs)
  put chk g ["phi"] (.arr P.phi.obs)

/-- `dic.items()` of the stored population synth. -/
def pvItems : Option (PVal F) → Except Err (List (String × PVal F))
  | some (.dict d) => .ok d
  | _ => .error .attribute

/-- `Population._writeto` on an empty file or group, 577-670. -/
def writePop (chk : Leaf F → Except Err Unit) (now : Shared F) (P : Population F) :
    Except Err (H5File F) := do
  let g ← create (.group []) [] ["spatial_params"]
  let sp ← optItems (P.spatialParamsNow now)
  let g ← writeParams chk "spatial_params" sp g
  let f ← writeLf chk (P.lumParamsNow now) P.lfForm { tree := g }
  let g ← writeProb chk P.probability f.tree
  let g ← writeArrays chk P g
  let g ← create (.group []) g ["auxiliary_quantities"]
  let aux ← optItems P.auxiliary
  let g ← writeAux chk aux g
  let g ← create (.group []) g ["model_spaces"]
  let ms ← optItems (P.spacesNow now)
  let g ← writeSpaces chk ms g
  let g ← saveItems chk g ["truth"] (truthVal P.truth)
  let gr ← optItems (P.graphNow now)
  let g ← saveItems chk g ["graph"] (fillItems gr.toDicts)
  let ps ← pvItems P.popSynth
  let g ← saveItems chk g ["popsynth"] ps
  .ok { attrs := writeAttrs P f.attrs, tree := g }

/-! ### Reading -/

/-- `f[name]`. -/
def item (g : Tree F) (k : String) : Except Err (H5 F) :=
  match Dict.get? g k with
  | some x => .ok x
  | none => .error .key

/-- `x[()]` of a dataset with numbers; groups do not accept `()`. -/
def asArr : H5 F → Except Err (List F)
  | .data (.arr l) => .ok l
  | _ => .error .type

def asIdx : H5 F → Except Err (List Nat)
  | .data (.idx l) => .ok l
  | _ => .error .type

def asMask : H5 F → Except Err (List Bool)
  | .data (.mask l) => .ok l
  | _ => .error .type

/-- `x.keys()` of a group. -/
def asGroup : H5 F → Except Err (Tree F)
  | .group c => .ok c
  | .data _ => .error .attribute

def readArr (g : Tree F) (k : String) : Except Err (List F) := do
  let x ← item g k
  asArr x

/-- `f["spatial_params"][key][()][0]` for every key, 713-715 and 723-725. -/
def readParams : Tree F → Except Err (Dict (Option F))
  | [] => .ok []
  | (k, x) :: c => do
    let l ← asArr x
    match l with
    | [] => .error .index
    | v :: _ => do
      let rest ← readParams c
      .ok ((k, some v) :: rest)

/-- Lines 777-779. -/
def readSpaces : Tree F → Except Err (Dict (List F))
  | [] => .ok []
  | (k, x) :: c => do
    let l ← asArr x
    let rest ← readSpaces c
    .ok ((k, l) :: rest)

/-- Lines 783-788: plain dictionaries with the two arrays. -/
def readAux : Tree F → Except Err (Storage F)
  | [] => .ok []
  | (k, x) :: c => do
    let q ← asGroup x
    let t ← readArr q "true_values"
    let o ← readArr q "obs_values"
    let rest ← readAux c
    .ok ((k, { name := k, trueVals := some t, obsVals := some o, selection := 0, prob := [] }) :: rest)

def attr (a : Dict (Attr F)) (k : String) : Except Err (Attr F) :=
  match Dict.get? a k with
  | some x => .ok x
  | none => .error .key

/-- `str(b)` of a bytes object: `b'…'` with backslashes doubled (other escapes are not
modelled). -/
def bytesStr (s : String) : String :=
  String.ofList (['b', '\''] ++ s.toList.flatMap (fun c => if c = '\\' then ['\\', '\\'] else [c]) ++ ['\''])

def attrStr : Attr F → Except Err String
  | .bytes s => .ok (bytesStr s)
  | _ => .error .type

def attrNum : Attr F → Except Err F
  | .num v => .ok v
  | _ => .error .type

def attrInt : Attr F → Except Err Int
  | .int v => .ok v
  | _ => .error .type

def attrBool : Attr F → Except Err Bool
  | .bool b => .ok b
  | _ => .error .type

def attrBytes : Attr F → Except Err String
  | .bytes s => .ok s
  | _ => .error .type

/-- An undirected graph, `nx.Graph`, without node attributes. -/
structure UGraph where
  nodes : List String := []
  edges : List (String × String) := []

/-- `u` and `v` are joined. -/
def UGraph.adj (g : UGraph) (u v : String) : Prop := (u, v) ∈ g.edges ∨ (v, u) ∈ g.edges

/-- `nx.from_dict_of_dicts(d)`: the nodes are the keys and all neighbours, and the result is
an `nx.Graph`, as no `create_using` is given. -/
def fromDicts (d : List (String × GDict)) : UGraph :=
  { nodes := d.map Prod.fst ++ d.flatMap fun p => match p.2 with | .dict l => l.map Prod.fst
    edges := d.flatMap fun p => match p.2 with | .dict l => l.map fun q => (p.1, q.1) }

/-- What `_loadfrom` returns.  Three attributes have other types than in a population from a
survey and are kept beside it (in `pop` they are left out): the name is a bytes object (its
text is given here), the graph is undirected, the truth is any nested dictionary. -/
structure Loaded (F : Type) where
  pop : Population F
  nameBytes : String
  graph : UGraph
  truth : List (String × PVal F)

/-- Lines 721-731. -/
def readLfBody (f : H5File F) : Except Err (Option (Dict (Option F)) × Option String) := do
  let h ← attr f.attrs "has_lf"
  let h ← attrBool h
  if h then do
    let x ← item f.tree "lf_params"
    let c ← asGroup x
    let l ← readParams c
    let s ← attr f.attrs "lf_form"
    let s ← attrStr s
    .ok (some l, some s)
  else .ok (none, none)

/-- Lines 719-736: an `AttributeError` (no group `lf_params`) means no luminosity function. -/
def readLf (f : H5File F) : Except Err (Option (Dict (Option F)) × Option String) :=
  match readLfBody f with
  | .error .attribute => .ok (none, none)
  | r => r

/-- `probability`, 763-769: `KeyError` gives `None`. -/
def readProb (g : Tree F) : Except Err (Option (List F)) :=
  match Dict.get? g "probability" with
  | none => .ok none
  | some x => do
    let l ← asArr x
    .ok (some l)

/-- The known distances and the two index arrays, 750-761: a `KeyError` gives `None` for all. -/
def readKnown (g : Tree F) : Except Err (Option (List F × List Nat × List Nat)) :=
  match (do
    let known ← readArr g "known_distances"
    let knownIdx ← item g "known_distance_idx" >>= asIdx
    let unknownIdx ← item g "unknown_distance_idx" >>= asIdx
    .ok (known, knownIdx, unknownIdx) : Except Err (List F × List Nat × List Nat)) with
  | .ok x => .ok (some x)
  | .error .key => .ok none
  | .error e => .error e

/-- The constructor with `known_distances = None`: after the checks of the positions,
`len(known_distances)` raises, population.py:117-137. -/
def mkUnknown (luminosities distances theta phi : List F) (selection : List Bool) :
    Except Err (Population F) := do
  let _ ← mkSimVar luminosities luminosities selection
  let _ ← mkSimVar distances distances selection
  let _ ← mkSimVar theta theta selection
  let _ ← mkSimVar phi phi selection
  .error .type

/-- `Population._loadfrom`, 703-826. -/
def loadPop (decode : List UInt8 → Option String) (f : H5File F) : Except Err (Loaded F) := do
  let c ← item f.tree "spatial_params" >>= asGroup
  let sp ← readParams c
  let (lf, lfForm) ← readLf f
  let fluxSigma ← attr f.attrs "flux_sigma" >>= attrNum
  let nModel ← attr f.attrs "n_model" >>= attrInt
  let rMax ← attr f.attrs "r_max" >>= attrNum
  let seed ← attr f.attrs "seed" >>= attrInt
  let name ← attr f.attrs "name" >>= attrBytes
  let spatialForm ← attr f.attrs "spatial_form" >>= attrStr
  let luminosities ← readArr f.tree "luminosities"
  let distances ← readArr f.tree "distances"
  let theta ← readArr f.tree "theta"
  let phi ← readArr f.tree "phi"
  let known ← readKnown f.tree
  let prob ← readProb f.tree
  let fluxes ← readArr f.tree "fluxes"
  let fluxObs ← readArr f.tree "flux_obs"
  let selection ← item f.tree "selection" >>= asMask
  let ms ← item f.tree "model_spaces" >>= asGroup
  let ms ← readSpaces ms
  let aux ← item f.tree "auxiliary_quantities" >>= asGroup
  let aux ← readAux aux
  let truth ← loadAt decode f.tree ["truth"]
  let gd ← loadAt decode f.tree ["graph"]
  let ps ← loadAt decode f.tree ["popsynth"]
  let pop ← match known with
  | none => mkUnknown luminosities distances theta phi selection
  | some (knownDistances, knownIdx, unknownIdx) => mkPopulation {
    luminosities, distances, knownDistances, knownIdx, unknownIdx, fluxes, fluxObs
    selection, fluxSigma, rMax, nModel := nModel.toNat, lfParams := lf.map .own
    spatialParams := some (.own sp), spacesNow := ms, modelSpaces := some (.own ms), seed
    name := "", aux := some aux, truth := [], graph := none, theta, phi
    popSynth := some (.dict ps), probability := prob, spatialForm := some spatialForm, lfForm }
  .ok { pop, nameBytes := name, graph := fromDicts (cleanItems gd), truth }

/-! ### Groups of a file -/

/-- `addto(file, group)`, 560-575: the group must be new (`create_group` raises
`ValueError`). -/
def addTo (chk : Leaf F → Except Err Unit) (now : Shared F) (file : Dict (H5File F)) (group : String)
    (P : Population F) : Except Err (Dict (H5File F)) :=
  match Dict.get? file group with
  | some _ => .error .value
  | none => do
    let f ← writePop chk now P
    .ok (Dict.set file group f)

/-- `from_group(file, group)`, 685-701. -/
def fromGroup (decode : List UInt8 → Option String) (file : Dict (H5File F)) (group : String) :
    Except Err (Loaded F) :=
  match Dict.get? file group with
  | none => .error .key
  | some f => loadPop decode f

end Popsynth
