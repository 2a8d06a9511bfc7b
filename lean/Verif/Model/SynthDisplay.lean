import Verif.Model.Survey

/-!
# Displaying and printing a synth, its distributions and its samplers

population_synth.py:1407-1488, distribution.py:112-139, auxiliary_sampler.py:215-244.  A printed
text is a list of lines; how Python writes a number, a Boolean or a list is left out.  IPython's
`display` is taken to show what it is given.
-/

set_option autoImplicit false

namespace Popsynth

variable {F G : Type}

/-- A line of a printed text. -/
inductive Line (F : Type) where
  | text (s : String)
  | value (k : String) (v : Option F)
  | observed (b : Bool)
  | parents (l : List String)
  deriving DecidableEq

/-- Something shown by IPython. -/
inductive Piece (F : Type) where
  | title (s : String)
  | formula (s : String)
  | table (rows : Dict (Option F))
  deriving DecidableEq

/-- `Distribution.display`, distribution.py:112-129. -/
def distDisplay (form : String) (o : Obj F) : List (Piece F) := [.formula form, .table o.storage]

/-- `Distribution.__repr__`, distribution.py:131-139. -/
def distLines (name form : String) (o : Obj F) : List (Line F) :=
  [.text name, .text form] ++ o.storage.map fun p => .value p.1 p.2

/-- `AuxiliarySampler.display`, auxiliary_sampler.py:215-224. -/
def samplerDisplay (s : Sampler F) : List (Piece F) := [.table s.params.storage]

/-- `AuxiliarySampler.__repr__`, auxiliary_sampler.py:226-244. -/
def samplerLines (s : Sampler F) : List (Line F) :=
  [.text s.name, .observed s.isObserved] ++ s.params.storage.map (fun p => .value p.1 p.2)
    ++ (if s.isSecondary then [.parents s.parents] else [])
    ++ (if s.hasSecondary then s.secondaries.map (fun p => .text p.1) else [])

/-- The loop over the attached samplers, population_synth.py:1443-1449 and 1482-1486: those whose
key is not among `names`. -/
def auxPieces {α : Type} (names : List String) (show' : String → Nat → List α) :
    Dict Nat → List α
  | [] => []
  | (k, i) :: rest =>
    (if k ∈ names then [] else show' k i) ++ auxPieces names show' rest

/-- A section of `display` with a title, 1439-1441 and 1447-1449. -/
def section' (h : Heap F G) (k : String) (i : Nat) : List (Piece F) :=
  .title k :: samplerDisplay (h.samplers i)

/-- `PopulationSynth.display`, population_synth.py:1407-1449. -/
def synthDisplay (y : Synth F) (s : SurvSt F G) : List (Piece F) :=
  (match y.derived with
    | some d => .title "Luminosity Function" :: samplerDisplay (s.heap.samplers d)
    | none => match y.lumName with
      | some _ => .title "Luminosity Function" :: distDisplay y.lumForm s.lum.params
      | none => [])
  ++ .title "Spatial Function" :: distDisplay y.spatialForm s.sp.params
  ++ match y.derived with
    | some d =>
      let secs := (s.heap.samplers d).secondaries
      secs.flatMap (fun p => section' s.heap p.1 p.2)
        ++ auxPieces (secs.map (·.1)) (section' s.heap) y.aux
    | none => auxPieces [] (section' s.heap) y.aux

/-- `PopulationSynth.__repr__`, population_synth.py:1451-1488: `out` is not bound at 1465 if
there is neither a derived luminosity sampler nor a luminosity distribution. -/
def synthLines (y : Synth F) (s : SurvSt F G) : Except Err (List (Line F)) := do
  let out ← match y.derived with
    | some d => .ok (.text "Luminosity Function" :: samplerLines (s.heap.samplers d))
    | none => match y.lumName with
      | some n => .ok (.text "Luminosity Function" :: distLines n y.lumForm s.lum.params)
      | none => .error .unboundLocal
  let out := out ++ .text "Spatial Function" :: distLines y.spatialName y.spatialForm s.sp.params
  match y.derived with
    | some d =>
      let secs := (s.heap.samplers d).secondaries
      .ok (out ++ secs.flatMap (fun p => samplerLines (s.heap.samplers p.2))
        ++ auxPieces (secs.map (·.1)) (fun _ i => samplerLines (s.heap.samplers i)) y.aux)
    | none => .ok (out ++ auxPieces [] (fun _ i => samplerLines (s.heap.samplers i)) y.aux)

end Popsynth
