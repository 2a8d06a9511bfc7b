import Verif.Model.Sampler

/-!
# Specification vocabulary for sampler graphs (C12–C17)

Graph notions over an arbitrary "depends on" map `ch` and an arbitrary set of
already sampled nodes `smp`.
-/

namespace Popsynth.Spec

/-- `j` is `i` itself or a (transitive) dependency of `i`. -/
inductive Reach (ch : Nat → List Nat) : Nat → Nat → Prop where
  | here (i : Nat) : Reach ch i i
  | step {i c j : Nat} : c ∈ ch i → Reach ch c j → Reach ch i j

/-- No sampler reachable from `i` depends on itself. -/
def Acyclic (ch : Nat → List Nat) (i : Nat) : Prop :=
  ∀ j, Reach ch i j → ∀ c ∈ ch j, ¬ Reach ch c j

/-- `j` is reachable from `i` through samplers that are not yet sampled
(`i` and `j` included). -/
inductive ReachU (ch : Nat → List Nat) (smp : Nat → Bool) : Nat → Nat → Prop where
  | here {i : Nat} : smp i = false → ReachU ch smp i i
  | step {i c j : Nat} : smp i = false → c ∈ ch i → ReachU ch smp c j → ReachU ch smp i j

/-- All dependencies of sampled samplers are sampled. -/
def DownClosed (ch : Nat → List Nat) (smp : Nat → Bool) : Prop :=
  ∀ i, smp i = true → ∀ c ∈ ch i, smp c = true

/-- `x` is unsampled and leads through unsampled samplers into a cycle of unsampled
samplers. -/
def IntoCycle (ch : Nat → List Nat) (smp : Nat → Bool) (x : Nat) : Prop :=
  ∃ j c, ReachU ch smp x j ∧ c ∈ ch j ∧ ReachU ch smp c j

/-- A rank on the samplers: dependencies have smaller rank (finite acyclic graphs
have one). -/
def Ranked (ch : Nat → List Nat) (r : Nat → Nat) (i : Nat) : Prop :=
  ∀ j, Reach ch i j → ∀ c ∈ ch j, r c < r j

end Popsynth.Spec

namespace Popsynth
variable {F G : Type}

/-- Direct dependencies of sampler `i`. -/
def Heap.children (h : Heap F G) (i : Nat) : List Nat := (h.samplers i).secondaries.map Prod.snd

/-- Is sampler `i` marked as sampled? -/
def Heap.sampled (h : Heap F G) (i : Nat) : Bool := (h.samplers i).isSampled

/-- What the framework owes the code of a sampler: a position satisfying `S`, a luminosity
(or its absence) satisfying `L`, and `n` true and observed values of every direct secondary. -/
structure Spec.Sees (n : Nat) (S : Spatial F → Prop) (L : Option (List F) → Prop) (v : SView F) :
    Prop where
  position : ∃ sp, v.spatial = some sp ∧ S sp
  luminosity : L v.luminosity
  secs : ∀ p ∈ v.secs, ∃ t o, p.2 = (some t, some o) ∧ t.length = n ∧ o.length = n

/-- Sampler code that does its job as long as its parameters satisfy `I` and it is run on
views satisfying `V`: no exception, `n` true values, `n` observed values if the property is
`observed`, and if there are probabilities then `n`. -/
structure Spec.WellBehaved (c : SamplerCode F G) (n : Nat) (observed : Bool) (I : Obj F → Prop)
    (V : SView F → Prop) : Prop where
  trueOk : ∀ v g, V v → I v.params →
    (c.trueSampler v n g).err = none ∧ I (c.trueSampler v n g).params ∧
    ∃ l, (c.trueSampler v n g).trueVals = some l ∧ l.length = n
  obsOk : observed = true → ∀ v g l, V v → v.isObserved = true → I v.params →
    v.trueVals = some l → l.length = n →
    (c.obsSampler v n g).err = none ∧ I (c.obsSampler v n g).params ∧
    (∃ t, (c.obsSampler v n g).trueVals = some t ∧ t.length = n) ∧
    ∃ o, (c.obsSampler v n g).obsVals = some o ∧ o.length = n
  probOk : ∀ v l, V v → I v.params → v.trueVals = some l → l.length = n →
    ∃ p, c.prob v = .ok p ∧ ∀ q, p = some q → q.length = n

section
variable [LE F] [DecidableLE F] [OfNat F 0] [OfNat F 1]

/-- `P` is a condition on a selector under which it can be drawn for any `n` observed
values, and which survives what samplers do with their selector; the masks drawn satisfy `M`. -/
structure Spec.Selectable (w : World F G) (n : Nat) (P : Selector F G → Prop)
    (M : Option (List Bool) → Prop) : Prop where
  draws : ∀ (st : SelSt F G) (o : List F), P st.sel → o.length = n → ∃ st', selDraw w.sel w.half w.ninety w.showProgress n
    { st with sel := { st.sel with data := { st.sel.data with obsValue := some o } } }
      = .ok () st' ∧ P st'.sel ∧ M st'.sel.selection
  dist : ∀ (c : Selector F G) (d : Option (List F)), P c → P { c with data := { c.data with distance := d } }
  lum : ∀ (c : Selector F G) (l : Option (List F)), P c → P { c with data := { c.data with luminosity := l } }

end

/-- What holds before and after each draw of `n` objects: every selector and every sampler's
parameters are as required, and what has been drawn has `n` entries. -/
structure Spec.Ready (n : Nat) (P : Nat → Selector F G → Prop) (M : Option (List Bool) → Prop)
    (I : Nat → Obj F → Prop) (h : Heap F G) : Prop where
  sel : ∀ q, P q (h.selectors q)
  params : ∀ j, I j (h.samplers j).params
  done : ∀ j, (h.samplers j).isSampled = true →
    lenIs (h.samplers j).trueVals n = true ∧ lenIs (h.samplers j).obsVals n = true ∧
    (∀ q, (h.samplers j).prob = some q → q.length = n) ∧
    M (h.selectors (h.samplers j).selector).selection

/-- The report of one sampler. -/
def Spec.report [OfNat F 1] (h : Heap F G) (j : Nat) : SecC F :=
  { name := (h.samplers j).name, trueVals := (h.samplers j).trueVals,
    obsVals := (h.samplers j).obsVals, selection := (h.samplers j).selector,
    prob := (h.samplers j).probability }

/-- A storage that reports exactly the samplers in `S`, under their names. -/
structure Spec.Reports [OfNat F 1] (h : Heap F G) (S : Nat → Prop) (st : Storage F) : Prop where
  nodup : (Dict.keys st).Nodup
  iff : ∀ nm c, Dict.get? st nm = some c ↔
    ∃ j, S j ∧ (h.samplers j).name = nm ∧ c = Spec.report h j

end Popsynth
