import Verif.Spec.SurveyLaw

/-!
# Attached auxiliary samplers in a survey

An attached sampler without secondary samplers draws for every object a true value, an observed
value and whether it selects the object.  What comes out may depend on the distance, the position
and the luminosity of the object, and on chance.
-/

set_option autoImplicit false

open MeasureTheory

namespace Popsynth
namespace Spec

/-- What an attached sampler gives: name and number of the sampler, number of its selector, true
values, observed values, which objects it selects, and the probabilities it reports. -/
structure Gain (F : Type) where
  key : String
  id : Nat
  sel : Nat
  ts : List F
  os : List F
  mask : List Bool
  prob : List F

/-- Drawing the sampler has the effect `d` and touches nothing but the sampler and its selector. -/
structure Played {F G : Type} [LE F] [DecidableLE F] [OfNat F 0] [OfNat F 1] (w : World F G)
    (k n : Nat) (h h' : Heap F G) (d : Gain F) : Prop where
  run : samplerDraw w k d.id n h = .ok () h'
  others : ∀ j, j ≠ d.id → h'.samplers j = h.samplers j
  selectors : ∀ q, q ≠ d.sel → h'.selectors q = h.selectors q
  name : (h'.samplers d.id).name = (h.samplers d.id).name
  selector : (h'.samplers d.id).selector = (h.samplers d.id).selector
  secondary : (h'.samplers d.id).isSecondary = (h.samplers d.id).isSecondary
  secondaries : (h'.samplers d.id).secondaries = (h.samplers d.id).secondaries
  hasSecondary : (h'.samplers d.id).hasSecondary = (h.samplers d.id).hasSecondary
  trueVals : (h'.samplers d.id).trueVals = some d.ts
  obsVals : (h'.samplers d.id).obsVals = some d.os
  prob : (h'.samplers d.id).probability = d.prob
  kind : (h'.selectors d.sel).kind = (h.selectors d.sel).kind
  selection : (h'.selectors d.sel).selection = some d.mask
  unity : (h.selectors d.sel).kind.isUnity = true → d.mask = List.replicate n true
  lens : d.ts.length = n ∧ d.os.length = n ∧ d.mask.length = n ∧ d.prob.length = n

/-- A sampler by its name, its number and the number of its selector; it depends on nothing and
nothing depends on it. -/
structure Alone {F G : Type} (h : Heap F G) (who : String × Nat × Nat) : Prop where
  name : (h.samplers who.2.1).name = who.1
  selector : (h.samplers who.2.1).selector = who.2.2
  secondary : (h.samplers who.2.1).isSecondary = false
  secondaries : (h.samplers who.2.1).secondaries = []
  hasSecondary : (h.samplers who.2.1).hasSecondary = false

/-- These are the samplers attached to the synth; they have different names and are different
objects with different selectors, which are not the selectors of the synth. -/
structure Apart {F : Type} (y : Synth F) (l : List (String × Nat × Nat)) : Prop where
  aux : y.aux = l.map fun p => (p.1, p.2.1)
  keys : (l.map fun p => p.1).Nodup
  ids : (l.map fun p => p.2.1).Nodup
  sels : (l.map fun p => p.2.2).Nodup
  flux : y.fluxSel ∉ l.map fun p => p.2.2
  dist : y.distSel ∉ l.map fun p => p.2.2
  names : ∀ p ∈ l, p.1 ≠ "" ∧ p.1 ∉ readOnlyNames

/-- What a sampler can see of an object: its distance, its angles and its luminosity. -/
abbrev Seen := ℝ × (ℝ × ℝ) × ℝ

/-- What a sampler sees of a source. -/
def SkySource.seen (x : SkySource) : Seen := (x.distance, (x.theta, x.phi), x.luminosity)

/-- The chance of one object with one sampler: three random numbers. -/
abbrev Chance := ℝ × ℝ × ℝ

/-- An attached sampler, the law of its chances, and what comes out for an object and a chance:
true value, observed value, whether it is selected. -/
structure Player where
  key : String
  id : Nat
  sel : Nat
  law : Measure Chance
  response : Seen → Chance → ℝ × ℝ × Bool

/-- Name and numbers. -/
def Player.who (p : Player) : String × Nat × Nat := (p.key, p.id, p.sel)

/-- What the sampler gives for `n` objects. -/
def Player.gain (p : Player) {n : ℕ} (x : Fin n → Seen) (u : Fin n → Chance) (pr : List ℝ) :
    Gain ℝ :=
  { key := p.key, id := p.id, sel := p.sel
    ts := List.ofFn fun i => (p.response (x i) (u i)).1
    os := List.ofFn fun i => (p.response (x i) (u i)).2.1
    mask := List.ofFn fun i => (p.response (x i) (u i)).2.2
    prob := pr }

/-- Sampler `p` of the heap `h₀` responds with `p.response` to chances with the law `p.law`, for
every object independently. -/
structure Plays {G : Type} [MeasurableSpace G] (P : Measure G) (w : World ℝ G) (k : ℕ)
    (h₀ : Heap ℝ G) (p : Player) : Prop where
  law : IsProbabilityMeasure p.law
  response : Measurable fun q : Seen × Chance => p.response q.1 q.2
  draws : ∀ n, Samples P (iid n p.law) fun _ g u g' => ∀ (h : Heap ℝ G) (x : Fin n → Seen),
    h.samplers p.id = { h₀.samplers p.id with
      luminosity := some (List.ofFn fun i => (x i).2.2)
      spatial := some { distance := List.ofFn fun i => (x i).1
                        theta := List.ofFn fun i => (x i).2.1.1
                        phi := List.ofFn fun i => (x i).2.1.2 } } →
    h.selectors p.sel = h₀.selectors p.sel → h.rng = g →
    ∃ h' pr, Played w k n h h' (p.gain x u pr) ∧ h'.rng = g'

/-- The samplers attached to the synth and how they respond. -/
structure Entourage {G : Type} [MeasurableSpace G] (P : Measure G) (e : SurveyEnv ℝ G)
    (y : Synth ℝ) (h₀ : Heap ℝ G) (A : List Player) : Prop where
  apart : Apart y (A.map Player.who)
  alone : ∀ p ∈ A, Alone h₀ p.who
  plays : ∀ p ∈ A, Plays P e.world e.frames h₀ p
  frames : 0 < e.frames
  dict : ∀ t, ∃ d, e.toDict y t = .ok d

/-- The chances of one object with all samplers, independent. -/
noncomputable def chances (A : List Player) : Measure (Fin A.length → Chance) :=
  Measure.pi fun j => (A.get j).law

/-- All samplers select the object. -/
def kept (A : List Player) (x : SkySource) (u : Fin A.length → Chance) : Bool :=
  decide (∀ j, ((A.get j).response x.seen (u j)).2.2 = true)

/-- `Q` is the population of the given sources with their auxiliary quantities; the flag says
which ones are detected. -/
structure HoldsAux (Q : Population ℝ) (flux : ℝ → ℝ → ℝ) (obs : ℝ → ℝ → ℝ) (A : List Player)
    (l : List ((SkySource × (Fin A.length → Chance)) × Bool)) : Prop where
  sources : Holds Q flux obs (l.map fun x => (x.1.1, x.2))
  quantities : Q.attrs = List.ofFn fun j : Fin A.length => ((A.get j).key,
    { obs := l.map fun x => ((A.get j).response x.1.1.seen (x.1.2 j)).2.1
      latent := l.map fun x => ((A.get j).response x.1.1.seen (x.1.2 j)).1
      selection := Q.selection })

/-- The selector of a sampler, given the distances (if the sampler uses them), the luminosities
and the observed values of the objects, selects those for which the triple and a random number
with law `ν` are in `D`, for all objects independently. -/
structure Chooses {G : Type} [MeasurableSpace G] (P : Measure G) (w : World ℝ G)
    (sel : Selector ℝ G) (usesDistance : Bool) (ν : Measure ℝ) (D : Set ((ℝ × ℝ × ℝ) × ℝ))
    [DecidablePred (· ∈ D)] : Prop where
  law : IsProbabilityMeasure ν
  rule : MeasurableSet D
  unity : sel.kind.isUnity = true → D = Set.univ
  draws : ∀ n, Samples P (iid n ν) fun _ g u g' => ∀ r l o : Fin n → ℝ, ∃ sel',
    selDraw w.sel w.half w.ninety w.showProgress n
      { sel := { sel with data := { sel.data with
                   distance := if usesDistance then some (List.ofFn r) else sel.data.distance
                   luminosity := some (List.ofFn l)
                   obsValue := some (List.ofFn o) } }
        rng := g } = .ok () { sel := sel', rng := g' } ∧
    sel'.kind = sel.kind ∧
    sel'.selection = some (List.ofFn fun i => decide (((r i, l i, o i), u i) ∈ D))

/-- A sampler with true values of law `μ`, errors of law `ν` if it is observed, and a selection
by the rule `D` with random numbers of law `ν'`. -/
noncomputable def additive (key : String) (id sel : ℕ) (observed : Bool) (μ ν ν' : Measure ℝ)
    (D : Set ((ℝ × ℝ × ℝ) × ℝ)) [DecidablePred (· ∈ D)] : Player where
  key := key
  id := id
  sel := sel
  law := μ.prod (ν.prod ν')
  response x c :=
    let o := if observed = true then c.1 + c.2.1 else c.1
    (c.1, o, decide (((x.1, x.2.2, o), c.2.2) ∈ D))

end Spec
end Popsynth
