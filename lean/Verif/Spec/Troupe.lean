import Verif.Spec.Attached
import Verif.Props.Graph

/-!
# Luminosity samplers and attached samplers with secondary samplers in a survey

Luminosities come from a distribution or from a derived luminosity sampler.  A derived or attached
sampler may have secondary samplers, which are drawn with it; together they give for every object
several quantities, each with a true value, an observed value and a selection.
-/

set_option autoImplicit false

open MeasureTheory

namespace Popsynth
namespace Spec

variable {F G : Type}

/-- The samplers have the same names, roles and dependencies. -/
def SameLinks (h h' : Heap F G) : Prop :=
  ∀ i, (h'.samplers i).name = (h.samplers i).name ∧
    (h'.samplers i).isSecondary = (h.samplers i).isSecondary ∧
    (h'.samplers i).secondaries = (h.samplers i).secondaries ∧
    (h'.samplers i).usesDistance = (h.samplers i).usesDistance

/-- Attached samplers are not secondaries, dependencies are well-founded and less deep than the
stack, and samplers below a secondary do not use distances. -/
def Grounded (frames : Nat) (y : Synth F) (h : Heap F G) : Prop :=
  ∃ rank : Nat → Nat, (∀ k i, (k, i) ∈ y.aux → (h.samplers i).isSecondary = false) ∧
    (∀ k j, InConfig y h k j → ∀ n c, (n, c) ∈ (h.samplers j).secondaries → rank c < rank j) ∧
    (∀ k j, InConfig y h k j → rank j < frames) ∧
    ∀ k0 j0, InConfig y h k0 j0 → ∀ n c, (n, c) ∈ (h.samplers j0).secondaries →
      ∀ k j, Under h c k j → (h.samplers j).usesDistance = false

/-- The synth has a source of luminosities and no spatial selector; its two selectors are
different objects that have not been used, and the one for distances selects everything. -/
structure Equipped [OfNat F 0] [OfNat F 1] (e : SurveyEnv F G) (y : Synth F) (s : SurvSt F G) :
    Prop where
  lum : y.derived ≠ none ∨ y.lumName ≠ none
  spat : y.spatSel = none
  apart : y.distSel ≠ y.fluxSel
  fresh : (s.heap.selectors y.fluxSel).isSampled = false ∧
    (s.heap.selectors y.distSel).isSampled = false
  known : (s.heap.selectors y.distSel).kind = .unity
  spaces : ∀ q ∈ y.modelSpaces, q.2.length = y.nModel
  dict : ∀ t, ∃ d, e.toDict y t = .ok d
  rooted : Grounded e.frames y s.heap

/-! ### Samplers with their secondaries -/

/-- The stored form of what a sampler gives. -/
def Gain.stored (d : Gain F) : String × SecC F :=
  (d.key, { name := d.key, trueVals := some d.ts, obsVals := some d.os, selection := d.sel
            prob := d.prob })

/-- Drawing samplers has given `D` and has touched nothing but those samplers and their
selectors. -/
structure Changed (n : Nat) (h h' : Heap F G) (D : List (Gain F)) : Prop where
  others : ∀ j, j ∉ D.map Gain.id → h'.samplers j = h.samplers j
  selectors : ∀ q, q ∉ D.map Gain.sel → h'.selectors q = h.selectors q
  links : SameLinks h h'
  gained : ∀ d ∈ D, (h'.selectors d.sel).selection = some d.mask ∧
    (h'.selectors d.sel).kind = (h.selectors d.sel).kind ∧
    ((h.selectors d.sel).kind.isUnity = true → d.mask = List.replicate n true) ∧
    d.ts.length = n ∧ d.os.length = n ∧ d.mask.length = n ∧ d.prob.length = n

/-- What comes out of a sampler for an object: true value, observed value, selected or not. -/
abbrev Outcome := ℝ × ℝ × Bool

/-- What `n` objects give with samplers of the given names and numbers. -/
def gainsOf (who : List (String × ℕ × ℕ)) {n : ℕ} (out : Fin n → Fin who.length → Outcome)
    (prs : Fin who.length → List ℝ) : List (Gain ℝ) :=
  List.ofFn fun j =>
    { key := (who.get j).1, id := (who.get j).2.1, sel := (who.get j).2.2
      ts := List.ofFn fun i => (out i j).1
      os := List.ofFn fun i => (out i j).2.1
      mask := List.ofFn fun i => (out i j).2.2
      prob := prs j }

/-- Where an object is: distance and angles. -/
abbrev Place := ℝ × (ℝ × ℝ)

/-- The positions of objects as arrays. -/
def positions {n : ℕ} (x : Fin n → Place) : Spatial ℝ :=
  { distance := List.ofFn fun i => (x i).1, theta := List.ofFn fun i => (x i).2.1
    phi := List.ofFn fun i => (x i).2.2 }

/-- An attached sampler `id` with its direct and indirect secondaries: names and numbers in the
order in which quantities are stored, the law of the chances of an object, and what comes out. -/
structure Troupe where
  key : String
  id : ℕ
  members : List (String × ℕ × ℕ)
  κ : Type
  [space : MeasurableSpace κ]
  law : Measure κ
  response : Seen → κ → Fin members.length → Outcome

attribute [instance] Troupe.space

/-- A source of luminosities: names and numbers of the samplers involved, the law of the chances
of an object, its luminosity, and what comes out of the samplers. -/
structure Lamp where
  members : List (String × ℕ × ℕ)
  κ : Type
  [space : MeasurableSpace κ]
  law : Measure κ
  shine : Place → κ → ℝ
  response : Place → κ → Fin members.length → Outcome

attribute [instance] Lamp.space

section
variable [MeasurableSpace G]

/-- The attached sampler and its secondaries on the heap `h₀` respond with `T.response` to chances
with the law `T.law`, for every object independently: they are handed the luminosities and the
positions, then drawn, and then their quantities are collected. -/
structure Performs (P : Measure G) (e : SurveyEnv ℝ G) (h₀ : Heap ℝ G) (T : Troupe) : Prop where
  law : IsProbabilityMeasure T.law
  response : ∀ j, Measurable fun q : Seen × T.κ => T.response q.1 q.2 j
  draws : ∀ n, Samples P (iid n T.law) fun _ g u g' => ∀ (h : Heap ℝ G) (x : Fin n → Seen),
    (∀ p ∈ T.members, h.samplers p.2.1 = h₀.samplers p.2.1 ∧
      h.selectors p.2.2 = h₀.selectors p.2.2) → h.rng = g →
    ∃ h' prs, (prepareAux (List.ofFn fun i => (x i).2.2) (positions fun i => ((x i).1, (x i).2.1)) T.id >>=
        fun _ => samplerDraw e.world e.frames T.id n) h = .ok () h' ∧ h'.rng = g' ∧
      lenIs (h'.samplers T.id).trueVals n = true ∧ lenIs (h'.samplers T.id).obsVals n = true ∧
      secProps h' e.frames T.id =
        .ok ((gainsOf T.members (fun i => T.response (x i) (u i)) prs).map Gain.stored) ∧
      Changed n h h' (gainsOf T.members (fun i => T.response (x i) (u i)) prs)

/-- The luminosities of the survey come from `L`, for every object independently, and the
quantities of the samplers involved are stored. -/
structure Lights (P : Measure G) (e : SurveyEnv ℝ G) (y : Synth ℝ) (s : SurvSt ℝ G) (L : Lamp) :
    Prop where
  law : IsProbabilityMeasure L.law
  shine : Measurable fun q : Place × L.κ => L.shine q.1 q.2
  response : ∀ j, Measurable fun q : Place × L.κ => L.response q.1 q.2 j
  draws : ∀ n, Samples P (iid n L.law) fun _ g u g' => ∀ (sp : Spat ℝ) (x : Fin n → Place),
    ∃ lum' h' prs, h'.rng = g' ∧
      Changed n s.heap h' (gainsOf L.members (fun i => L.response (x i) (u i)) prs) ∧
      ∀ loc : Loc ℝ, loc.auxq = [] → loc.prob.length = n → ∃ loc',
        drawLuminosities e y n (positions x) loc { s with sp := sp, heap := { s.heap with rng := g } } =
          .ok (List.ofFn fun i => L.shine (x i) (u i), loc')
            { s with sp := sp, lum := lum', heap := h' } ∧
        loc'.auxq = (gainsOf L.members (fun i => L.response (x i) (u i)) prs).map Gain.stored ∧
        loc'.prob.length = n

/-- All samplers of a survey: names and numbers. -/
def everyone (L : Lamp) {N : ℕ} (A : Fin N → Troupe) : List (String × ℕ × ℕ) :=
  L.members ++ (List.ofFn fun j => (A j).members).flatten

/-- The source of luminosities of the synth and the samplers attached to it.  All samplers have
different names and are different objects with different selectors, which are not the selectors of
the synth. -/
structure Company (P : Measure G) (e : SurveyEnv ℝ G) (y : Synth ℝ) (s : SurvSt ℝ G) (L : Lamp)
    {N : ℕ} (A : Fin N → Troupe) : Prop where
  lights : Lights P e y s L
  performs : ∀ j, Performs P e s.heap (A j)
  aux : y.aux = List.ofFn fun j => ((A j).key, (A j).id)
  keys : ((everyone L A).map fun p => p.1).Nodup
  ids : ((everyone L A).map fun p => p.2.1).Nodup
  sels : ((everyone L A).map fun p => p.2.2).Nodup
  flux : y.fluxSel ∉ (everyone L A).map fun p => p.2.2
  dist : y.distSel ∉ (everyone L A).map fun p => p.2.2
  names : ∀ p ∈ everyone L A, p.1 ≠ "" ∧ p.1 ∉ readOnlyNames

end

/-! ### Objects -/

/-- All chances of an object: distance, angles, chances of its luminosity, chances of the attached
samplers, measurement error. -/
abbrev Fate (L : Lamp) {N : ℕ} (A : Fin N → Troupe) : Type :=
  ℝ × (ℝ × ℝ) × L.κ × (∀ j, (A j).κ) × ℝ

/-- The source. -/
def sourceOf (L : Lamp) {N : ℕ} (A : Fin N → Troupe) (x : Fate L A) : SkySource :=
  ⟨x.1, x.2.1.1, x.2.1.2, L.shine (x.1, x.2.1) x.2.2.1, x.2.2.2.2⟩

/-- What the samplers that give luminosities do with the object. -/
def lampOutcome (L : Lamp) {N : ℕ} (A : Fin N → Troupe) (x : Fate L A) (j : Fin L.members.length) :
    Outcome :=
  L.response (x.1, x.2.1) x.2.2.1 j

/-- What the attached samplers do with the object. -/
def troupeOutcome (L : Lamp) {N : ℕ} (A : Fin N → Troupe) (x : Fate L A) (i : Fin N)
    (j : Fin (A i).members.length) : Outcome :=
  (A i).response (sourceOf L A x).seen (x.2.2.2.1 i) j

/-- All samplers select the object. -/
def approved (L : Lamp) {N : ℕ} (A : Fin N → Troupe) (x : Fate L A) : Bool :=
  decide ((∀ j, (lampOutcome L A x j).2.2 = true) ∧ ∀ i j, (troupeOutcome L A x i j).2.2 = true)

/-- The law of an object: everything is independent. -/
noncomputable def fateLaw (μd : Measure ℝ) (L : Lamp) {N : ℕ} (A : Fin N → Troupe) (sigma : Option ℝ) :
    Measure (Fate L A) :=
  μd.prod (((densityLaw Real.sin Real.pi).prod (uniformLaw (2 * Real.pi))).prod
    (L.law.prod ((Measure.pi fun j => (A j).law).prod (noiseLaw sigma))))

/-- `Q` is the population of the given objects with their quantities; the flag says which ones are
detected. -/
structure HoldsAll (Q : Population ℝ) (flux : ℝ → ℝ → ℝ) (obs : ℝ → ℝ → ℝ) (L : Lamp) {N : ℕ}
    (A : Fin N → Troupe) (l : List (Fate L A × Bool)) : Prop where
  sources : Holds Q flux obs (l.map fun x => (sourceOf L A x.1, x.2))
  quantities : Q.attrs =
    (List.ofFn fun j => ((L.members.get j).1,
      { obs := l.map fun x => (lampOutcome L A x.1 j).2.1
        latent := l.map fun x => (lampOutcome L A x.1 j).1
        selection := Q.selection })) ++
    (List.ofFn fun i => List.ofFn fun j => (((A i).members.get j).1,
      { obs := l.map fun x => (troupeOutcome L A x.1 i j).2.1
        latent := l.map fun x => (troupeOutcome L A x.1 i j).1
        selection := Q.selection })).flatten

end Spec
end Popsynth
