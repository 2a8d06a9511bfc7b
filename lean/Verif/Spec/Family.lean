import Verif.Spec.Troupe

/-!
# Samplers with secondary samplers

A sampler draws its secondary samplers first, then its own values; these may depend on the values
of its direct secondaries.
-/

set_option autoImplicit false

open MeasureTheory

namespace Popsynth
namespace Spec

section
variable {F G : Type}

/-- Drawing sampler `id` and everything below it has given `D`; its own values are `ts` and `os`. -/
structure DrawnTree [LE F] [DecidableLE F] [OfNat F 0] [OfNat F 1] (w : World F G) (k n : Nat) (h : Heap F G) (id : Nat) (D : List (Gain F)) (ts os : List F)
    (h' : Heap F G) : Prop where
  run : samplerDraw w k id n h = .ok () h'
  changed : Changed n h h' D
  stored : ∀ (h'' : Heap F G) (k' : Nat), k ≤ k' → (∀ j ∈ D.map Gain.id, h''.samplers j = h'.samplers j) →
    secProps h'' k' id = .ok (D.map Gain.stored)
  own : id ∈ D.map Gain.id
  latent : (h'.samplers id).trueVals = some ts
  obs : (h'.samplers id).obsVals = some os

end

/-- For an index that does not exist. -/
def noOutcome : Outcome := (0, 0, true)

/-- A sampler with everything below it: names and numbers in the order in which quantities are
stored, the law of the chances of an object, what comes out of all samplers, in the same order, and
the true and the observed value of the sampler itself. -/
structure Act where
  key : String
  id : ℕ
  members : List (String × ℕ × ℕ)
  κ : Type
  [space : MeasurableSpace κ]
  law : Measure κ
  outcomes : Seen → κ → List Outcome
  own : Seen → κ → ℝ × ℝ

attribute [instance] Act.space

/-- As an attached sampler. -/
def Act.troupe (T : Act) : Troupe where
  key := T.key
  id := T.id
  members := T.members
  κ := T.κ
  law := T.law
  response x c j := (T.outcomes x c).getD j noOutcome

/-- The sampler has been handed the positions, and if `lit` the luminosities. -/
def handed (lit : Bool) (s : Sampler ℝ) {n : ℕ} (x : Fin n → Seen) : Sampler ℝ :=
  { s with luminosity := if lit then some (List.ofFn fun i => (x i).2.2) else s.luminosity
           spatial := some (positions fun i => ((x i).1, (x i).2.1)) }

/-- What a handed sampler with the named direct secondaries sees when these have the given true and
observed values. -/
def viewOf (lit : Bool) (s : Sampler ℝ) {m : ℕ} (names : Fin m → String) {n : ℕ} (x : Fin n → Seen)
    (vals : Fin n → Fin m → ℝ × ℝ) : SView ℝ where
  params := s.params
  isObserved := s.isObserved
  luminosity := if lit then some (List.ofFn fun i => (x i).2.2) else s.luminosity
  spatial := some (positions fun i => ((x i).1, (x i).2.1))
  trueVals := s.trueVals
  obsVals := s.obsVals
  secs := List.ofFn fun j => (names j, (some (List.ofFn fun i => (vals i j).1), some (List.ofFn fun i => (vals i j).2)))

/-- What `n` objects give, from the list of outcomes of each. -/
def gainsList (who : List (String × ℕ × ℕ)) {n : ℕ} (out : Fin n → List Outcome) (prs : List (List ℝ)) :
    List (Gain ℝ) :=
  gainsOf who (fun i j => (out i).getD j noOutcome) fun j => prs.getD j []

variable {G : Type} [MeasurableSpace G]

/-- Sampler `T.id` of the heap `h₀`, handed the positions, and if `lit` the luminosities, responds
with everything below it as `T` says, for every object independently. -/
structure Sings (P : Measure G) (w : World ℝ G) (k : ℕ) (h₀ : Heap ℝ G) (lit : Bool) (T : Act) :
    Prop where
  law : IsProbabilityMeasure T.law
  outcomes : ∀ j, Measurable fun q : Seen × T.κ => (T.outcomes q.1 q.2).getD j noOutcome
  own : Measurable fun q : Seen × T.κ => T.own q.1 q.2
  length : ∀ x c, (T.outcomes x c).length = T.members.length
  lead : T.id ∈ T.members.map fun p => p.2.1
  draws : ∀ n, Samples P (iid n T.law) fun _ g u g' => ∀ (h : Heap ℝ G) (x : Fin n → Seen),
    (∀ p ∈ T.members, p.2.1 ≠ T.id → h.samplers p.2.1 = h₀.samplers p.2.1) →
    (∀ p ∈ T.members, h.selectors p.2.2 = h₀.selectors p.2.2) →
    h.samplers T.id = handed lit (h₀.samplers T.id) x → h.rng = g →
    ∃ h' prs, prs.length = T.members.length ∧
      DrawnTree w k n h T.id (gainsList T.members (fun i => T.outcomes (x i) (u i)) prs)
        (List.ofFn fun i => (T.own (x i) (u i)).1) (List.ofFn fun i => (T.own (x i) (u i)).2) h' ∧
      h'.rng = g'

/-- The selector of a sampler, given the distances (if the sampler uses them), the luminosities (if
`lit`) and the observed values of the objects, selects those for which the triple and a random
number with law `ν` are in `D`, for all objects independently. -/
structure Picks (P : Measure G) (w : World ℝ G) (sel : Selector ℝ G) (usesDistance lit : Bool)
    (ν : Measure ℝ) (D : Set ((ℝ × ℝ × ℝ) × ℝ)) [DecidablePred (· ∈ D)] : Prop where
  law : IsProbabilityMeasure ν
  rule : MeasurableSet D
  unity : sel.kind.isUnity = true → D = Set.univ
  draws : ∀ n, Samples P (iid n ν) fun _ g u g' => ∀ r l o : Fin n → ℝ, ∃ sel',
    selDraw w.sel w.half w.ninety w.showProgress n
      { sel := { sel with data := { sel.data with
                   distance := if usesDistance then some (List.ofFn r) else sel.data.distance
                   luminosity := if lit then some (List.ofFn l) else sel.data.luminosity
                   obsValue := some (List.ofFn o) } }
        rng := g } = .ok () { sel := sel', rng := g' } ∧
    sel'.kind = sel.kind ∧
    sel'.selection = some (List.ofFn fun i => decide (((r i, l i, o i), u i) ∈ D))

/-- A sampler with `m` direct secondaries: the laws of its random numbers for true values, observed
values and selections, its true value from that of the secondaries and a random number, its
observed value from those, the true value and a random number, and its selection rule. -/
structure Lead (m : ℕ) where
  key : String
  id : ℕ
  sel : ℕ
  μ : Measure ℝ
  ν : Measure ℝ
  ν' : Measure ℝ
  latent : Seen → (Fin m → ℝ × ℝ) → ℝ → ℝ
  noisy : Seen → (Fin m → ℝ × ℝ) → ℝ → ℝ → ℝ
  D : Set ((ℝ × ℝ × ℝ) × ℝ)

open Classical in
/-- The sampler of the heap `h₀` behaves as `R` says; `ok` is a property of its parameters. -/
structure Leads (P : Measure G) (w : World ℝ G) (h₀ : Heap ℝ G) (lit : Bool) {m : ℕ}
    (names : Fin m → String) (ok : Obj ℝ → Prop) (R : Lead m) : Prop where
  new : (h₀.samplers R.id).isSampled = false
  dark : (h₀.samplers R.id).luminosity = none
  name : (h₀.samplers R.id).name = R.key
  selector : (h₀.samplers R.id).selector = R.sel
  laws : IsProbabilityMeasure R.μ ∧ IsProbabilityMeasure R.ν
  latent_measurable : Measurable fun q : Seen × (Fin m → ℝ × ℝ) × ℝ => R.latent q.1 q.2.1 q.2.2
  noisy_measurable :
    Measurable fun q : Seen × (Fin m → ℝ × ℝ) × ℝ × ℝ => R.noisy q.1 q.2.1 q.2.2.1 q.2.2.2
  latents : ∀ n, Samples P (iid n R.μ) fun _ g t g' => ∀ x (vals : Fin n → Fin m → ℝ × ℝ),
    ∃ p1, ok p1 ∧ (w.code R.id).trueSampler (viewOf lit (h₀.samplers R.id) names x vals) n g =
      { trueVals := some (List.ofFn fun i => R.latent (x i) (vals i) (t i))
        obsVals := (h₀.samplers R.id).obsVals, params := p1, rng := g' }
  errors : ∀ n, Samples P (iid n R.ν) fun _ g z g' => ∀ x (vals : Fin n → Fin m → ℝ × ℝ) t p1, ok p1 →
    ∃ p2, ok p2 ∧ if (h₀.samplers R.id).isObserved = true then
      (w.code R.id).obsSampler { viewOf lit (h₀.samplers R.id) names x vals with
        trueVals := some (List.ofFn t), params := p1 } n g =
      { trueVals := some (List.ofFn t)
        obsVals := some (List.ofFn fun i => R.noisy (x i) (vals i) (t i) (z i)), params := p2, rng := g' }
      else (∀ i, R.noisy (x i) (vals i) (t i) (z i) = t i) ∧ p2 = p1 ∧ g' = g
  prob : ∀ n x (vals : Fin n → Fin m → ℝ × ℝ) (t o : Fin n → ℝ) p2, ok p2 →
    ∃ pr, (w.code R.id).prob { viewOf lit (h₀.samplers R.id) names x vals with
      trueVals := some (List.ofFn t), obsVals := some (List.ofFn o), params := p2 } = .ok pr ∧
      ∀ l, pr = some l → l.length = n
  choice : Picks P w (h₀.selectors R.sel) (h₀.samplers R.id).usesDistance lit R.ν' R.D

open Classical in
/-- What comes out of the sampler itself. -/
noncomputable def Lead.outcome {m : ℕ} (R : Lead m) (x : Seen) (vals : Fin m → ℝ × ℝ) (c : Chance) : Outcome :=
  let t := R.latent x vals c.1
  let o := R.noisy x vals t c.2.1
  (t, o, decide (((x.1, x.2.2, o), c.2.2) ∈ R.D))

/-- A sampler with its direct secondaries and everything below them. -/
noncomputable def Act.family {m : ℕ} (kids : Fin m → Act) (R : Lead m) : Act where
  key := R.key
  id := R.id
  members := (List.ofFn fun j => (kids j).members).flatten ++ [(R.key, R.id, R.sel)]
  κ := (∀ j, (kids j).κ) × Chance
  law := (Measure.pi fun j => (kids j).law).prod (R.μ.prod (R.ν.prod R.ν'))
  outcomes x c := (List.ofFn fun j => (kids j).outcomes x (c.1 j)).flatten ++
    [R.outcome x (fun j => (kids j).own x (c.1 j)) c.2]
  own x c :=
    let z := R.outcome x (fun j => (kids j).own x (c.1 j)) c.2
    (z.1, z.2.1)

/-- The direct secondaries of the sampler, and that names and numbers are different. -/
structure Linked (h₀ : Heap ℝ G) {m : ℕ} (kids : Fin m → Act) (R : Lead m) : Prop where
  secondaries : (h₀.samplers R.id).secondaries = List.ofFn fun j => ((kids j).key, (kids j).id)
  has : (h₀.samplers R.id).hasSecondary = true ∨ m = 0
  secondary : ∀ j, (h₀.samplers (kids j).id).isSecondary = true
  keys : ((Act.family kids R).members.map fun p => p.1).Nodup
  ids : ((Act.family kids R).members.map fun p => p.2.1).Nodup
  sels : ((Act.family kids R).members.map fun p => p.2.2).Nodup
  names : ∀ p ∈ (Act.family kids R).members, p.1 ≠ ""

/-- The derived luminosity sampler computes the luminosity of each object from its true and
observed value and those of its secondaries. -/
def Glows (w : World ℝ G) (h₀ : Heap ℝ G) {m : ℕ} (names : Fin m → String) (ok : Obj ℝ → Prop)
    (R : Lead m) (shine : Seen → (Fin m → ℝ × ℝ) → ℝ × ℝ → ℝ) : Prop :=
  ∀ n x (vals : Fin n → Fin m → ℝ × ℝ) (t o : Fin n → ℝ) p2, ok p2 →
    (w.code R.id).luminosity { viewOf false (h₀.samplers R.id) names x vals with
      trueVals := some (List.ofFn t), obsVals := some (List.ofFn o), params := p2 } =
      .ok (List.ofFn fun i => shine (x i) (vals i) (t i, o i))

/-- A derived luminosity sampler as a source of luminosities: its own quantity comes first. -/
noncomputable def Act.lamp {m : ℕ} (kids : Fin m → Act) (R : Lead m)
    (shine : Seen → (Fin m → ℝ × ℝ) → ℝ × ℝ → ℝ) : Lamp where
  members := (R.key, R.id, R.sel) :: (List.ofFn fun j => (kids j).members).flatten
  κ := (∀ j, (kids j).κ) × Chance
  law := (Measure.pi fun j => (kids j).law).prod (R.μ.prod (R.ν.prod R.ν'))
  shine x c :=
    let y : Seen := (x.1, x.2, 0)
    shine y (fun j => (kids j).own y (c.1 j)) ((Act.family kids R).own y c)
  response x c j :=
    let y : Seen := (x.1, x.2, 0)
    (R.outcome y (fun j => (kids j).own y (c.1 j)) c.2 ::
      (List.ofFn fun j => (kids j).outcomes y (c.1 j)).flatten).getD j noOutcome

/-- A luminosity distribution as a source of luminosities. -/
def Lamp.plain (μ : Measure ℝ) : Lamp where
  members := []
  κ := ℝ
  law := μ
  shine _ c := c
  response _ _ j := j.elim0

end Spec
end Popsynth
