import Verif.Lemmas.SameSetup

/-!
Surveys of two synths that are set up alike.
-/

set_option autoImplicit false
set_option linter.unusedSectionVars false

namespace Popsynth

variable {F G : Type}

/-! ### Parts without state -/

/-- Related values, or the same exception. -/
def EAlike {α β : Type} (Q : α → β → Prop) : Except Err α → Except Err β → Prop
  | .ok a, .ok b => Q a b
  | .error e, .error e' => e = e'
  | _, _ => False

theorem EAlike.refl {α : Type} {Q : α → α → Prop} (x : Except Err α) (h : ∀ a, Q a a) :
    EAlike Q x x := by
  cases x with
  | ok a => exact h a
  | error e => rfl

theorem EAlike.bind {α β γ δ : Type} {Q : α → β → Prop} {Q' : γ → δ → Prop} {x : Except Err α}
    {x' : Except Err β} {f : α → Except Err γ} {f' : β → Except Err δ} (h : EAlike Q x x')
    (hf : ∀ a b, Q a b → EAlike Q' (f a) (f' b)) : EAlike Q' (x >>= f) (x' >>= f') := by
  cases x <;> cases x'
  · exact h
  · exact h.elim
  · exact h.elim
  · exact hf _ _ h

theorem Alike.liftEA {σ τ α β : Type} {Q : α → β → Prop} {I : σ → τ → Prop} {x : Except Err α}
    {x' : Except Err β} {s : σ} {t : τ} (h : EAlike Q x x') (hi : I s t) :
    Alike (fun a b s t => Q a b ∧ I s t) ((liftE x : Py σ α) s) ((liftE x' : Py τ β) t) := by
  cases x <;> cases x'
  · exact h
  · exact h.elim
  · exact h.elim
  · exact ⟨h, hi⟩

theorem EAlike.foldlM {α β γ δ : Type} {r : α → β → Prop} {Q : γ → δ → Prop}
    {f : γ → α → Except Err γ} {f' : δ → β → Except Err δ} {l : List α} {m : List β}
    (hl : All2 r l m) {b : γ} {b' : δ} (h0 : Q b b')
    (hf : ∀ x y, r x y → ∀ b b', Q b b' → EAlike Q (f b x) (f' b' y)) :
    EAlike Q (l.foldlM f b) (m.foldlM f' b') := by
  induction hl generalizing b b' with
  | nil => exact h0
  | cons hr _ ih =>
    rw [List.foldlM_cons, List.foldlM_cons]
    exact EAlike.bind (hf _ _ hr _ _ h0) fun a b h => ih h

/-! ### Collected quantities -/

/-- Corresponding entries. -/
structure SecAlike (r : Corr) (a b : SecC F) : Prop where
  name : a.name = b.name
  trueVals : a.trueVals = b.trueVals
  obsVals : a.obsVals = b.obsVals
  selection : r.sel a.selection b.selection
  prob : a.prob = b.prob

/-- Corresponding dictionaries of quantities. -/
def StorAlike (r : Corr) : Storage F → Storage F → Prop :=
  All2 fun p q => p.1 = q.1 ∧ SecAlike r p.2 q.2

theorem StorAlike.set {r : Corr} {a b : Storage F} (h : StorAlike r a b) (k : String) {x y : SecC F}
    (hx : SecAlike r x y) : StorAlike r (Dict.set a k x) (Dict.set b k y) := by
  unfold StorAlike at h ⊢
  induction h with
  | nil => exact .cons ⟨rfl, hx⟩ .nil
  | @cons p q l m hp hl ih =>
    obtain ⟨k1, v1⟩ := p
    obtain ⟨k2, v2⟩ := q
    obtain ⟨e, hv⟩ := hp
    simp only at e hv
    subst e
    unfold Dict.set
    split
    · exact .cons ⟨rfl, hx⟩ hl
    · exact .cons ⟨rfl, hv⟩ ih

theorem StorAlike.isEmpty {r : Corr} {a b : Storage F} (h : StorAlike r a b) :
    Storage.isEmpty a = Storage.isEmpty b := by
  unfold Storage.isEmpty
  unfold StorAlike at h
  induction h with
  | nil => rfl
  | cons hp _ ih => rw [List.all_cons, List.all_cons, ih, hp.1]

theorem StorAlike.add {r : Corr} {a b c d : Storage F} (h : StorAlike r a b) (h' : StorAlike r c d) :
    StorAlike r (Storage.add a c) (Storage.add b d) := by
  unfold Storage.add
  rw [← h.isEmpty, ← h'.isEmpty]
  split
  · exact h'
  · split
    · exact h
    · rename_i hx hy
      clear hx hy
      unfold StorAlike at h'
      induction h' generalizing a b with
      | nil => exact h
      | cons hp _ ih =>
        rw [List.foldl_cons, List.foldl_cons, hp.1]
        exact ih (h.set _ hp.2)

theorem SmpAlike.probability [OfNat F 1] {r : Corr} {a b : Sampler F} (h : SmpAlike r a b) :
    a.probability = b.probability := by
  unfold Sampler.probability
  rw [h.prob, h.trueVals]

theorem secProps_alike [OfNat F 1] {r : Corr} {h h' : Heap F G} (a : HeapAlike r h h') :
    ∀ (k i i' : Nat), r.smp i i' → EAlike (StorAlike r) (secProps h k i) (secProps h' k i')
  | 0, _, _, _ => rfl
  | k + 1, i, i', hi => by
    have s := a.smp i i' hi
    have last : ∀ x y : Storage F, StorAlike r x y → StorAlike r
        (Dict.set x (h.samplers i).name
          { name := (h.samplers i).name, trueVals := (h.samplers i).trueVals,
            obsVals := (h.samplers i).obsVals, selection := (h.samplers i).selector,
            prob := (h.samplers i).probability })
        (Dict.set y (h'.samplers i').name
          { name := (h'.samplers i').name, trueVals := (h'.samplers i').trueVals,
            obsVals := (h'.samplers i').obsVals, selection := (h'.samplers i').selector,
            prob := (h'.samplers i').probability }) := by
      intro x y hxy
      rw [← s.name]
      exact StorAlike.set hxy _ ⟨rfl, s.trueVals, s.obsVals, s.selector, s.probability⟩
    unfold secProps
    dsimp only
    rw [← s.hasSecondary]
    split
    · refine EAlike.bind (Q := StorAlike r) ?_ fun x y hxy => last x y hxy
      refine EAlike.foldlM s.secondaries All2.nil fun p q hpq b b' hb => ?_
      exact EAlike.bind (secProps_alike a k _ _ hpq.2) fun x y hxy => hb.add hxy
    · exact last _ _ All2.nil

theorem secTruths_alike {r : Corr} {h h' : Heap F G} (a : HeapAlike r h h') {i i' : Nat}
    (hi : r.smp i i') (t : Dict (Dict F)) : secTruths h i t = secTruths h' i' t := by
  have := (a.smp i i' hi).secondaries
  unfold secTruths
  generalize (h.samplers i).secondaries = l at this
  generalize (h'.samplers i').secondaries = m at this
  induction this generalizing t with
  | nil => rfl
  | cons hp _ ih =>
    rw [List.foldl_cons, List.foldl_cons, (a.smp _ _ hp.2).name, (a.smp _ _ hp.2).params]
    exact ih _

/-! ### The graph -/

theorem graph_modify (f : Graph → Graph) {g g' : Graph} (h : g = g') :
    Alike (fun _ _ g g' => g = g') ((modify f : Py Graph PUnit) g) ((modify f : Py Graph PUnit) g') := by
  subst h; exact rfl

theorem graphSecs_alike {r : Corr} {h h' : Heap F G} (a : HeapAlike r h h') :
    ∀ (k i i' : Nat) (nm : String) (g g' : Graph), r.smp i i' → g = g' →
      Alike (fun _ _ g g' => g = g') (graphSecs h k i nm g) (graphSecs h' k i' nm g')
  | 0, _, _, _, _, _, _, _ => rfl
  | k + 1, i, i', nm, g, g', hi, hg => by
    have s := a.smp i i' hi
    unfold graphSecs
    rw [← s.hasSecondary]
    split
    · refine Alike.forEach' s.secondaries hg fun p q hpq g g' hg => ?_
      have t := a.smp _ _ hpq.2
      rw [← hpq.1, ← t.isObserved, ← t.usesDistance, ← t.obsName]
      refine Alike.bind (graph_modify _ hg) fun _ _ g g' hg => ?_
      have tail : ∀ g g', g = g' → Alike (fun _ _ g g' => g = g')
          ((if (h.samplers p.2).usesDistance = true then
              (do raise Err.attribute; graphSecs h k p.2 p.1) else graphSecs h k p.2 p.1 :
              Py Graph Unit) g)
          ((if (h.samplers p.2).usesDistance = true then
              (do raise Err.attribute; graphSecs h' k q.2 p.1) else graphSecs h' k q.2 p.1 :
              Py Graph Unit) g') := by
        intro g g' hg
        split
        · rfl
        · exact graphSecs_alike a k _ _ _ _ _ hpq.2 hg
      split
      · exact Alike.bind (graph_modify _ hg) fun _ _ g g' hg => tail g g' hg
      · exact tail g g' hg
    · exact hg

/-- Both missing, or both there and corresponding. -/
def OptAlike (r : Nat → Nat → Prop) : Option Nat → Option Nat → Prop
  | none, none => True
  | some a, some b => r a b
  | _, _ => False

/-- Synths that are set up alike. -/
structure SynthAlike (r : Corr) (y y' : Synth F) : Prop where
  name : y.name = y'.name
  seed : y.seed = y'.seed
  spatialName : y.spatialName = y'.spatialName
  lumName : y.lumName = y'.lumName
  nModel : y.nModel = y'.nModel
  modelSpaces : y.modelSpaces = y'.modelSpaces
  spatialForm : y.spatialForm = y'.spatialForm
  lumForm : y.lumForm = y'.lumForm
  aux : All2 (fun p q => p.1 = q.1 ∧ r.smp p.2 q.2) y.aux y'.aux
  derived : OptAlike r.smp y.derived y'.derived
  fluxSel : r.sel y.fluxSel y'.fluxSel
  distSel : r.sel y.distSel y'.distSel
  fluxSelSet : y.fluxSelSet = y'.fluxSelSet
  distSelSet : y.distSelSet = y'.distSelSet
  spatSel : OptAlike r.sel y.spatSel y'.spatSel

theorem buildGraph_alike {r : Corr} {h h' : Heap F G} (a : HeapAlike r h h') {y y' : Synth F}
    (hy : SynthAlike r y y') (fuel : Nat) {g g' : Graph} (hg : g = g') :
    Alike (fun _ _ g g' => g = g') (buildGraph fuel y h g) (buildGraph fuel y' h' g') := by
  unfold buildGraph
  rw [← hy.spatialName]
  refine Alike.bind (graph_modify _ hg) fun _ _ g g' hg => ?_
  have tail : ∀ g g', g = g' → Alike (fun _ _ g g' => g = g')
      (forEach y.aux (graphAux fuel y h) g) (forEach y'.aux (graphAux fuel y' h') g') := by
    intro g g' hg
    refine Alike.forEach' hy.aux hg fun p q hpq g g' hg => ?_
    have t := a.smp _ _ hpq.2
    unfold graphAux
    rw [← hpq.1, ← t.isSecondary, ← t.isObserved, ← t.usesDistance, ← t.obsName, ← hy.spatialName]
    refine Alike.bind (Alike.assert' (Q := fun _ _ g g' => g = g') hg) fun _ _ g g' hg => ?_
    refine Alike.bind (graph_modify _ hg) fun _ _ g g' hg => ?_
    have tail : ∀ g g', g = g' → Alike (fun _ _ g g' => g = g')
        (forEach (h.samplers p.2).secondaries (graphAuxSec fuel y h p.1) g)
        (forEach (h'.samplers q.2).secondaries (graphAuxSec fuel y' h' p.1) g') := by
      intro g g' hg
      refine Alike.forEach' t.secondaries hg fun u v huv g g' hg => ?_
      have x := a.smp _ _ huv.2
      unfold graphAuxSec
      rw [← huv.1, ← x.isObserved, ← x.usesDistance, ← x.obsName, ← hy.spatialName]
      refine Alike.bind (graph_modify _ hg) fun _ _ g g' hg => ?_
      split <;> split
      · refine Alike.bind (graph_modify _ hg) fun _ _ g g' hg => ?_
        refine Alike.bind (graph_modify _ hg) fun _ _ g g' hg => ?_
        exact graphSecs_alike a _ _ _ _ _ _ huv.2 hg
      · refine Alike.bind (graph_modify _ hg) fun _ _ g g' hg => ?_
        exact graphSecs_alike a _ _ _ _ _ _ huv.2 hg
      · refine Alike.bind (graph_modify _ hg) fun _ _ g g' hg => ?_
        exact graphSecs_alike a _ _ _ _ _ _ huv.2 hg
      · exact graphSecs_alike a _ _ _ _ _ _ huv.2 hg
    split
    · refine Alike.bind (graph_modify _ hg) fun _ _ g g' hg => ?_
      split
      · exact Alike.bind (graph_modify _ hg) fun _ _ g g' hg => tail g g' hg
      · exact tail g g' hg
    · exact tail g g' hg
  have hd := hy.derived
  rw [← hy.lumName]
  cases e : y.derived with
  | none =>
    cases e' : y'.derived with
    | some d' => rw [e, e'] at hd; exact hd.elim
    | none =>
      cases y.lumName with
      | none => rfl
      | some l => exact Alike.bind (graph_modify _ hg) fun _ _ g g' hg => tail g g' hg
  | some d =>
    cases e' : y'.derived with
    | none => rw [e, e'] at hd; exact hd.elim
    | some d' =>
      rw [e, e'] at hd
      replace hd : r.smp d d' := hd
      simp only
      refine Alike.bind (Q := fun _ _ g g' => g = g') ?_ fun _ _ g g' hg => tail g g' hg
      have t := a.smp _ _ hd
      unfold graphDerived
      rw [← t.name, ← t.usesDistance, ← hy.spatialName]
      refine Alike.bind (graph_modify _ hg) fun _ _ g g' hg => ?_
      have tail : ∀ g g', g = g' → Alike (fun _ _ g g' => g = g')
          (forEach (h.samplers d).secondaries (fun p => do
            modify fun g => (g.addNode p.1 none).addEdge p.1 (h.samplers d).name
            graphSecs h fuel p.2 p.1) g)
          (forEach (h'.samplers d').secondaries (fun p => do
            modify fun g => (g.addNode p.1 none).addEdge p.1 (h.samplers d).name
            graphSecs h' fuel p.2 p.1) g') := by
        intro g g' hg
        refine Alike.forEach' t.secondaries hg fun u v huv g g' hg => ?_
        rw [← huv.1]
        exact Alike.bind (graph_modify _ hg) fun _ _ g g' hg =>
          graphSecs_alike a _ _ _ _ _ _ huv.2 hg
      split
      · exact Alike.bind (graph_modify _ hg) fun _ _ g g' hg => tail g g' hg
      · exact tail g g' hg

/-! ### The survey -/

/-- States of synths that are set up alike. -/
structure SurvAlike (r : Corr) (s s' : SurvSt F G) : Prop where
  heap : HeapAlike r s.heap s'.heap
  sp : s.sp = s'.sp
  lum : s.lum = s'.lum
  graph : s.graph = s'.graph

/-- Local variables. -/
structure LocAlike (r : Corr) (a b : Loc F) : Prop where
  truth : a.truth = b.truth
  auxq : StorAlike r a.auxq b.auxq
  prob : a.prob = b.prob

section survey
variable {r : Corr}

theorem onHeap_alike {α β : Type} {Q : α → β → Prop} {m : Py (Heap F G) α} {m' : Py (Heap F G) β}
    {s s' : SurvSt F G} (a : SurvAlike r s s')
    (hm : Alike (fun x y h h' => Q x y ∧ HeapAlike r h h') (m s.heap) (m' s'.heap)) :
    Alike (fun x y s s' => Q x y ∧ SurvAlike r s s') (onHeap m s) (onHeap m' s') := by
  unfold onHeap
  cases e : m s.heap <;> cases e' : m' s'.heap <;> rw [e, e'] at hm
  · exact ⟨hm.1, hm.2, a.sp, a.lum, a.graph⟩
  · exact hm.elim
  · exact hm.elim
  · exact hm

theorem onHeap_unit {m m' : Py (Heap F G) Unit} {s s' : SurvSt F G} (a : SurvAlike r s s')
    (hm : Alike (fun _ _ => HeapAlike r) (m s.heap) (m' s'.heap)) :
    Alike (fun _ _ => SurvAlike r) (onHeap m s) (onHeap m' s') :=
  (onHeap_alike (Q := fun _ _ => True) a (hm.imp fun _ _ _ _ h => ⟨trivial, h⟩)).imp
    fun _ _ _ _ h => h.2

theorem onSpatial_alike {α : Type} (m : Py (SpSt F G) α) {s s' : SurvSt F G} (a : SurvAlike r s s') :
    Alike (fun x y s s' => x = y ∧ SurvAlike r s s') (onSpatial m s) (onSpatial m s') := by
  unfold onSpatial
  rw [← a.sp, ← a.heap.rng]
  cases m { sp := s.sp, rng := s.heap.rng } with
  | ok x t => exact ⟨rfl, a.heap.withRng rfl, rfl, a.lum, a.graph⟩
  | error e t => rfl

theorem onLum_alike {α : Type} (m : Py (LumSt F G) α) {s s' : SurvSt F G} (a : SurvAlike r s s') :
    Alike (fun x y s s' => x = y ∧ SurvAlike r s s') (onLum m s) (onLum m s') := by
  unfold onLum
  rw [← a.lum, ← a.heap.rng]
  cases m { lum := s.lum, rng := s.heap.rng } with
  | ok x t => exact ⟨rfl, a.heap.withRng rfl, a.sp, rfl, a.graph⟩
  | error e t => rfl

theorem onRng_alike {α : Type} (f : G → Except Err α × G) {s s' : SurvSt F G}
    (a : SurvAlike r s s') :
    Alike (fun x y s s' => x = y ∧ SurvAlike r s s') (onRng f s) (onRng f s') := by
  unfold onRng
  rw [← a.heap.rng]
  obtain ⟨x, g⟩ := f s.heap.rng
  cases x with
  | ok x => exact ⟨rfl, a.heap.withRng rfl, a.sp, a.lum, a.graph⟩
  | error e => rfl

theorem onGraph_alike {m m' : Py Graph Unit} {s s' : SurvSt F G} (a : SurvAlike r s s')
    (hm : Alike (fun _ _ g g' => g = g') (m s.graph) (m' s'.graph)) :
    Alike (fun _ _ => SurvAlike r) (onGraph m s) (onGraph m' s') := by
  unfold onGraph
  cases e : m s.graph <;> cases e' : m' s'.graph <;> rw [e, e'] at hm
  · exact ⟨a.heap, a.sp, a.lum, hm⟩
  · exact hm.elim
  · exact hm.elim
  · exact hm

theorem liftE_alike {α : Type} (x : Except Err α) {s s' : SurvSt F G} (a : SurvAlike r s s') :
    Alike (fun x y s s' => x = y ∧ SurvAlike r s s') ((liftE x : Py (SurvSt F G) α) s)
      ((liftE x : Py (SurvSt F G) α) s') := Alike.liftEq fun _ => ⟨rfl, a⟩

theorem assert_alike (b : Bool) {s s' : SurvSt F G} (a : SurvAlike r s s') :
    Alike (fun _ _ => SurvAlike r) ((pyAssert b : Py (SurvSt F G) Unit) s)
      ((pyAssert b : Py (SurvSt F G) Unit) s') := Alike.assert' a

variable (e : SurveyEnv F G) (w' : World F G) (td : Synth F → SurvSt F G → Except Err (PVal F))

/-- The same environment but for the classes of the samplers and `to_dict`. -/
abbrev SurveyEnv.other : SurveyEnv F G := { e with world := w', toDict := td }

theorem countObjects_alike (ns : Option Nat) (nz : Bool) {s s' : SurvSt F G} (a : SurvAlike r s s') :
    Alike (fun x y s s' => x = y ∧ SurvAlike r s s') (countObjects e ns nz s)
      (countObjects (e.other w' td) ns nz s') := by
  unfold countObjects
  cases ns with
  | some n => exact ⟨rfl, a⟩
  | none =>
    refine Alike.bind (onSpatial_alike _ a) fun N N' s s' h => ?_
    obtain ⟨rfl, a⟩ := h
    exact onRng_alike _ a

theorem spatialValues_alike {s s' : SurvSt F G} (a : SurvAlike r s s') :
    Alike (fun x y s s' => x = y ∧ SurvAlike r s s') (spatialValues s) (spatialValues s') := by
  unfold spatialValues
  rw [← a.sp]
  rcases s.sp.distances with _ | d <;> rcases s.sp.theta with _ | t <;>
    rcases s.sp.phi with _ | p <;> first | rfl | exact ⟨rfl, a⟩

variable [LE F] [DecidableLE F] [OfNat F 0] [OfNat F 1]

theorem drawPositions_alike (n : Nat) (nz : Bool) {s s' : SurvSt F G} (a : SurvAlike r s s') :
    Alike (fun x y s s' => x = y ∧ SurvAlike r s s') (drawPositions e n nz s)
      (drawPositions (e.other w' td) n nz s') := by
  unfold drawPositions
  refine Alike.bind (onSpatial_alike _ a) fun _ _ s s' h => ?_
  obtain ⟨-, a⟩ := h
  refine Alike.get' ?_
  rw [← a.sp]
  refine Alike.bind (liftE_alike _ a) fun p p' s s' h => ?_
  obtain ⟨rfl, a⟩ := h
  refine Alike.bind (onSpatial_alike _ a) fun _ _ s s' h => ?_
  obtain ⟨-, a⟩ := h
  refine Alike.bind (spatialValues_alike a) fun v v' s s' h => ?_
  obtain ⟨rfl, a⟩ := h
  exact ⟨rfl, a⟩

variable (ho : r.OneToOne) (hw : WorldAlike r e.world w')
include ho hw

theorem derivedLuminosity_alike (n : Nat) (v : Spatial F) {d d' : Nat} (hd : r.smp d d')
    {loc loc' : Loc F} (hl : LocAlike r loc loc') {s s' : SurvSt F G} (a : SurvAlike r s s') :
    Alike (fun x y s s' => (x.1 = y.1 ∧ LocAlike r x.2 y.2) ∧ SurvAlike r s s')
      (derivedLuminosity e n v d loc s) (derivedLuminosity (e.other w' td) n v d' loc' s') := by
  unfold derivedLuminosity
  refine Alike.bind (onHeap_unit a (setSpatialValues_alike ho a.heap hd v)) fun _ _ s s' a => ?_
  refine Alike.bind (onHeap_unit a (samplerDraw_alike ho hw n _ _ _ _ _ hd a.heap))
    fun _ _ s s' a => ?_
  refine Alike.get' ?_
  have t := a.heap.smp _ _ hd
  dsimp only
  rw [← t.trueVals, ← t.obsVals, ← t.name, ← t.params, ← t.probability, ← hw.code _ _ hd,
    ← a.heap.view hd]
  have a0 := a
  have ah := a.heap
  refine Alike.bind (assert_alike _ a) fun _ _ s1 s1' a => ?_
  refine Alike.bind (assert_alike _ a) fun _ _ s1 s1' a => ?_
  refine Alike.bind (liftE_alike _ a) fun l l' s1 s1' h => ?_
  obtain ⟨rfl, a⟩ := h
  refine Alike.bind (Alike.liftEA (Q := StorAlike r) (I := SurvAlike r) ?_ a)
    fun x y s1 s1' h => ?_
  · refine EAlike.foldlM t.secondaries
      (StorAlike.set hl.auxq _ ⟨rfl, rfl, rfl, t.selector, rfl⟩) fun p q hpq b b' hb => ?_
    exact EAlike.bind (secProps_alike ah _ _ _ hpq.2) fun x y hxy => hb.add hxy
  · refine ⟨⟨rfl, ?_, h.1, hl.prob⟩, h.2⟩
    rw [hl.truth]
    exact secTruths_alike ah hd _

omit [LE F] [DecidableLE F] [OfNat F 0] [OfNat F 1] ho hw in
theorem distLuminosity_alike (n : Nat) (name : String)
    {loc loc' : Loc F} (hl : LocAlike r loc loc') {s s' : SurvSt F G} (a : SurvAlike r s s') :
    Alike (fun x y s s' => (x.1 = y.1 ∧ LocAlike r x.2 y.2) ∧ SurvAlike r s s')
      (distLuminosity e n name loc s) (distLuminosity (e.other w' td) n name loc' s') := by
  unfold distLuminosity
  refine Alike.bind (onLum_alike _ a) fun l l' s s' h => ?_
  obtain ⟨rfl, a⟩ := h
  refine Alike.bind (onLum_alike _ a) fun _ _ s s' h => ?_
  obtain ⟨-, a⟩ := h
  refine Alike.get' ?_
  rw [← a.lum, ← hl.prob]
  have := a
  refine Alike.bind (liftE_alike _ a) fun p p' s1 s1' h => ?_
  obtain ⟨rfl, a⟩ := h
  exact ⟨⟨rfl, by dsimp only; rw [hl.truth], hl.auxq, rfl⟩, a⟩

theorem drawLuminosities_alike {y y' : Synth F} (hy : SynthAlike r y y') (n : Nat) (v : Spatial F)
    {loc loc' : Loc F} (hl : LocAlike r loc loc') {s s' : SurvSt F G} (a : SurvAlike r s s') :
    Alike (fun x y s s' => (x.1 = y.1 ∧ LocAlike r x.2 y.2) ∧ SurvAlike r s s')
      (drawLuminosities e y n v loc s) (drawLuminosities (e.other w' td) y' n v loc' s') := by
  have hd := hy.derived
  unfold drawLuminosities
  rw [← hy.lumName]
  cases e1 : y.derived with
  | none =>
    cases e2 : y'.derived with
    | some d' => rw [e1, e2] at hd; exact hd.elim
    | none =>
      cases y.lumName with
      | none => rfl
      | some l => exact distLuminosity_alike e w' td n l hl a
  | some d =>
    cases e2 : y'.derived with
    | none => rw [e1, e2] at hd; exact hd.elim
    | some d' =>
      rw [e1, e2] at hd
      exact derivedLuminosity_alike e w' td ho hw n v hd hl a

omit [LE F] [DecidableLE F] [OfNat F 0] [OfNat F 1] hw in
theorem prepareAux_alike (lums : List F) (v : Spatial F) {i i' : Nat} (hi : r.smp i i')
    {h h' : Heap F G} (a : HeapAlike r h h') :
    Alike (fun _ _ => HeapAlike r) (prepareAux lums v i h) (prepareAux lums v i' h') := by
  unfold prepareAux
  refine Alike.bind (setLuminosity_alike ho a hi lums) fun _ _ h h' a => ?_
  refine Alike.bind (setSpatialValues_alike ho a hi v) fun _ _ h h' a => ?_
  refine Alike.get' ?_
  refine Alike.forEach' (a.smp _ _ hi).secondaries a fun p q hpq h h' a => ?_
  refine Alike.get' ?_
  have t := a.smp _ _ hpq.2
  rw [← t.usesLuminosity, ← t.usesDistance]
  split
  · refine Alike.bind (setLuminosity_alike ho a hpq.2 lums) fun _ _ h h' a => ?_
    split
    · exact setSpatialValues_alike ho a hpq.2 v
    · exact a
  · split
    · exact setSpatialValues_alike ho a hpq.2 v
    · exact a

theorem auxStep_alike (n : Nat) (lums : List F) (v : Spatial F) {p q : String × Nat}
    (hpq : p.1 = q.1 ∧ r.smp p.2 q.2) {loc loc' : Loc F} (hl : LocAlike r loc loc')
    {s s' : SurvSt F G} (a : SurvAlike r s s') :
    Alike (fun x y s s' => LocAlike r x y ∧ SurvAlike r s s')
      (auxStep e n lums v loc p s) (auxStep (e.other w' td) n lums v loc' q s') := by
  unfold auxStep
  refine Alike.get' ?_
  rw [← (a.heap.smp _ _ hpq.2).isSecondary]
  refine Alike.bind (assert_alike _ a) fun _ _ s s' a => ?_
  refine Alike.bind (onHeap_unit a (prepareAux_alike ho lums v hpq.2 a.heap)) fun _ _ s s' a => ?_
  refine Alike.bind (onHeap_unit a (samplerDraw_alike ho hw n _ _ _ _ _ hpq.2 a.heap))
    fun _ _ s s' a => ?_
  refine Alike.get' ?_
  have t := a.heap.smp _ _ hpq.2
  dsimp only
  rw [← t.trueVals, ← t.obsVals, ← t.name, ← t.params]
  have ah := a.heap
  refine Alike.bind (assert_alike _ a) fun _ _ s1 s1' a => ?_
  refine Alike.bind (assert_alike _ a) fun _ _ s1 s1' a => ?_
  refine Alike.bind (Alike.liftEA (Q := StorAlike r) (I := SurvAlike r)
    (secProps_alike ah _ _ _ hpq.2) a) fun x y s1 s1' h => ?_
  refine ⟨⟨?_, hl.auxq.add h.1, hl.prob⟩, h.2⟩
  dsimp only
  rw [hl.truth]
  exact secTruths_alike ah hpq.2 _

omit [LE F] [DecidableLE F] [OfNat F 0] [OfNat F 1] ho hw in
theorem normalMany_other (sigma : F) (n : Nat) (g : G) :
    normalMany (e.other w' td) sigma n g = normalMany e sigma n g := by
  induction n generalizing g with
  | zero => rfl
  | succ n ih => unfold normalMany; simp only [ih]

omit [LE F] [DecidableLE F] [OfNat F 0] [OfNat F 1] ho hw in
theorem noisyFlux_alike (n : Nat) (sigma : F) (fwd bwd : F → F) (fluxes : List F)
    {s s' : SurvSt F G} (a : SurvAlike r s s') :
    Alike (fun x y s s' => x = y ∧ SurvAlike r s s') (noisyFlux e n sigma fwd bwd fluxes s)
      (noisyFlux (e.other w' td) n sigma fwd bwd fluxes s') := by
  unfold noisyFlux
  simp only [normalMany_other e w' td]
  have tail : ∀ {s s' : SurvSt F G}, SurvAlike r s s' →
      Alike (fun x y s s' => x = y ∧ SurvAlike r s s')
      ((do
        let xs ← onRng fun g => let r := normalMany e sigma n g; (.ok r.1, r.2)
        let l ← liftE (bcast e.add (fluxes.map fwd) xs)
        pyAssert (l.all e.isFinite)
        pure (l.map bwd) : Py (SurvSt F G) (List F)) s)
      ((do
        let xs ← onRng fun g => let r := normalMany e sigma n g; (.ok r.1, r.2)
        let l ← liftE (bcast e.add (fluxes.map fwd) xs)
        pyAssert (l.all e.isFinite)
        pure (l.map bwd) : Py (SurvSt F G) (List F)) s') := by
    intro s s' a
    refine Alike.bind (onRng_alike _ a) fun x x' s s' h => ?_
    obtain ⟨rfl, a⟩ := h
    refine Alike.bind (liftE_alike _ a) fun l l' s s' h => ?_
    obtain ⟨rfl, a⟩ := h
    refine Alike.bind (assert_alike _ a) fun _ _ s1 s1' a => ?_
    exact ⟨rfl, a⟩
  split
  · rfl
  · exact tail a

omit [LE F] [DecidableLE F] [OfNat F 0] [OfNat F 1] ho hw in
theorem observeFlux_alike {y y' : Synth F} (hy : SynthAlike r y y') (n : Nat) (fs : Option F)
    (l10 : Bool) (fluxes : List F) {s s' : SurvSt F G} (a : SurvAlike r s s') :
    Alike (fun x y s s' => x = y ∧ SurvAlike r s s') (observeFlux e y n fs l10 fluxes s)
      (observeFlux (e.other w' td) y' n fs l10 fluxes s') := by
  unfold observeFlux
  refine Alike.get' ?_
  rw [← (a.heap.sel _ _ hy.fluxSel).kind]
  split
  · cases fs with
    | none => exact ⟨rfl, a⟩
    | some sigma =>
      cases l10 with
      | true =>
        refine Alike.bind (noisyFlux_alike e w' td n sigma _ _ fluxes a) fun x x' s s' h => ?_
        obtain ⟨rfl, a⟩ := h
        exact ⟨rfl, a⟩
      | false =>
        refine Alike.bind (noisyFlux_alike e w' td n sigma _ _ fluxes a) fun x x' s s' h => ?_
        obtain ⟨rfl, a⟩ := h
        exact ⟨rfl, a⟩
  · exact ⟨rfl, a⟩

theorem selectOn_alike {q q' : Nat} (hq : r.sel q q') (n : Nat) {s s' : SurvSt F G}
    (a : SurvAlike r s s') :
    Alike (fun _ _ => SurvAlike r) (selectOn e q n s) (selectOn (e.other w' td) q' n s') := by
  unfold selectOn
  rw [← hw.sel, ← hw.half, ← hw.ninety, ← hw.showProgress]
  exact onHeap_unit a (withSelector_alike ho a.heap hq fun s t h => selSelect_alike _ _ _ _ _ h)

omit [LE F] [DecidableLE F] [OfNat F 0] [OfNat F 1] ho hw in
theorem selAdd_alike {c c' q q' : Selector F G} (hc : c = c') (hq : SelAlike q q') :
    c.add q = c'.add q' := by
  unfold Selector.add Selector.mask
  rw [hc, hq.selection]

omit [LE F] [DecidableLE F] [OfNat F 0] [OfNat F 1] ho hw in
theorem applyAux_alike {p q : String × SecC F} (hpq : p.1 = q.1 ∧ SecAlike r p.2 q.2)
    {acc acc' : Selector F G × List F} {s s' : SurvSt F G} (h : acc = acc' ∧ SurvAlike r s s') :
    Alike (fun x y s s' => x = y ∧ SurvAlike r s s') (applyAux e acc p s)
      (applyAux (e.other w' td) acc' q s') := by
  obtain ⟨rfl, a⟩ := h
  unfold applyAux
  refine Alike.get' ?_
  have c := a.heap.sel _ _ hpq.2.selection
  dsimp only
  rw [← c.kind, ← hpq.2.prob, ← selAdd_alike rfl c]
  split
  · exact ⟨rfl, a⟩
  · refine Alike.bind (liftE_alike _ a) fun x x' s1 s1' h => ?_
    obtain ⟨rfl, a1⟩ := h
    refine Alike.bind (liftE_alike _ a1) fun x x' s2 s2' h => ?_
    obtain ⟨rfl, a2⟩ := h
    exact ⟨rfl, a2⟩

theorem applySpatial_alike {y y' : Synth F} (hy : SynthAlike r y y') (n : Nat) (v : Spatial F)
    (glob : Selector F G) {s s' : SurvSt F G} (a : SurvAlike r s s') :
    Alike (fun x y s s' => x = y ∧ SurvAlike r s s') (applySpatial e y n v glob s)
      (applySpatial (e.other w' td) y' n v glob s') := by
  have hd := hy.spatSel
  unfold applySpatial
  cases e1 : y.spatSel with
  | none =>
    cases e2 : y'.spatSel with
    | some d' => rw [e1, e2] at hd; exact hd.elim
    | none => exact ⟨rfl, a⟩
  | some q =>
    cases e2 : y'.spatSel with
    | none => rw [e1, e2] at hd; exact hd.elim
    | some q' =>
      rw [e1, e2] at hd
      replace hd : r.sel q q' := hd
      simp only
      refine Alike.get' ?_
      have c := a.heap.sel _ _ hd
      rw [← c.kind]
      split
      · refine Alike.bind (Q := fun _ _ => SurvAlike r) (onHeap_unit a ?_) fun _ _ s s' a => ?_
        · exact a.heap.modSelector ho hd ⟨c.cls, c.kind, c.params, ⟨c.data.flux, c.data.obsValue,
            c.data.distance, c.data.luminosity, rfl, c.data.flags⟩, c.selection, c.isSampled⟩
        refine Alike.bind (selectOn_alike e w' td ho hw hd n a) fun _ _ s s' a => ?_
        refine Alike.get' ?_
        rw [← selAdd_alike rfl (a.heap.sel _ _ hd)]
        exact liftE_alike _ a
      · rfl

theorem applySelections_alike {y y' : Synth F} (hy : SynthAlike r y y') (n : Nat) (v : Spatial F)
    (fluxObs : List F) {loc loc' : Loc F} (hl : LocAlike r loc loc') {s s' : SurvSt F G}
    (a : SurvAlike r s s') :
    Alike (fun x y s s' => x = y ∧ SurvAlike r s s') (applySelections e y n v fluxObs loc s)
      (applySelections (e.other w' td) y' n v fluxObs loc' s') := by
  unfold applySelections
  refine Alike.bind (Q := fun _ _ => SurvAlike r) (onHeap_unit a ?_) fun _ _ s s' a => ?_
  · have c := a.heap.sel _ _ hy.fluxSel
    exact a.heap.modSelector ho hy.fluxSel ⟨c.cls, c.kind, c.params, ⟨rfl, c.data.obsValue,
      c.data.distance, c.data.luminosity, c.data.spatial, c.data.flags⟩, c.selection, c.isSampled⟩
  refine Alike.bind (selectOn_alike e w' td ho hw hy.fluxSel n a) fun _ _ s s' a => ?_
  refine Alike.bind (Alike.foldPy' (I := fun x y s s' => x = y ∧ SurvAlike r s s') hl.auxq
    ⟨by rw [hl.prob], a⟩ fun p q hpq b b' s s' h => applyAux_alike e w' td hpq h)
    fun x x' s s' h => ?_
  obtain ⟨rfl, a⟩ := h
  refine Alike.bind (liftE_alike _ a) fun x x' s s' h => ?_
  obtain ⟨rfl, a⟩ := h
  refine Alike.get' ?_
  rw [← selAdd_alike rfl (a.heap.sel _ _ hy.fluxSel)]
  refine Alike.bind (liftE_alike _ a) fun x x' s s' h => ?_
  obtain ⟨rfl, a⟩ := h
  refine Alike.bind (applySpatial_alike e w' td ho hw hy n v _ a) fun x x' s s' h => ?_
  obtain ⟨rfl, a⟩ := h
  exact ⟨rfl, a⟩

/-- What was drawn. -/
structure DrawnAlike (r : Corr) (a b : Drawn F G) : Prop where
  n : a.n = b.n
  pos : a.pos = b.pos
  lums : a.lums = b.lums
  loc : LocAlike r a.loc b.loc
  fluxes : a.fluxes = b.fluxes
  fluxObs : a.fluxObs = b.fluxObs
  sigma : a.sigma = b.sigma
  glob : a.glob = b.glob
  prob : a.prob = b.prob

theorem drawAll_alike {y y' : Synth F} (hy : SynthAlike r y y') (args : SurveyArgs F)
    {s s' : SurvSt F G} (a : SurvAlike r s s') :
    Alike (fun x y s s' => DrawnAlike r x y ∧ SurvAlike r s s') (drawAll e y args s)
      (drawAll (e.other w' td) y' args s') := by
  unfold drawAll
  refine Alike.get' ?_
  rw [← a.sp, ← hy.seed, ← hy.spatialName]
  have a0 := a
  refine Alike.bind (onRng_alike _ a) fun _ _ s1 s1' h => ?_
  obtain ⟨-, a⟩ := h
  refine Alike.bind (countObjects_alike e w' td _ _ a) fun n n' s1 s1' h => ?_
  obtain ⟨rfl, a⟩ := h
  refine Alike.bind (drawPositions_alike e w' td n _ a) fun x x' s1 s1' h => ?_
  obtain ⟨rfl, a⟩ := h
  refine Alike.bind (drawLuminosities_alike e w' td ho hw hy n x.1 (loc := ⟨_, _, _⟩)
    (loc' := ⟨_, _, _⟩) ⟨rfl, All2.nil, rfl⟩ a) fun z z' s1 s1' h => ?_
  obtain ⟨⟨e1, hl⟩, a⟩ := h
  obtain ⟨lums, loc⟩ := z
  obtain ⟨lums', loc'⟩ := z'
  simp only at e1 hl
  subst e1
  refine Alike.bind (liftE_alike _ a) fun fl fl' s1 s1' h => ?_
  obtain ⟨rfl, a⟩ := h
  refine Alike.bind (Alike.foldPy' (I := fun x y s s' => LocAlike r x y ∧ SurvAlike r s s') hy.aux
    ⟨hl, a⟩ fun p q hpq b b' s s' h => auxStep_alike e w' td ho hw n lums x.1 hpq h.1 h.2)
    fun loc loc' s1 s1' h => ?_
  obtain ⟨hl, a⟩ := h
  refine Alike.bind (observeFlux_alike e w' td hy n _ _ fl a) fun o o' s1 s1' h => ?_
  obtain ⟨rfl, a⟩ := h
  refine Alike.bind (applySelections_alike e w' td ho hw hy n x.1 o.1 hl a) fun g g' s1 s1' h => ?_
  obtain ⟨rfl, a⟩ := h
  exact ⟨⟨rfl, rfl, rfl, hl, rfl, rfl, rfl, rfl, rfl⟩, a⟩

omit [LE F] [DecidableLE F] [OfNat F 0] [OfNat F 1] ho hw in
theorem addAttrs_alike (m : List Bool) {a b : Storage F} (h : StorAlike r a b) (d : Dict (SimVar F))
    (l : List String) : addAttrs m a d l = addAttrs m b d l := by
  unfold StorAlike at h
  induction h generalizing d l with
  | nil => rfl
  | @cons p q _ _ hp _ ih =>
    obtain ⟨k1, v1⟩ := p
    obtain ⟨k2, v2⟩ := q
    obtain ⟨e, hv⟩ := hp
    simp only at e hv
    subst e
    unfold addAttrs
    simp only [hv.obsVals, hv.trueVals, ih]

/-- The same population, up to which selector objects `auxiliary` refers to. -/
structure PopAlike (r : Corr) (P P' : Population F) : Prop where
  rest : { P with auxiliary := P'.auxiliary } = P'
  auxiliary : match P.auxiliary, P'.auxiliary with
    | none, none => True
    | some a, some b => StorAlike r a b
    | _, _ => False

omit [LE F] [DecidableLE F] [OfNat F 0] [OfNat F 1] ho hw in
theorem mkPopulation_alike {a b : PopArgs F} {q q' : Storage F} (h : StorAlike r q q')
    (ha : { b with aux := some q } = a) (hb : { b with aux := some q' } = b) :
    EAlike (PopAlike r) (mkPopulation a) (mkPopulation b) := by
  rw [← ha, ← hb]
  unfold mkPopulation auxAttrs
  simp only [addAttrs_alike _ h]
  refine EAlike.bind (EAlike.refl (Q := fun a b => a = b) _ fun _ => rfl) fun _ _ e => ?_
  subst e
  refine EAlike.bind (EAlike.refl (Q := fun a b => a = b) _ fun _ => rfl) fun _ _ e => ?_
  subst e
  refine EAlike.bind (EAlike.refl (Q := fun a b => a = b) _ fun _ => rfl) fun _ _ e => ?_
  subst e
  refine EAlike.bind (EAlike.refl (Q := fun a b => a = b) _ fun _ => rfl) fun _ _ e => ?_
  subst e
  refine EAlike.bind (EAlike.refl (Q := fun a b => a = b) _ fun _ => rfl) fun _ _ e => ?_
  subst e
  refine EAlike.bind (EAlike.refl (Q := fun a b => a = b) _ fun _ => rfl) fun _ _ e => ?_
  subst e
  refine EAlike.bind (EAlike.refl (Q := fun a b => a = b) _ fun _ => rfl) fun _ _ e => ?_
  subst e
  refine EAlike.bind (EAlike.refl (Q := fun a b => a = b) _ fun _ => rfl) fun _ _ e => ?_
  subst e
  refine EAlike.bind (EAlike.refl (Q := fun a b => a = b) _ fun _ => rfl) fun _ _ e => ?_
  subst e
  exact ⟨rfl, h⟩

theorem buildPopulation_alike {y y' : Synth F} (hy : SynthAlike r y y')
    (htd : ∀ s s', SurvAlike r s s' → e.toDict y s = td y' s')
    {d d' : Drawn F G} (hd : DrawnAlike r d d') {s s' : SurvSt F G} (a : SurvAlike r s s') :
    Alike (fun P P' s s' => PopAlike r P P' ∧ SurvAlike r s s') (buildPopulation e y d s)
      (buildPopulation (e.other w' td) y' d' s') := by
  unfold buildPopulation
  rw [← hd.glob]
  refine Alike.bind (liftE_alike _ a) fun x x' s s' h => ?_
  obtain ⟨rfl, a⟩ := h
  refine Alike.bind (selectOn_alike e w' td ho hw hy.distSel _ a) fun _ _ s s' a => ?_
  refine Alike.get' ?_
  have em : (s.heap.selectors y.distSel).mask = (s'.heap.selectors y'.distSel).mask := by
    unfold Selector.mask
    rw [(a.heap.sel _ _ hy.distSel).selection]
  rw [← em, ← hd.pos]
  have ah := a.heap
  refine Alike.bind (liftE_alike _ a) fun dm dm' s1 s1' h => ?_
  obtain ⟨rfl, a⟩ := h
  refine Alike.bind (liftE_alike _ a) fun _ _ s1 s1' h => ?_
  obtain ⟨rfl, a⟩ := h
  refine Alike.bind (liftE_alike _ a) fun _ _ s1 s1' h => ?_
  obtain ⟨rfl, a⟩ := h
  refine Alike.bind (liftE_alike _ a) fun _ _ s1 s1' h => ?_
  obtain ⟨-, a⟩ := h
  refine Alike.bind (onSpatial_alike _ a) fun rm rm' s1 s1' h => ?_
  obtain ⟨rfl, a⟩ := h
  refine Alike.bind (onGraph_alike a (buildGraph_alike ah hy _ a.graph)) fun _ _ s1 s1' a => ?_
  refine Alike.get' ?_
  rw [htd s1 s1' a]
  refine Alike.bind (liftE_alike _ a) fun ps ps' s1 s1' h => ?_
  obtain ⟨rfl, a⟩ := h
  rw [← hd.lums, ← hd.fluxes, ← hd.fluxObs, ← hd.sigma, ← hy.nModel, ← hy.lumName,
    ← hy.modelSpaces, ← hy.seed, ← hy.name, ← hd.loc.truth, ← hd.prob, ← hy.spatialForm,
    ← hy.lumForm]
  exact Alike.liftEA (mkPopulation_alike hd.loc.auxq rfl rfl) a

theorem drawSurvey_alike {y y' : Synth F} (hy : SynthAlike r y y')
    (htd : ∀ s s', SurvAlike r s s' → e.toDict y s = td y' s') (args : SurveyArgs F)
    {s s' : SurvSt F G} (a : SurvAlike r s s') :
    Alike (fun P P' s s' => PopAlike r P P' ∧ SurvAlike r s s') (drawSurvey e y args s)
      (drawSurvey (e.other w' td) y' args s') :=
  Alike.bind (drawAll_alike e w' td ho hw hy args a) fun _ _ _ _ h =>
    buildPopulation_alike e w' td ho hw hy htd h.1 h.2

end survey

end Popsynth
