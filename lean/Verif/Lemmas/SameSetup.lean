import Verif.Lemmas.Survey

/-!
Two synths that are set up alike but made of different objects: corresponding runs.
-/

set_option autoImplicit false
set_option linter.unusedSectionVars false

namespace Popsynth

/-! ### Pairs of lists and of runs -/

/-- Lists of the same length with related entries. -/
inductive All2 {α β : Type} (r : α → β → Prop) : List α → List β → Prop
  | nil : All2 r [] []
  | cons {a : α} {b : β} {l : List α} {m : List β} : r a b → All2 r l m → All2 r (a :: l) (b :: m)

/-- Both runs return related values and end in related states, or both raise the same
exception. -/
def Alike {σ τ α β : Type} (Q : α → β → σ → τ → Prop) :
    EStateM.Result Err σ α → EStateM.Result Err τ β → Prop
  | .ok a s, .ok b t => Q a b s t
  | .error e _, .error e' _ => e = e'
  | _, _ => False

namespace Alike
variable {σ τ α β γ δ : Type}

theorem bind {Q : α → β → σ → τ → Prop} {Q' : γ → δ → σ → τ → Prop} {m : Py σ α} {m' : Py τ β}
    {f : α → Py σ γ} {f' : β → Py τ δ} {s : σ} {t : τ} (h : Alike Q (m s) (m' t))
    (hf : ∀ a b s1 t1, Q a b s1 t1 → Alike Q' (f a s1) (f' b t1)) :
    Alike Q' ((m >>= f) s) ((m' >>= f') t) := by
  rw [bind_apply, bind_apply]
  cases h1 : m s <;> cases h2 : m' t <;> rw [h1, h2] at h
  · exact hf _ _ _ _ h
  · exact h.elim
  · exact h.elim
  · exact h

theorem imp {Q Q' : α → β → σ → τ → Prop} {r : EStateM.Result Err σ α} {r' : EStateM.Result Err τ β}
    (h : Alike Q r r') (hi : ∀ a b s t, Q a b s t → Q' a b s t) : Alike Q' r r' := by
  cases r <;> cases r' <;> try exact h
  exact hi _ _ _ _ h

theorem get' {Q : α → β → σ → τ → Prop} {f : σ → Py σ α} {f' : τ → Py τ β} {s : σ} {t : τ}
    (h : Alike Q (f s s) (f' t t)) : Alike Q ((get >>= f) s) ((get >>= f') t) := h

theorem liftE' {Q : α → β → σ → τ → Prop} {x : Except Err α} {x' : Except Err β} {s : σ} {t : τ}
    (h : match x, x' with
      | .ok a, .ok b => Q a b s t
      | .error e, .error e' => e = e'
      | _, _ => False) :
    Alike Q ((liftE x : Py σ α) s) ((liftE x' : Py τ β) t) := by
  cases x <;> cases x' <;> exact h

theorem liftEq {Q : α → α → σ → τ → Prop} {x : Except Err α} {s : σ} {t : τ}
    (h : ∀ a, Q a a s t) : Alike Q ((liftE x : Py σ α) s) ((liftE x : Py τ α) t) := by
  cases x with
  | ok a => exact h a
  | error e => rfl

theorem assert' {Q : Unit → Unit → σ → τ → Prop} {b : Bool} {s : σ} {t : τ} (h : Q () () s t) :
    Alike Q ((pyAssert b : Py σ Unit) s) ((pyAssert b : Py τ Unit) t) := by
  cases b with
  | true => exact h
  | false => rfl

theorem forEach' {I : σ → τ → Prop} {r : α → β → Prop} {f : α → Py σ Unit} {f' : β → Py τ Unit}
    {l : List α} {m : List β} (hl : All2 r l m) {s : σ} {t : τ} (h0 : I s t)
    (hf : ∀ x y, r x y → ∀ s t, I s t → Alike (fun _ _ => I) (f x s) (f' y t)) :
    Alike (fun _ _ => I) (forEach l f s) (forEach m f' t) := by
  induction hl generalizing s t with
  | nil => exact h0
  | cons hr _ ih =>
    rw [forEach_cons, forEach_cons]
    exact bind (hf _ _ hr s t h0) fun _ _ s1 t1 h1 => ih h1

theorem foldPy' {I : γ → δ → σ → τ → Prop} {r : α → β → Prop} {f : γ → α → Py σ γ}
    {f' : δ → β → Py τ δ} {l : List α} {m : List β} (hl : All2 r l m) {b : γ} {b' : δ} {s : σ} {t : τ}
    (h0 : I b b' s t)
    (hf : ∀ x y, r x y → ∀ b b' s t, I b b' s t → Alike I (f b x s) (f' b' y t)) :
    Alike I (foldPy l b f s) (foldPy m b' f' t) := by
  induction hl generalizing b b' s t with
  | nil => exact h0
  | cons hr _ ih =>
    rw [foldPy_cons, foldPy_cons]
    exact bind (hf _ _ hr _ _ s t h0) fun _ _ s1 t1 h1 => ih h1

end Alike

/-! ### Corresponding heaps -/

variable {F G : Type}

/-- Which samplers and which selectors of two heaps correspond. -/
structure Corr where
  smp : Nat → Nat → Prop
  sel : Nat → Nat → Prop

/-- Different objects correspond to different objects. -/
structure Corr.OneToOne (r : Corr) : Prop where
  smp : ∀ i i' j j', r.smp i i' → r.smp j j' → (i = j ↔ i' = j')
  sel : ∀ q q' p p', r.sel q q' → r.sel p p' → (q = p ↔ q' = p')

/-- Classes of selectors that do not look at the flags (generic_selectors.py:25-66,
spatial_selection.py, selection_probability.py:194-195). -/
def SelKind.ignoresFlags : SelKind F G → Bool
  | .unity | .bernoulli | .dummy | .distance | .galactic => true
  | _ => false

/-- The same data, apart from flags that are not looked at. -/
structure DataAlike (kind : SelKind F G) (a b : SelData F) : Prop where
  flux : a.flux = b.flux
  obsValue : a.obsValue = b.obsValue
  distance : a.distance = b.distance
  luminosity : a.luminosity = b.luminosity
  spatial : a.spatial = b.spatial
  flags : kind.ignoresFlags = true ∨ (a.useObs = b.useObs ∧ a.useDistance = b.useDistance ∧
    a.useLuminosity = b.useLuminosity ∧ a.useFlux = b.useFlux)

theorem DataAlike.eq {kind : SelKind F G} {a b : SelData F} (h : DataAlike kind a b)
    (hk : kind.ignoresFlags = false) : a = b := by
  obtain ⟨h1, h2, h3, h4, h5, h6⟩ := h
  rcases h6 with h6 | ⟨h6, h7, h8, h9⟩
  · rw [hk] at h6; cases h6
  · cases a; cases b; simp_all

/-- Corresponding selectors. -/
structure SelAlike (a b : Selector F G) : Prop where
  cls : a.cls = b.cls
  kind : a.kind = b.kind
  params : a.params = b.params
  data : DataAlike a.kind a.data b.data
  selection : a.selection = b.selection
  isSampled : a.isSampled = b.isSampled

/-- Corresponding samplers. -/
structure SmpAlike (r : Corr) (a b : Sampler F) : Prop where
  cls : a.cls = b.cls
  name : a.name = b.name
  obsName : a.obsName = b.obsName
  isObserved : a.isObserved = b.isObserved
  usesDistance : a.usesDistance = b.usesDistance
  usesLuminosity : a.usesLuminosity = b.usesLuminosity
  secondaries : All2 (fun p q => p.1 = q.1 ∧ r.smp p.2 q.2) a.secondaries b.secondaries
  isSecondary : a.isSecondary = b.isSecondary
  hasSecondary : a.hasSecondary = b.hasSecondary
  isSampled : a.isSampled = b.isSampled
  selector : r.sel a.selector b.selector
  params : a.params = b.params
  luminosity : a.luminosity = b.luminosity
  spatial : a.spatial = b.spatial
  trueVals : a.trueVals = b.trueVals
  obsVals : a.obsVals = b.obsVals
  prob : a.prob = b.prob

/-- Corresponding heaps. -/
structure HeapAlike (r : Corr) (h h' : Heap F G) : Prop where
  smp : ∀ i i', r.smp i i' → SmpAlike r (h.samplers i) (h'.samplers i')
  sel : ∀ q q', r.sel q q' → SelAlike (h.selectors q) (h'.selectors q')
  rng : h.rng = h'.rng

section heap
variable {r : Corr} {h h' : Heap F G}

theorem HeapAlike.view (a : HeapAlike r h h') {i i' : Nat} (hi : r.smp i i') :
    h.view i = h'.view i' := by
  have s := a.smp i i' hi
  have e : (h.samplers i).secondaries.map
        (fun p => (p.1, ((h.samplers p.2).trueVals, (h.samplers p.2).obsVals))) =
      (h'.samplers i').secondaries.map
        (fun p => (p.1, ((h'.samplers p.2).trueVals, (h'.samplers p.2).obsVals))) := by
    have := s.secondaries
    generalize (h.samplers i).secondaries = l at this
    generalize (h'.samplers i').secondaries = m at this
    induction this with
    | nil => rfl
    | cons hr _ ih =>
      rw [List.map_cons, List.map_cons, ih, hr.1, (a.smp _ _ hr.2).trueVals, (a.smp _ _ hr.2).obsVals]
  unfold Heap.view
  dsimp only
  rw [s.params, s.isObserved, s.luminosity, s.spatial, s.trueVals, s.obsVals, e]

theorem HeapAlike.modSampler (ho : r.OneToOne) (a : HeapAlike r h h') {i i' : Nat} (hi : r.smp i i')
    {f f' : Sampler F → Sampler F} (hf : SmpAlike r (f (h.samplers i)) (f' (h'.samplers i'))) :
    HeapAlike r (h.modSampler i f) (h'.modSampler i' f') := by
  refine ⟨fun j j' hj => ?_, a.sel, a.rng⟩
  have := ho.smp _ _ _ _ hj hi
  unfold Heap.modSampler
  by_cases e : j = i
  · have e' := this.1 e
    subst e e'
    simp only [if_true]
    exact hf
  · have e' : ¬ j' = i' := fun hc => e (this.2 hc)
    simp only [e, e', if_false]
    exact a.smp j j' hj

theorem HeapAlike.modSelector (ho : r.OneToOne) (a : HeapAlike r h h') {q q' : Nat}
    (hq : r.sel q q') {f f' : Selector F G → Selector F G}
    (hf : SelAlike (f (h.selectors q)) (f' (h'.selectors q'))) :
    HeapAlike r (h.modSelector q f) (h'.modSelector q' f') := by
  refine ⟨a.smp, fun j j' hj => ?_, a.rng⟩
  have := ho.sel _ _ _ _ hj hq
  unfold Heap.modSelector
  by_cases e : j = q
  · have e' := this.1 e
    subst e e'
    simp only [if_true]
    exact hf
  · have e' : ¬ j' = q' := fun hc => e (this.2 hc)
    simp only [e, e', if_false]
    exact a.sel j j' hj

theorem HeapAlike.withRng (a : HeapAlike r h h') {g g' : G} (hg : g = g') :
    HeapAlike r { h with rng := g } { h' with rng := g' } := ⟨a.smp, a.sel, hg⟩

theorem HeapAlike.withTrace (a : HeapAlike r h h') (t t' : List (Nat × SView F)) :
    HeapAlike r { h with trace := t } { h' with trace := t' } := ⟨a.smp, a.sel, a.rng⟩

end heap

/-! ### Selectors -/

/-- Corresponding selectors with the same random state. -/
def StAlike (s t : SelSt F G) : Prop := SelAlike s.sel t.sel ∧ s.rng = t.rng

theorem selParam_alike (d : ParamDecl F) (n : String) {s t : SelSt F G} (h : StAlike s t) :
    Alike (fun a b s t => a = b ∧ StAlike s t) (selParam d n s) (selParam d n t) := by
  unfold selParam
  rw [← h.1.params]
  cases paramGet d n s.sel.params with
  | ok v o => exact ⟨rfl, ⟨h.1.cls, h.1.kind, rfl, h.1.data, h.1.selection, h.1.isSampled⟩, h.2⟩
  | error e o => rfl

theorem setMask_alike (m : List Bool) {s t : SelSt F G} (h : StAlike s t) :
    Alike (fun _ _ => StAlike) (setMask m s) (setMask m t) :=
  ⟨⟨h.1.cls, h.1.kind, h.1.params, h.1.data, rfl, h.1.isSampled⟩, h.2⟩

theorem setRng_alike (g : G) {s t : SelSt F G} (h : StAlike s t) :
    Alike (fun _ _ => StAlike) ((modify fun s => { s with rng := g } : Py (SelSt F G) PUnit) s)
      ((modify fun s => { s with rng := g } : Py (SelSt F G) PUnit) t) := ⟨h.1, rfl⟩

section
variable [LE F] [DecidableLE F] [OfNat F 0] [OfNat F 1]

theorem selDraw_alike (env : SelEnv F G) (half ninety : F) (sp : Bool) (n : Nat)
    {s t : SelSt F G} (h : StAlike s t) :
    Alike (fun _ _ => StAlike) (selDraw env half ninety sp n s) (selDraw env half ninety sp n t) := by
  have hk := h.1.kind
  unfold selDraw
  refine Alike.get' ?_
  have hd : s.sel.kind.ignoresFlags = false → s.sel.data = t.sel.data := h.1.data.eq
  have hsp := h.1.data.spatial
  rw [← hk]
  cases e : s.sel.kind with
  | unity => exact setMask_alike _ h
  | bernoulli =>
    simp only
    split
    · refine Alike.bind (setMask_alike _ h) fun _ _ s t h => ?_
      split
      · exact h
      · refine Alike.bind (selParam_alike _ _ h) fun p p' s t h => ?_
        obtain ⟨rfl, h⟩ := h
        split
        · refine Alike.get' ?_
          rw [← h.2]
          exact Alike.bind (setMask_alike _ h) fun _ _ s t h => setRng_alike _ h
        · rfl
    · refine Alike.bind (selParam_alike _ _ h) fun p p' s t h => ?_
      obtain ⟨rfl, h⟩ := h
      split
      · refine Alike.get' ?_
        rw [← h.2]
        exact Alike.bind (setMask_alike _ h) fun _ _ s t h => setRng_alike _ h
      · rfl
  | box =>
    simp only
    rw [← hd (by rw [e]; rfl)]
    refine Alike.bind (Q := fun a b s t => a = b ∧ StAlike s t) (Alike.liftEq fun _ => ⟨rfl, h⟩)
      fun v v' s t h => ?_
    obtain ⟨rfl, h⟩ := h
    refine Alike.bind (selParam_alike _ _ h) fun p p' s t h => ?_
    obtain ⟨rfl, h⟩ := h
    refine Alike.bind (Q := fun a b s t => a = b ∧ StAlike s t) (Alike.liftEq fun _ => ⟨rfl, h⟩)
      fun v v' s t h => ?_
    obtain ⟨rfl, h⟩ := h
    refine Alike.bind (selParam_alike _ _ h) fun p p' s t h => ?_
    obtain ⟨rfl, h⟩ := h
    exact setMask_alike _ h
  | lower =>
    simp only
    rw [← hd (by rw [e]; rfl)]
    refine Alike.bind (Q := fun a b s t => a = b ∧ StAlike s t) (Alike.liftEq fun _ => ⟨rfl, h⟩)
      fun v v' s t h => ?_
    obtain ⟨rfl, h⟩ := h
    refine Alike.bind (selParam_alike _ _ h) fun p p' s t h => ?_
    obtain ⟨rfl, h⟩ := h
    refine Alike.bind (Q := fun a b s t => a = b ∧ StAlike s t) (Alike.liftEq fun _ => ⟨rfl, h⟩)
      fun v v' s t h => ?_
    obtain ⟨rfl, h⟩ := h
    exact setMask_alike _ h
  | upper =>
    simp only
    rw [← hd (by rw [e]; rfl)]
    refine Alike.bind (Q := fun a b s t => a = b ∧ StAlike s t) (Alike.liftEq fun _ => ⟨rfl, h⟩)
      fun v v' s t h => ?_
    obtain ⟨rfl, h⟩ := h
    refine Alike.bind (selParam_alike _ _ h) fun p p' s t h => ?_
    obtain ⟨rfl, h⟩ := h
    refine Alike.bind (Q := fun a b s t => a = b ∧ StAlike s t) (Alike.liftEq fun _ => ⟨rfl, h⟩)
      fun v v' s t h => ?_
    obtain ⟨rfl, h⟩ := h
    exact setMask_alike _ h
  | soft =>
    simp only
    rw [← hd (by rw [e]; rfl)]
    refine Alike.bind (Q := fun a b s t => a = b ∧ StAlike s t) (Alike.liftEq fun _ => ⟨rfl, h⟩)
      fun v v' s t h => ?_
    obtain ⟨rfl, h⟩ := h
    refine Alike.bind (selParam_alike _ _ h) fun p p' s t h => ?_
    obtain ⟨rfl, h⟩ := h
    refine Alike.bind (Q := fun a b s t => a = b ∧ StAlike s t) (Alike.liftEq fun _ => ⟨rfl, h⟩)
      fun v v' s t h => ?_
    obtain ⟨rfl, h⟩ := h
    refine Alike.bind (selParam_alike _ _ h) fun p p' s t h => ?_
    obtain ⟨rfl, h⟩ := h
    split
    · refine Alike.get' ?_
      rw [← h.2]
      exact Alike.bind (setMask_alike _ h) fun _ _ s t h => setRng_alike _ h
    · rfl
  | dummy => exact h
  | distance =>
    simp only
    rw [← hsp]
    cases s.sel.data.spatial with
    | none => rfl
    | some sp =>
      simp only
      refine Alike.bind (selParam_alike _ _ h) fun p p' s t h => ?_
      obtain ⟨rfl, h⟩ := h
      refine Alike.bind (selParam_alike _ _ h) fun p p' s t h => ?_
      obtain ⟨rfl, h⟩ := h
      exact setMask_alike _ h
  | galactic =>
    simp only
    rw [← hsp]
    cases s.sel.data.spatial with
    | none => rfl
    | some sp =>
      simp only
      refine Alike.bind (selParam_alike _ _ h) fun p p' s t h => ?_
      obtain ⟨rfl, h⟩ := h
      refine Alike.bind (selParam_alike _ _ h) fun p p' s t h => ?_
      obtain ⟨rfl, h⟩ := h
      exact setMask_alike _ h
  | custom f =>
    simp only
    rw [← hd (by rw [e]; rfl), ← h.2]
    generalize f s.sel.data n s.rng = x
    refine Alike.bind (setRng_alike _ h) fun _ _ s t h => ?_
    cases x.1 with
    | ok m => exact setMask_alike _ h
    | error e => rfl

theorem selSelect_alike (env : SelEnv F G) (half ninety : F) (sp : Bool) (n : Nat)
    {s t : SelSt F G} (h : StAlike s t) :
    Alike (fun _ _ => StAlike) (selSelect env half ninety sp n s) (selSelect env half ninety sp n t) := by
  have last : ∀ {s t : SelSt F G}, StAlike s t → Alike (fun _ _ => StAlike)
      ((do
        let s ← get
        match s.sel.selection with
        | none => raise .type
        | some _ => modify fun s => { s with sel := { s.sel with isSampled := true } } :
          Py (SelSt F G) Unit) s)
      ((do
        let s ← get
        match s.sel.selection with
        | none => raise .type
        | some _ => modify fun s => { s with sel := { s.sel with isSampled := true } } :
          Py (SelSt F G) Unit) t) := by
    intro s t h
    refine Alike.get' ?_
    rw [← h.1.selection]
    cases e : s.sel.selection with
    | none => rfl
    | some m => exact ⟨⟨h.1.cls, h.1.kind, h.1.params, h.1.data, h.1.selection, rfl⟩, h.2⟩
  unfold selSelect
  refine Alike.get' ?_
  rw [← h.1.isSampled]
  cases s.sel.isSampled with
  | true => exact last h
  | false => exact Alike.bind (selDraw_alike env half ninety sp n h) fun _ _ s t h => last h

end

theorem withSelector_alike {r : Corr} (ho : r.OneToOne) {h h' : Heap F G} (a : HeapAlike r h h')
    {q q' : Nat} (hq : r.sel q q') {m : Py (SelSt F G) Unit}
    (hm : ∀ s t, StAlike s t → Alike (fun _ _ => StAlike) (m s) (m t)) :
    Alike (fun _ _ => HeapAlike r) (withSelector q m h) (withSelector q' m h') := by
  have := hm { sel := h.selectors q, rng := h.rng } { sel := h'.selectors q', rng := h'.rng }
    ⟨a.sel q q' hq, a.rng⟩
  unfold withSelector
  cases e : m { sel := h.selectors q, rng := h.rng } <;>
    cases e' : m { sel := h'.selectors q', rng := h'.rng } <;> rw [e, e'] at this
  · exact (a.modSelector ho hq this.1).withRng this.2
  · exact this.elim
  · exact this.elim
  · exact this

/-! ### Drawing samplers -/

/-- The same primitives, and corresponding samplers are of the same class. -/
structure WorldAlike (r : Corr) (w w' : World F G) : Prop where
  sel : w.sel = w'.sel
  half : w.half = w'.half
  ninety : w.ninety = w'.ninety
  showProgress : w.showProgress = w'.showProgress
  code : ∀ i i', r.smp i i' → w.code i = w'.code i'

section draw
variable {r : Corr}

theorem runCode_alike (ho : r.OneToOne) {h h' : Heap F G} (a : HeapAlike r h h') {i i' : Nat}
    (hi : r.smp i i') (c : SView F → Nat → G → SOut F G) (n : Nat) :
    Alike (fun _ _ => HeapAlike r) (runCode c i n h) (runCode c i' n h') := by
  have e : c (h'.view i') n h'.rng = c (h.view i) n h.rng := by rw [a.view hi, a.rng]
  have s := a.smp i i' hi
  unfold runCode
  rw [e]
  generalize c (h.view i) n h.rng = o
  have hm : HeapAlike r
      { h.modSampler i (fun s => { s with
          trueVals := o.trueVals, obsVals := o.obsVals, params := o.params }) with rng := o.rng }
      { h'.modSampler i' (fun s => { s with
          trueVals := o.trueVals, obsVals := o.obsVals, params := o.params }) with rng := o.rng } :=
    (a.modSampler ho hi ⟨s.cls, s.name, s.obsName, s.isObserved, s.usesDistance,
      s.usesLuminosity,
      s.secondaries, s.isSecondary, s.hasSecondary, s.isSampled, s.selector, rfl, s.luminosity,
      s.spatial, rfl, rfl, s.prob⟩).withRng rfl
  cases e : o.err with
  | none => simp only [e]; exact hm
  | some x => simp only [e]; exact rfl

theorem setLuminosity_alike (ho : r.OneToOne) {h h' : Heap F G} (a : HeapAlike r h h') {i i' : Nat}
    (hi : r.smp i i') (l : List F) :
    Alike (fun _ _ => HeapAlike r) (setLuminosity i l h) (setLuminosity i' l h') := by
  have s := a.smp i i' hi
  exact a.modSampler ho hi ⟨s.cls, s.name, s.obsName, s.isObserved, s.usesDistance,
      s.usesLuminosity,
    s.secondaries, s.isSecondary, s.hasSecondary, s.isSampled, s.selector, s.params, rfl,
    s.spatial, s.trueVals, s.obsVals, s.prob⟩

theorem setSpatialValues_alike (ho : r.OneToOne) {h h' : Heap F G} (a : HeapAlike r h h') {i i' : Nat}
    (hi : r.smp i i') (v : Spatial F) :
    Alike (fun _ _ => HeapAlike r) (setSpatialValues i v h) (setSpatialValues i' v h') := by
  have s := a.smp i i' hi
  exact a.modSampler ho hi ⟨s.cls, s.name, s.obsName, s.isObserved, s.usesDistance,
      s.usesLuminosity,
    s.secondaries, s.isSecondary, s.hasSecondary, s.isSampled, s.selector, s.params, s.luminosity,
    rfl, s.trueVals, s.obsVals, s.prob⟩

theorem giveSelector_alike (ho : r.OneToOne) {h h' : Heap F G} (a : HeapAlike r h h') {i i' : Nat}
    (hi : r.smp i i') :
    Alike (fun _ _ => HeapAlike r) (giveSelector i h) (giveSelector i' h') := by
  unfold giveSelector
  refine Alike.bind (Q := fun _ _ => HeapAlike r) ?_ fun _ _ h h' a => ?_
  · have s := a.smp i i' hi
    unfold giveDistance
    rw [← s.usesDistance, ← s.spatial]
    split
    · split
      · rfl
      · have c := a.sel _ _ s.selector
        exact a.modSelector ho s.selector ⟨c.cls, c.kind, c.params, ⟨c.data.flux, c.data.obsValue, rfl,
          c.data.luminosity, c.data.spatial, c.data.flags⟩, c.selection, c.isSampled⟩
    · exact a
  · have s := a.smp i i' hi
    unfold giveLuminosity
    rw [← s.luminosity]
    split
    · exact a
    · have c := a.sel _ _ s.selector
      exact a.modSelector ho s.selector ⟨c.cls, c.kind, c.params, ⟨c.data.flux, c.data.obsValue,
        c.data.distance, rfl, c.data.spatial, c.data.flags⟩, c.selection, c.isSampled⟩

theorem prepSecondary_alike (ho : r.OneToOne) {h h' : Heap F G} (a : HeapAlike r h h')
    {i i' j j' : Nat} (hi : r.smp i i') (hj : r.smp j j') :
    Alike (fun _ _ => HeapAlike r) (prepSecondary i j h) (prepSecondary i' j' h') := by
  unfold prepSecondary
  rw [← (a.smp j j' hj).isSecondary, ← (a.smp i i' hi).spatial]
  split
  · split
    · rfl
    · exact setSpatialValues_alike ho a hj _
  · rfl

variable [LE F] [DecidableLE F] [OfNat F 0] [OfNat F 1]

theorem drawSelector_alike (ho : r.OneToOne) {w w' : World F G} (hw : WorldAlike r w w')
    {h h' : Heap F G} (a : HeapAlike r h h') {q q' : Nat} (hq : r.sel q q') (n : Nat) :
    Alike (fun _ _ => HeapAlike r) (drawSelector w q n h) (drawSelector w' q' n h') := by
  unfold drawSelector
  rw [← hw.sel, ← hw.half, ← hw.ninety, ← hw.showProgress]
  exact withSelector_alike ho a hq fun s t hst => selDraw_alike _ _ _ _ _ hst

theorem observe_alike (ho : r.OneToOne) {w w' : World F G} (hw : WorldAlike r w w')
    {h h' : Heap F G} (a : HeapAlike r h h') {i i' : Nat} (hi : r.smp i i') (n : Nat) :
    Alike (fun _ _ => HeapAlike r) (observe w i n h) (observe w' i' n h') := by
  have s := a.smp i i' hi
  unfold observe
  rw [← s.isObserved, ← hw.code i i' hi]
  split
  · exact runCode_alike ho a hi _ n
  · exact a.modSampler ho hi ⟨s.cls, s.name, s.obsName, s.isObserved, s.usesDistance,
      s.usesLuminosity,
      s.secondaries, s.isSecondary, s.hasSecondary, s.isSampled, s.selector, s.params,
      s.luminosity, s.spatial, s.trueVals, s.trueVals, s.prob⟩

theorem finishDraw_alike (ho : r.OneToOne) {w w' : World F G} (hw : WorldAlike r w w')
    {h h' : Heap F G} (a : HeapAlike r h h') {i i' : Nat} (hi : r.smp i i') (n : Nat) :
    Alike (fun _ _ => HeapAlike r) (finishDraw w i n h) (finishDraw w' i' n h') := by
  unfold finishDraw
  refine Alike.bind (Q := fun _ _ => HeapAlike r) (a.withTrace _ _) fun _ _ h h' a => ?_
  refine Alike.bind (by rw [← hw.code i i' hi]; exact runCode_alike ho a hi _ n)
    fun _ _ h h' a => ?_
  refine Alike.bind (observe_alike ho hw a hi n) fun _ _ h h' a => ?_
  refine Alike.bind (Q := fun _ _ => HeapAlike r) ?_ fun _ _ h h' a => ?_
  · have s := a.smp i i' hi
    have c := a.sel _ _ s.selector
    exact a.modSelector ho s.selector ⟨c.cls, c.kind, c.params, ⟨c.data.flux, s.obsVals,
        c.data.distance, c.data.luminosity, c.data.spatial, c.data.flags⟩, c.selection, c.isSampled⟩
  refine Alike.get' ?_
  have s := a.smp i i' hi
  rw [← s.trueVals, ← s.obsVals]
  refine Alike.bind (Q := fun _ _ s t => s = h ∧ t = h') (Alike.assert' ⟨rfl, rfl⟩)
    fun _ _ _ _ e => ?_
  obtain ⟨rfl, rfl⟩ := e
  rename_i h h'
  refine Alike.bind (Q := fun _ _ s t => s = h ∧ t = h') (Alike.assert' ⟨rfl, rfl⟩)
    fun _ _ _ _ e => ?_
  obtain ⟨rfl, rfl⟩ := e
  rename_i h h'
  refine Alike.bind (Q := fun _ _ => HeapAlike r) ?_ fun _ _ h1 h1' a1 => ?_
  · exact a.modSampler ho hi ⟨s.cls, s.name, s.obsName, s.isObserved, s.usesDistance,
      s.usesLuminosity,
      s.secondaries, s.isSecondary, s.hasSecondary, rfl, s.selector, s.params,
      s.luminosity, s.spatial, s.trueVals, s.obsVals, s.prob⟩
  refine Alike.bind (drawSelector_alike ho hw a1 s.selector n) fun _ _ h2 h2' a2 => ?_
  refine Alike.get' ?_
  rw [← hw.code i i' hi, ← a2.view hi]
  refine Alike.bind (Q := fun p p' s t => p = p' ∧ HeapAlike r s t) (Alike.liftEq fun _ => ⟨rfl, a2⟩)
    fun p p' h3 h3' e => ?_
  obtain ⟨rfl, a3⟩ := e
  have s := a3.smp i i' hi
  exact a3.modSampler ho hi ⟨s.cls, s.name, s.obsName, s.isObserved, s.usesDistance,
      s.usesLuminosity,
      s.secondaries, s.isSecondary, s.hasSecondary, s.isSampled, s.selector, s.params,
      s.luminosity, s.spatial, s.trueVals, s.obsVals, rfl⟩

theorem samplerDraw_alike (ho : r.OneToOne) {w w' : World F G} (hw : WorldAlike r w w') (n : Nat) :
    ∀ (k i i' : Nat) (h h' : Heap F G), r.smp i i' → HeapAlike r h h' →
      Alike (fun _ _ => HeapAlike r) (samplerDraw w k i n h) (samplerDraw w' k i' n h')
  | 0, _, _, _, _, _, _ => rfl
  | k + 1, i, i', h, h', hi, a => by
    have s := a.smp i i' hi
    unfold samplerDraw
    refine Alike.get' ?_
    rw [← s.isSampled]
    split
    · exact a
    · refine Alike.bind (giveSelector_alike ho a hi) fun _ _ h1 h1' a1 => ?_
      refine Alike.bind (Q := fun _ _ => HeapAlike r) ?_ fun _ _ h2 h2' a2 =>
        finishDraw_alike ho hw a2 hi n
      refine Alike.forEach' s.secondaries a1 fun x y hxy s t hst => ?_
      exact Alike.bind (prepSecondary_alike ho hst hi hxy.2) fun _ _ h3 h3' a3 =>
        samplerDraw_alike ho hw n k _ _ _ _ hxy.2 a3

end draw

end Popsynth
