import Verif.Lemmas.SurveyHeap

/-!
Two runs of the same code from states that differ only in values left over from earlier
surveys.
-/

set_option autoImplicit false
set_option linter.unusedSectionVars false

namespace Popsynth
open Spec

/-! ### Pairs of runs -/

/-- Both runs return the same value and end in related states, or both raise the same
exception. -/
def TwoRuns {σ τ α : Type} (Q : α → σ → τ → Prop) :
    EStateM.Result Err σ α → EStateM.Result Err τ α → Prop
  | .ok a s, .ok b t => a = b ∧ Q a s t
  | .error e _, .error e' _ => e = e'
  | _, _ => False

namespace TwoRuns
variable {σ τ α β : Type}

theorem bind {Q : α → σ → τ → Prop} {Q' : β → σ → τ → Prop} {m : Py σ α} {m' : Py τ α}
    {f : α → Py σ β} {f' : α → Py τ β} {s : σ} {t : τ}
    (h : TwoRuns Q (m s) (m' t)) (hf : ∀ a s1 t1, Q a s1 t1 → TwoRuns Q' (f a s1) (f' a t1)) :
    TwoRuns Q' ((m >>= f) s) ((m' >>= f') t) := by
  rw [bind_apply, bind_apply]
  cases h1 : m s <;> cases h2 : m' t <;> rw [h1, h2] at h
  · obtain ⟨rfl, h⟩ := h; exact hf _ _ _ h
  · exact h.elim
  · exact h.elim
  · exact h

theorem imp {Q Q' : α → σ → τ → Prop} {r : EStateM.Result Err σ α} {r' : EStateM.Result Err τ α}
    (h : TwoRuns Q r r') (hi : ∀ a s t, Q a s t → Q' a s t) : TwoRuns Q' r r' := by
  cases r <;> cases r' <;> try exact h
  exact ⟨h.1, hi _ _ _ h.2⟩

theorem impBoth {Q Q' : α → σ → τ → Prop} {r : EStateM.Result Err σ α} {r' : EStateM.Result Err τ α}
    (h : TwoRuns Q r r') (hi : ∀ a s t, r = .ok a s → r' = .ok a t → Q a s t → Q' a s t) :
    TwoRuns Q' r r' := by
  cases r <;> cases r' <;> try exact h
  obtain ⟨rfl, h⟩ := h
  exact ⟨rfl, hi _ _ _ rfl rfl h⟩

theorem outcome_eq {Q : α → σ → τ → Prop} {r : EStateM.Result Err σ α} {r' : EStateM.Result Err τ α}
    (h : TwoRuns Q r r') : outcome r = outcome r' := by
  cases r <;> cases r' <;> simp_all [TwoRuns, outcome]

theorem pure' {Q : α → σ → τ → Prop} {a : α} {s : σ} {t : τ} (h : Q a s t) :
    TwoRuns Q ((pure a : Py σ α) s) ((pure a : Py τ α) t) := ⟨rfl, h⟩

theorem raise' {Q : α → σ → τ → Prop} (e : Err) (s : σ) (t : τ) :
    TwoRuns Q ((raise e : Py σ α) s) ((raise e : Py τ α) t) := rfl

theorem get' {Q : α → σ → τ → Prop} {f : σ → Py σ α} {f' : τ → Py τ α} {s : σ} {t : τ}
    (h : TwoRuns Q (f s s) (f' t t)) : TwoRuns Q ((get >>= f) s) ((get >>= f') t) := h

theorem modify' {Q : PUnit → σ → τ → Prop} {f : σ → σ} {f' : τ → τ} {s : σ} {t : τ}
    (h : Q ⟨⟩ (f s) (f' t)) : TwoRuns Q ((modify f : Py σ PUnit) s) ((modify f' : Py τ PUnit) t) := ⟨rfl, h⟩

theorem liftE' {Q : α → σ → τ → Prop} {x : Except Err α} {s : σ} {t : τ}
    (h : ∀ a, x = .ok a → Q a s t) :
    TwoRuns Q ((liftE x : Py σ α) s) ((liftE x : Py τ α) t) := by
  cases x with
  | ok a => exact ⟨rfl, h a rfl⟩
  | error e => exact rfl

theorem assert' {Q : Unit → σ → τ → Prop} {b : Bool} {s : σ} {t : τ} (h : b = true → Q () s t) :
    TwoRuns Q ((pyAssert b : Py σ Unit) s) ((pyAssert b : Py τ Unit) t) := by
  cases b with
  | true => exact ⟨rfl, h rfl⟩
  | false => exact rfl

theorem forEach' {I : σ → τ → Prop} {f : α → Py σ Unit} {f' : α → Py τ Unit} (l : List α) {s : σ} {t : τ}
    (h0 : I s t) (hf : ∀ x ∈ l, ∀ s t, I s t → TwoRuns (fun _ => I) (f x s) (f' x t)) :
    TwoRuns (fun _ => I) (forEach l f s) (forEach l f' t) := by
  induction l generalizing s t with
  | nil => exact ⟨rfl, h0⟩
  | cons x l ih =>
    rw [forEach_cons, forEach_cons]
    exact bind (hf x (by simp) s t h0) fun _ s1 t1 h1 => ih h1 fun y hy => hf y (by simp [hy])

theorem foldPy' {I : β → σ → τ → Prop} {f : β → α → Py σ β} {f' : β → α → Py τ β} (l : List α) {b : β}
    {s : σ} {t : τ} (h0 : I b s t)
    (hf : ∀ x ∈ l, ∀ b s t, I b s t → TwoRuns I (f b x s) (f' b x t)) :
    TwoRuns I (foldPy l b f s) (foldPy l b f' t) := by
  induction l generalizing b s t with
  | nil => exact ⟨rfl, h0⟩
  | cons x l ih =>
    rw [foldPy_cons, foldPy_cons]
    exact bind (hf x (by simp) b s t h0) fun b' s1 t1 h1 => ih h1 fun y hy => hf y (by simp [hy])

end TwoRuns

variable {F G : Type}

/-! ### Leftover values -/

/-- The same sampler, except for values left over from earlier surveys. -/
def Spec.SamplerUpToLeft (a b : Sampler F) : Prop :=
  b = { a with luminosity := b.luminosity, spatial := b.spatial, prob := b.prob }

/-- The same selector, except for values left over from earlier surveys. -/
def Spec.SelectorUpToLeft (a b : Selector F G) : Prop :=
  b = { a with
    selection := b.selection
    data := { a.data with
      flux := b.data.flux, obsValue := b.data.obsValue, distance := b.data.distance
      luminosity := b.data.luminosity, spatial := b.data.spatial } }

/-- The same samplers and selectors, except for values left over from earlier surveys. -/
structure Spec.ObjectsUpToLeft (h h' : Heap F G) : Prop where
  samplers : ∀ i, SamplerUpToLeft (h.samplers i) (h'.samplers i)
  selectors : ∀ q, SelectorUpToLeft (h.selectors q) (h'.selectors q)

/-- Places where values can be left over. -/
inductive Fld where
  | spatial (i : Nat) | lum (i : Nat) | prob (i : Nat)
  | mask (q : Nat) | dist (q : Nat) | slum (q : Nat) | obs (q : Nat) | flux (q : Nat) | sspat (q : Nat)

/-- Both heaps have the same value in that place. -/
def Eqat (h h' : Heap F G) : Fld → Prop
  | .spatial i => (h.samplers i).spatial = (h'.samplers i).spatial
  | .lum i => (h.samplers i).luminosity = (h'.samplers i).luminosity
  | .prob i => (h.samplers i).prob = (h'.samplers i).prob
  | .mask q => (h.selectors q).selection = (h'.selectors q).selection
  | .dist q => (h.selectors q).data.distance = (h'.selectors q).data.distance
  | .slum q => (h.selectors q).data.luminosity = (h'.selectors q).data.luminosity
  | .obs q => (h.selectors q).data.obsValue = (h'.selectors q).data.obsValue
  | .flux q => (h.selectors q).data.flux = (h'.selectors q).data.flux
  | .sspat q => (h.selectors q).data.spatial = (h'.selectors q).data.spatial

theorem sameSampler_iff {a b : Sampler F} : SamplerUpToLeft a b ↔
    b.name = a.name ∧ b.obsName = a.obsName ∧ b.cls = a.cls ∧ b.isObserved = a.isObserved ∧
    b.usesDistance = a.usesDistance ∧ b.usesLuminosity = a.usesLuminosity ∧
    b.secondaries = a.secondaries ∧ b.isSecondary = a.isSecondary ∧ b.parents = a.parents ∧
    b.hasSecondary = a.hasSecondary ∧ b.isSampled = a.isSampled ∧ b.selector = a.selector ∧
    b.params = a.params ∧ b.trueVals = a.trueVals ∧ b.obsVals = a.obsVals := by
  cases a; cases b; simp only [SamplerUpToLeft, Sampler.mk.injEq]; grind

theorem sameSelector_iff {a b : Selector F G} : SelectorUpToLeft a b ↔
    b.kind = a.kind ∧ b.cls = a.cls ∧ b.name = a.name ∧ b.params = a.params ∧
    b.isSampled = a.isSampled ∧ b.data.useObs = a.data.useObs ∧
    b.data.useDistance = a.data.useDistance ∧ b.data.useLuminosity = a.data.useLuminosity ∧
    b.data.useFlux = a.data.useFlux := by
  obtain ⟨_, _, _, _, ⟨_, _, _, _, _, _, _, _, _⟩, _, _⟩ := a
  obtain ⟨_, _, _, _, ⟨_, _, _, _, _, _, _, _, _⟩, _, _⟩ := b
  simp only [SelectorUpToLeft, Selector.mk.injEq, SelData.mk.injEq]; grind

/-- The same objects and random state. -/
structure Pair (h h' : Heap F G) : Prop where
  same : ObjectsUpToLeft h h'
  rng : h.rng = h'.rng

/-- Effect of a step on a pair of heaps: they stay the same up to leftovers, places that
agreed still agree, and the fixed parts are kept. -/
structure Post (h h' t t' : Heap F G) : Prop where
  pair : Pair t t'
  mono : ∀ f, Eqat h h' f → Eqat t t' f
  stat : ∀ j, (t.samplers j).static = (h.samplers j).static
  kind : ∀ q, (t.selectors q).kind = (h.selectors q).kind
  sel : ∀ q, (t.selectors q).isSampled = true → (h.selectors q).isSampled = true ∨ Eqat t t' (.mask q)
  marks : ∀ j, h.sampled j = true → t.sampled j = true

theorem Post.refl {h h' : Heap F G} (p : Pair h h') : Post h h' h h' :=
  ⟨p, fun _ => id, fun _ => rfl, fun _ => rfl, fun _ => .inl, fun _ => id⟩

theorem Post.trans {a a' b b' c c' : Heap F G} (p : Post a a' b b') (q : Post b b' c c') :
    Post a a' c c' :=
  ⟨q.pair, fun f h => q.mono f (p.mono f h), fun j => (q.stat j).trans (p.stat j),
    fun x => (q.kind x).trans (p.kind x),
    fun x h => (q.sel x h).elim (fun h => (p.sel x h).imp id (q.mono _)) .inr,
    fun j h => q.marks j (p.marks j h)⟩

theorem Eqat.congr {a a' b b' : Heap F G} {f : Fld} (h : Eqat a a' f) (e1 : b.samplers = a.samplers)
    (e2 : b'.samplers = a'.samplers) (e3 : b.selectors = a.selectors) (e4 : b'.selectors = a'.selectors) :
    Eqat b b' f := by
  cases f <;> simp only [Eqat, e1, e2, e3, e4] at h ⊢ <;> exact h

/-- Random state and trace are not looked at. -/
theorem Post.congr {h h' t t' u u' : Heap F G} (p : Post h h' t t') (hr : u.rng = u'.rng)
    (e1 : u.samplers = t.samplers) (e2 : u'.samplers = t'.samplers) (e3 : u.selectors = t.selectors)
    (e4 : u'.selectors = t'.selectors) : Post h h' u u' where
  pair := ⟨⟨fun i => by rw [e1, e2]; exact p.pair.same.samplers i,
    fun q => by rw [e3, e4]; exact p.pair.same.selectors q⟩, hr⟩
  mono f hf := (p.mono f hf).congr e1 e2 e3 e4
  stat j := by rw [e1]; exact p.stat j
  kind q := by rw [e3]; exact p.kind q
  sel q := by
    rw [e3]
    intro hq
    exact (p.sel q hq).imp id fun k => k.congr e1 e2 e3 e4
  marks j hj := by simp only [Heap.sampled, e1]; exact p.marks j hj

theorem post_modSampler {h h' : Heap F G} (p : Pair h h') (i : Nat) (f f' : Sampler F → Sampler F)
    (hs : SamplerUpToLeft (f (h.samplers i)) (f' (h'.samplers i)))
    (h1 : Eqat h h' (.spatial i) → (f (h.samplers i)).spatial = (f' (h'.samplers i)).spatial)
    (h2 : Eqat h h' (.lum i) → (f (h.samplers i)).luminosity = (f' (h'.samplers i)).luminosity)
    (h3 : Eqat h h' (.prob i) → (f (h.samplers i)).prob = (f' (h'.samplers i)).prob)
    (h4 : (f (h.samplers i)).static = (h.samplers i).static)
    (h5 : (h.samplers i).isSampled = true → (f (h.samplers i)).isSampled = true) :
    Post h h' (h.modSampler i f) (h'.modSampler i f') := by
  refine ⟨⟨⟨fun j => ?_, p.same.selectors⟩, p.rng⟩, fun x hx => ?_, fun j => ?_, fun _ => rfl, fun _ => .inl,
    fun j => ?_⟩
  · by_cases hj : j = i
    · subst hj; simpa using hs
    · simpa [Heap.modSampler, hj] using p.same.samplers j
  · cases x with
    | spatial j =>
      by_cases hj : j = i
      · subst hj; simpa [Eqat] using h1 hx
      · simpa [Eqat, Heap.modSampler, hj] using hx
    | lum j =>
      by_cases hj : j = i
      · subst hj; simpa [Eqat] using h2 hx
      · simpa [Eqat, Heap.modSampler, hj] using hx
    | prob j =>
      by_cases hj : j = i
      · subst hj; simpa [Eqat] using h3 hx
      · simpa [Eqat, Heap.modSampler, hj] using hx
    | _ => exact hx
  · by_cases hj : j = i
    · subst hj; simpa using h4
    · simp [Heap.modSampler, hj]
  · by_cases hj : j = i
    · subst hj; simpa [Heap.sampled] using h5
    · simp [Heap.modSampler, hj, Heap.sampled]

theorem post_modSelector {h h' : Heap F G} (p : Pair h h') (q : Nat) (f f' : Selector F G → Selector F G)
    (hs : SelectorUpToLeft (f (h.selectors q)) (f' (h'.selectors q)))
    (h1 : Eqat h h' (.mask q) → (f (h.selectors q)).selection = (f' (h'.selectors q)).selection)
    (h2 : Eqat h h' (.dist q) → (f (h.selectors q)).data.distance = (f' (h'.selectors q)).data.distance)
    (h3 : Eqat h h' (.slum q) → (f (h.selectors q)).data.luminosity = (f' (h'.selectors q)).data.luminosity)
    (h4 : Eqat h h' (.obs q) → (f (h.selectors q)).data.obsValue = (f' (h'.selectors q)).data.obsValue)
    (h5 : Eqat h h' (.flux q) → (f (h.selectors q)).data.flux = (f' (h'.selectors q)).data.flux)
    (h6 : Eqat h h' (.sspat q) → (f (h.selectors q)).data.spatial = (f' (h'.selectors q)).data.spatial)
    (h7 : (f (h.selectors q)).kind = (h.selectors q).kind)
    (h8 : (f (h.selectors q)).isSampled = true → (h.selectors q).isSampled = true ∨
      (f (h.selectors q)).selection = (f' (h'.selectors q)).selection) :
    Post h h' (h.modSelector q f) (h'.modSelector q f') := by
  refine ⟨⟨⟨p.same.samplers, fun j => ?_⟩, p.rng⟩, fun x hx => ?_, fun _ => rfl, fun j => ?_, fun j hj => ?_,
    fun _ => id⟩
  · by_cases hj : j = q
    · subst hj; simpa using hs
    · simpa [Heap.modSelector, hj] using p.same.selectors j
  · cases x with
    | mask j =>
      by_cases hj : j = q
      · subst hj; simpa [Eqat] using h1 hx
      · simpa [Eqat, Heap.modSelector, hj] using hx
    | dist j =>
      by_cases hj : j = q
      · subst hj; simpa [Eqat] using h2 hx
      · simpa [Eqat, Heap.modSelector, hj] using hx
    | slum j =>
      by_cases hj : j = q
      · subst hj; simpa [Eqat] using h3 hx
      · simpa [Eqat, Heap.modSelector, hj] using hx
    | obs j =>
      by_cases hj : j = q
      · subst hj; simpa [Eqat] using h4 hx
      · simpa [Eqat, Heap.modSelector, hj] using hx
    | flux j =>
      by_cases hj : j = q
      · subst hj; simpa [Eqat] using h5 hx
      · simpa [Eqat, Heap.modSelector, hj] using hx
    | sspat j =>
      by_cases hj : j = q
      · subst hj; simpa [Eqat] using h6 hx
      · simpa [Eqat, Heap.modSelector, hj] using hx
    | _ => exact hx
  · by_cases hj : j = q
    · subst hj; simpa using h7
    · simp [Heap.modSelector, hj]
  · by_cases hjq : j = q
    · subst hjq
      simp only [modSelector_same] at hj
      simpa [Eqat] using h8 hj
    · left; simpa [Heap.modSelector, hjq] using hj

/-! ### Drawing selectors -/

section
variable [LE F] [DecidableLE F] [OfNat F 0] [OfNat F 1]

/-- Is the selector a `DummySelection`, whose `draw` keeps the mask? -/
def SelKind.isDummy : SelKind F G → Bool
  | .dummy => true
  | _ => false

/-- Selector states that differ at most in the mask. -/
def MaskOnly (t t' : SelSt F G) : Prop :=
  t' = { t with sel := { t.sel with selection := t'.sel.selection } }

theorem selParam_forgets (d : ParamDecl F) (nm : String) {t t' : SelSt F G} (h : MaskOnly t t') :
    TwoRuns (fun _ => MaskOnly) (selParam d nm t) (selParam d nm t') := by
  have hp : t'.sel.params = t.sel.params := by rw [h]
  unfold selParam
  rw [hp]
  cases paramGet d nm t.sel.params with
  | ok v o =>
    refine ⟨rfl, ?_⟩
    unfold MaskOnly at h ⊢
    rw [h]
  | error e o => exact rfl

theorem setMask_forgets (m : List Bool) {t t' : SelSt F G} (h : MaskOnly t t') :
    TwoRuns (fun _ s s' => s = s') (setMask m t) (setMask m t') := by
  refine ⟨rfl, ?_⟩
  unfold MaskOnly at h
  rw [h]

theorem getThen_forgets {α : Type} {Q : α → SelSt F G → SelSt F G → Prop} {f : SelSt F G → Py (SelSt F G) α}
    {t t' : SelSt F G} (h : TwoRuns Q (f t t) (f t' t')) :
    TwoRuns Q ((get >>= f) t) ((get >>= f) t') := h

/-- The mask left over in a selector has no influence on the next draw. -/
theorem selDraw_forgets (env : SelEnv F G) (half ninety : F) (sp : Bool) (n : Nat)
    {t t' : SelSt F G} (h : MaskOnly t t')
    (hd : t.sel.kind.isDummy = true → t.sel.selection = t'.sel.selection) :
    TwoRuns (fun _ s s' => s = s') (selDraw env half ninety sp n t) (selDraw env half ninety sp n t') := by
  have hk : t'.sel.kind = t.sel.kind := by rw [h]
  have hdat : t'.sel.data = t.sel.data := by rw [h]
  have hr : ∀ {t t' : SelSt F G}, MaskOnly t t' → t'.rng = t.rng := fun h => by rw [h]
  unfold selDraw
  refine getThen_forgets ?_
  rw [hk, hdat]
  cases hkind : t.sel.kind with
  | unity => exact setMask_forgets _ h
  | bernoulli =>
    dsimp only
    split
    · refine TwoRuns.bind (Q := fun _ s s' => s = s') (setMask_forgets _ h) ?_
      rintro - s _ rfl
      split
      · exact ⟨rfl, rfl⟩
      · cases h1 : ((selParam (declProb half) "probability" >>= fun p => _ : Py (SelSt F G) Unit) s) with
        | ok a u => exact ⟨rfl, rfl⟩
        | error e u => exact rfl
    · refine TwoRuns.bind (selParam_forgets _ _ h) ?_
      intro p s s' h
      split
      · refine getThen_forgets ?_
        rw [hr h]
        refine TwoRuns.bind (Q := fun _ s s' => s = s') (setMask_forgets _ h) ?_
        rintro - s _ rfl
        exact ⟨rfl, rfl⟩
      · exact rfl
  | box =>
    refine TwoRuns.bind (TwoRuns.liftE' (Q := fun _ => MaskOnly) fun _ _ => h) fun v s s' h => ?_
    refine TwoRuns.bind (selParam_forgets _ _ h) fun lo s s' h => ?_
    refine TwoRuns.bind (TwoRuns.liftE' (Q := fun _ => MaskOnly) fun _ _ => h) fun v s s' h => ?_
    refine TwoRuns.bind (selParam_forgets _ _ h) fun lo s s' h => ?_
    exact setMask_forgets _ h
  | lower =>
    refine TwoRuns.bind (TwoRuns.liftE' (Q := fun _ => MaskOnly) fun _ _ => h) fun v s s' h => ?_
    refine TwoRuns.bind (selParam_forgets _ _ h) fun lo s s' h => ?_
    refine TwoRuns.bind (TwoRuns.liftE' (Q := fun _ => MaskOnly) fun _ _ => h) fun v s s' h => ?_
    exact setMask_forgets _ h
  | upper =>
    refine TwoRuns.bind (TwoRuns.liftE' (Q := fun _ => MaskOnly) fun _ _ => h) fun v s s' h => ?_
    refine TwoRuns.bind (selParam_forgets _ _ h) fun lo s s' h => ?_
    refine TwoRuns.bind (TwoRuns.liftE' (Q := fun _ => MaskOnly) fun _ _ => h) fun v s s' h => ?_
    exact setMask_forgets _ h
  | soft =>
    refine TwoRuns.bind (TwoRuns.liftE' (Q := fun _ => MaskOnly) fun _ _ => h) fun v s s' h => ?_
    refine TwoRuns.bind (selParam_forgets _ _ h) fun lo s s' h => ?_
    refine TwoRuns.bind (TwoRuns.liftE' (Q := fun _ => MaskOnly) fun _ _ => h) fun v s s' h => ?_
    refine TwoRuns.bind (selParam_forgets _ _ h) fun lo s s' h => ?_
    dsimp only
    split
    · refine getThen_forgets ?_
      rw [hr h]
      refine TwoRuns.bind (Q := fun _ s s' => s = s') (setMask_forgets _ h) ?_
      rintro - s _ rfl
      exact ⟨rfl, rfl⟩
    · exact rfl
  | dummy =>
    refine ⟨rfl, ?_⟩
    have := hd (by rw [hkind]; rfl)
    rw [h, ← this]
  | distance =>
    dsimp only
    cases t.sel.data.spatial with
    | none => exact rfl
    | some v =>
      refine TwoRuns.bind (selParam_forgets _ _ h) fun lo s s' h => ?_
      refine TwoRuns.bind (selParam_forgets _ _ h) fun lo s s' h => ?_
      exact setMask_forgets _ h
  | galactic =>
    dsimp only
    cases t.sel.data.spatial with
    | none => exact rfl
    | some v =>
      refine TwoRuns.bind (selParam_forgets _ _ h) fun lo s s' h => ?_
      refine TwoRuns.bind (selParam_forgets _ _ h) fun lo s s' h => ?_
      exact setMask_forgets _ h
  | custom f =>
    dsimp only
    rw [hr h]
    refine TwoRuns.bind (Q := fun _ => MaskOnly) (m := modify _) (m' := modify _) ⟨rfl, ?_⟩ fun _ s s' h => ?_
    · unfold MaskOnly at h ⊢; rw [h]
    · cases (f t.sel.data n t.rng).1 with
      | ok m => exact setMask_forgets _ h
      | error e => exact rfl

/-- `select`: as `draw`, but a mask already drawn is kept. -/
theorem selSelect_forgets (env : SelEnv F G) (half ninety : F) (sp : Bool) (n : Nat)
    {t t' : SelSt F G} (h : MaskOnly t t')
    (hd : t.sel.kind.isDummy = true ∨ t.sel.isSampled = true → t.sel.selection = t'.sel.selection) :
    TwoRuns (fun _ s s' => s = s') (selSelect env half ninety sp n t) (selSelect env half ninety sp n t') := by
  unfold selSelect
  refine getThen_forgets ?_
  have hs : t'.sel.isSampled = t.sel.isSampled := by rw [h]
  rw [hs]
  cases hb : t.sel.isSampled with
  | true =>
    have e1 : t' = t := by rw [h, ← hd (.inr hb)]
    subst e1
    refine getThen_forgets ?_
    cases t'.sel.selection with
    | none => exact rfl
    | some m => exact ⟨rfl, rfl⟩
  | false =>
    refine TwoRuns.bind (selDraw_forgets env half ninety sp n h fun hk => hd (.inl hk)) ?_
    rintro - s _ rfl
    refine getThen_forgets ?_
    cases s.sel.selection with
    | none => exact rfl
    | some m => exact ⟨rfl, rfl⟩

/-- Running selector code that forgets leftovers. -/
theorem withSelector_pair {q : Nat} {m : Py (SelSt F G) Unit} {h h' : Heap F G} (p : Pair h h')
    (hm : TwoRuns (fun _ s s' => s = s') (m { sel := h.selectors q, rng := h.rng })
      (m { sel := h'.selectors q, rng := h'.rng }))
    (hk : ∀ s, (endState (m s)).sel.kind = s.sel.kind) :
    TwoRuns (fun _ t t' => Post h h' t t' ∧ t.selectors q = t'.selectors q ∧ t.samplers = h.samplers ∧
      t'.samplers = h'.samplers) (withSelector q m h) (withSelector q m h') := by
  unfold withSelector
  have hk := hk { sel := h.selectors q, rng := h.rng }
  cases h1 : m { sel := h.selectors q, rng := h.rng } with
  | error e t =>
    cases h2 : m { sel := h'.selectors q, rng := h'.rng } with
    | error e' t' => rw [h1, h2] at hm; exact hm
    | ok a' t' => rw [h1, h2] at hm; exact hm.elim
  | ok a t =>
    cases h2 : m { sel := h'.selectors q, rng := h'.rng } with
    | error e' t' => rw [h1, h2] at hm; exact hm.elim
    | ok a' t' =>
      rw [h1] at hk
      rw [h1, h2] at hm
      obtain ⟨-, rfl⟩ := hm
      have k := post_modSelector p q (fun _ => t.sel) (fun _ => t.sel) rfl (fun _ => rfl) (fun _ => rfl)
        (fun _ => rfl) (fun _ => rfl) (fun _ => rfl) (fun _ => rfl) hk (fun _ => .inr rfl)
      refine ⟨rfl, ?_, by simp [Heap.modSelector], rfl, rfl⟩
      exact k.congr rfl rfl rfl rfl rfl

/-- The data of selector `q` agree. -/
def DataEq (h h' : Heap F G) (q : Nat) : Prop :=
  Eqat h h' (.dist q) ∧ Eqat h h' (.slum q) ∧ Eqat h h' (.obs q) ∧ Eqat h h' (.flux q) ∧ Eqat h h' (.sspat q)

theorem DataEq.maskOnly {h h' : Heap F G} {q : Nat} (p : Pair h h') (d : DataEq h h' q) :
    MaskOnly { sel := h.selectors q, rng := h.rng } { sel := h'.selectors q, rng := h'.rng } := by
  obtain ⟨d1, d2, d3, d4, d5⟩ := d
  simp only [Eqat] at d1 d2 d3 d4 d5
  have hs := p.same.selectors q
  unfold SelectorUpToLeft at hs
  rw [← d1, ← d2, ← d3, ← d4, ← d5] at hs
  unfold MaskOnly
  simp only [p.rng, SelSt.mk.injEq, and_true]
  exact hs

theorem drawSelector_pair (w : World F G) {q n : Nat} {h h' : Heap F G} (p : Pair h h')
    (d : DataEq h h' q) (hd : (h.selectors q).kind.isDummy = true → Eqat h h' (.mask q)) :
    TwoRuns (fun _ t t' => Post h h' t t' ∧ t.selectors q = t'.selectors q ∧ t.samplers = h.samplers ∧
      t'.samplers = h'.samplers) (drawSelector w q n h) (drawSelector w q n h') :=
  withSelector_pair p (selDraw_forgets _ _ _ _ _ (d.maskOnly p) hd)
    fun s => (selDraw_keeps w.sel w.half w.ninety w.showProgress n s).1

/-! ### Drawing samplers -/

/-- Sampler `j` is ready to be drawn in both runs, or was drawn in both. -/
structure ReadyAt (h h' : Heap F G) (j : Nat) : Prop where
  rest : h.sampled j = false → Eqat h h' (.flux (h.samplers j).selector) ∧
    Eqat h h' (.sspat (h.samplers j).selector) ∧
    ((h.samplers j).usesDistance = false → Eqat h h' (.dist (h.samplers j).selector)) ∧
    ((h.selectors (h.samplers j).selector).kind.isDummy = true → Eqat h h' (.mask (h.samplers j).selector))
  lum : h.sampled j = false → Eqat h h' (.lum j) ∧
    ((h.samplers j).luminosity = none → Eqat h h' (.slum (h.samplers j).selector))
  done : h.sampled j = true → Eqat h h' (.prob j) ∧ Eqat h h' (.mask (h.samplers j).selector)

/-- Samplers marked in between agree. -/
def NewlyDone (h t t' : Heap F G) : Prop := ∀ j, t.sampled j = true → h.sampled j = true ∨
  (Eqat t t' (.prob j) ∧ Eqat t t' (.mask (t.samplers j).selector))

theorem NewlyDone.trans {a a' b b' c c' : Heap F G} (p : NewlyDone a b b') (q : NewlyDone b c c')
    (r : Post b b' c c') (_ : Post a a' b b') : NewlyDone a c c' := by
  intro j hj
  rcases q j hj with h | h
  · rcases p j h with h | h
    · exact .inl h
    · refine .inr ⟨r.mono _ h.1, ?_⟩
      have := r.mono _ h.2
      rwa [← static_selector (r.stat j)] at this
  · exact .inr h

theorem ReadyAt.post {h h' t t' : Heap F G} {j : Nat} (a : ReadyAt h h' j) (p : Post h h' t t')
    (n : NewlyDone h t t') : ReadyAt t t' j := by
  have hf : t.sampled j = false → h.sampled j = false := by
    intro hj
    cases hh : h.sampled j with
    | false => rfl
    | true => rw [p.marks j hh] at hj; cases hj
  have e1 := static_selector (p.stat j)
  have e2 := static_usesDistance (p.stat j)
  have e3 := static_luminosity (p.stat j)
  refine ⟨fun hj => ?_, fun hj => ?_, fun hj => ?_⟩
  · rw [e1, e2, p.kind]
    obtain ⟨h1, h2, h3, h4⟩ := a.rest (hf hj)
    exact ⟨p.mono _ h1, p.mono _ h2, fun k => p.mono _ (h3 k), fun k => p.mono _ (h4 k)⟩
  · rw [e1, e3]
    obtain ⟨h1, h2⟩ := a.lum (hf hj)
    exact ⟨p.mono _ h1, fun k => p.mono _ (h2 k)⟩
  · rcases n j hj with h | h
    · rw [e1]
      exact ⟨p.mono _ (a.done h).1, p.mono _ (a.done h).2⟩
    · exact h

theorem Pair.sampler {h h' : Heap F G} (p : Pair h h') (i : Nat) :
    (h'.samplers i).usesDistance = (h.samplers i).usesDistance ∧
    (h'.samplers i).selector = (h.samplers i).selector ∧
    (h'.samplers i).secondaries = (h.samplers i).secondaries ∧
    (h'.samplers i).isSampled = (h.samplers i).isSampled ∧
    (h'.samplers i).isSecondary = (h.samplers i).isSecondary ∧
    (h'.samplers i).isObserved = (h.samplers i).isObserved ∧
    (h'.samplers i).usesLuminosity = (h.samplers i).usesLuminosity ∧
    (h'.samplers i).name = (h.samplers i).name ∧
    (h'.samplers i).hasSecondary = (h.samplers i).hasSecondary ∧
    (h'.samplers i).trueVals = (h.samplers i).trueVals ∧
    (h'.samplers i).obsVals = (h.samplers i).obsVals ∧
    (h'.samplers i).params = (h.samplers i).params := by
  have := sameSampler_iff.1 (p.same.samplers i)
  grind

theorem Pair.view {h h' : Heap F G} (p : Pair h h') {i : Nat} (h1 : Eqat h h' (.spatial i))
    (h2 : Eqat h h' (.lum i)) : h'.view i = h.view i := by
  have hv : ∀ j, ((h'.samplers j).trueVals, (h'.samplers j).obsVals) =
      ((h.samplers j).trueVals, (h.samplers j).obsVals) := fun j => by
    have := p.sampler j; grind
  obtain ⟨a1, a2, a3, a4, a5, a6, a7, a8, a9, a10, a11, a12⟩ := p.sampler i
  simp only [Eqat] at h1 h2
  simp only [Heap.view, a3, a6, a10, a11, a12, h1, h2, hv]

theorem giveSelector_pair {i : Nat} {h h' : Heap F G} (p : Pair h h') (h1 : Eqat h h' (.spatial i))
    (h2 : Eqat h h' (.lum i)) :
    TwoRuns (fun _ t t' => Post h h' t t' ∧ t.samplers = h.samplers ∧ t'.samplers = h'.samplers ∧
      ((h.samplers i).usesDistance = true → Eqat t t' (.dist (h.samplers i).selector)) ∧
      ((h.samplers i).luminosity ≠ none → Eqat t t' (.slum (h.samplers i).selector)))
      (giveSelector i h) (giveSelector i h') := by
  unfold giveSelector
  refine TwoRuns.bind (Q := fun _ t t' => Post h h' t t' ∧ t.samplers = h.samplers ∧
    t'.samplers = h'.samplers ∧
    ((h.samplers i).usesDistance = true → Eqat t t' (.dist (h.samplers i).selector))) ?_ ?_
  · obtain ⟨a1, a2, -⟩ := p.sampler i
    unfold giveDistance
    rw [a1, a2]
    simp only [Eqat] at h1
    rw [← h1]
    split
    · split
      · exact rfl
      · rename_i sp _
        refine ⟨rfl, post_modSelector p _ _ _ ?_ ?_ ?_ ?_ ?_ ?_ ?_ ?_ ?_, rfl, rfl, fun _ => ?_⟩
        · have := sameSelector_iff.1 (p.same.selectors (h.samplers i).selector)
          rw [sameSelector_iff]; exact this
        all_goals first | exact id | exact fun _ => rfl | exact rfl | skip
        · exact .inl
        · simp [Eqat, Heap.modSelector]
    · rename_i hd
      exact ⟨rfl, Post.refl p, rfl, rfl, fun h => absurd h hd⟩
  · rintro - t t' ⟨q, e1, e2, hd⟩
    have e4 : (t'.samplers i).selector = (t.samplers i).selector := (q.pair.sampler i).2.1
    unfold giveLuminosity
    rw [e4, e1, e2]
    simp only [Eqat] at h2
    rw [← h2]
    split
    · rename_i hn
      exact ⟨rfl, q, e1, e2, hd, fun h => absurd hn h⟩
    · rename_i l _
      have k := post_modSelector q.pair (h.samplers i).selector
        (fun c => { c with data := { c.data with luminosity := some l } })
        (fun c => { c with data := { c.data with luminosity := some l } })
        (by have := sameSelector_iff.1 (q.pair.same.selectors (h.samplers i).selector)
            rw [sameSelector_iff]; exact this) id id (fun _ => rfl) id id id rfl .inl
      exact ⟨rfl, q.trans k, e1, e2, fun h => k.mono _ (hd h), fun _ => by simp [Eqat, Heap.modSelector]⟩

theorem runCode_pair (c : SView F → Nat → G → SOut F G) {i n : Nat} {h h' : Heap F G} (p : Pair h h')
    (h1 : Eqat h h' (.spatial i)) (h2 : Eqat h h' (.lum i)) :
    TwoRuns (fun _ t t' => Post h h' t t') (runCode c i n h) (runCode c i n h') := by
  unfold runCode
  rw [p.view h1 h2, ← p.rng]
  generalize c (h.view i) n h.rng = o
  have k := post_modSampler p i
    (fun s => { s with trueVals := o.trueVals, obsVals := o.obsVals, params := o.params })
    (fun s => { s with trueVals := o.trueVals, obsVals := o.obsVals, params := o.params })
    (by have := sameSampler_iff.1 (p.same.samplers i)
        rw [sameSampler_iff]; simp only; grind) id id id rfl id
  dsimp only
  cases o.err with
  | none => exact ⟨rfl, k.congr rfl rfl rfl rfl rfl⟩
  | some e => exact rfl

theorem finishDraw_pair (w : World F G) {i n : Nat} {h h' : Heap F G} (p : Pair h h')
    (h1 : Eqat h h' (.spatial i)) (h2 : Eqat h h' (.lum i))
    (h3 : Eqat h h' (.flux (h.samplers i).selector)) (h4 : Eqat h h' (.sspat (h.samplers i).selector))
    (h5 : Eqat h h' (.dist (h.samplers i).selector)) (h6 : Eqat h h' (.slum (h.samplers i).selector))
    (h7 : (h.selectors (h.samplers i).selector).kind.isDummy = true →
      Eqat h h' (.mask (h.samplers i).selector)) :
    TwoRuns (fun _ t t' => Post h h' t t' ∧ NewlyDone h t t') (finishDraw w i n h) (finishDraw w i n h') := by
  unfold finishDraw
  refine TwoRuns.bind (Q := fun _ t t' => Post h h' t t' ∧ t.sampled = h.sampled) (m := modify _)
    (m' := modify _) ⟨rfl, (Post.refl p).congr p.rng rfl rfl rfl rfl, rfl⟩ ?_
  rintro - a a' ⟨p1, s1⟩
  refine TwoRuns.bind (Q := fun _ t t' => Post h h' t t' ∧ t.sampled = h.sampled) ?_ ?_
  · refine (runCode_pair _ p1.pair (p1.mono _ h1) (p1.mono _ h2)).impBoth ?_
    intro _ b b' k _ q
    refine ⟨p1.trans q, ?_⟩
    obtain ⟨_, _, _, _, rfl⟩ := runCode_ok k
    rw [← s1]
    funext j; by_cases hj : j = i <;> simp [Heap.sampled, Heap.modSampler, hj]
  rintro - a a' ⟨p1, s1⟩
  refine TwoRuns.bind (Q := fun _ t t' => Post h h' t t' ∧ t.sampled = h.sampled) ?_ ?_
  · unfold observe
    rw [(p1.pair.sampler i).2.2.2.2.2.1]
    split
    · refine (runCode_pair _ p1.pair (p1.mono _ h1) (p1.mono _ h2)).impBoth ?_
      intro _ b b' k _ q
      refine ⟨p1.trans q, ?_⟩
      obtain ⟨_, _, _, _, rfl⟩ := runCode_ok k
      rw [← s1]
      funext j; by_cases hj : j = i <;> simp [Heap.sampled, Heap.modSampler, hj]
    · refine ⟨rfl, p1.trans (post_modSampler p1.pair i _ _ ?_ id id id rfl id), ?_⟩
      · have := sameSampler_iff.1 (p1.pair.same.samplers i)
        rw [sameSampler_iff]; simp only; grind
      · rw [← s1]
        funext j; by_cases hj : j = i <;> simp [Heap.sampled, Heap.modSampler, hj]
  rintro - a a' ⟨p1, s1⟩
  have hq : (a.samplers i).selector = (h.samplers i).selector := static_selector (p1.stat i)
  refine TwoRuns.bind (Q := fun _ t t' => Post h h' t t' ∧ t.sampled = h.sampled ∧
    DataEq t t' (h.samplers i).selector) (m := modify _) (m' := modify _) ⟨rfl, ?_⟩ ?_
  · obtain ⟨b1, b2, b3, b4, b5, b6, b7, b8, b9, b10, b11, b12⟩ := p1.pair.sampler i
    dsimp only
    rw [b2, hq, b11]
    have k := post_modSelector p1.pair (h.samplers i).selector
      (fun c => { c with data := { c.data with obsValue := (a.samplers i).obsVals } })
      (fun c => { c with data := { c.data with obsValue := (a.samplers i).obsVals } })
      (by have := sameSelector_iff.1 (p1.pair.same.selectors (h.samplers i).selector)
          rw [sameSelector_iff]; exact this) id id id (fun _ => rfl) id id rfl .inl
    have k' := p1.trans k
    exact ⟨k', s1, k'.mono _ h5, k'.mono _ h6, by simp [Eqat, Heap.modSelector], k'.mono _ h3, k'.mono _ h4⟩
  rintro - a a' ⟨p1, s1, d1⟩
  have hq : (a.samplers i).selector = (h.samplers i).selector := static_selector (p1.stat i)
  obtain ⟨b1, b2, b3, b4, b5, b6, b7, b8, b9, b10, b11, b12⟩ := p1.pair.sampler i
  refine TwoRuns.get' ?_
  rw [b10, b11, b2, hq]
  refine TwoRuns.bind (TwoRuns.assert' (Q := fun _ t t' => t = a ∧ t' = a') fun _ => ⟨rfl, rfl⟩) ?_
  rintro - _ _ ⟨rfl, rfl⟩
  rename_i u u'
  refine TwoRuns.bind (TwoRuns.assert' (Q := fun _ t t' => t = u ∧ t' = u') fun _ => ⟨rfl, rfl⟩) ?_
  rintro - _ _ ⟨rfl, rfl⟩
  rename_i a a'
  refine TwoRuns.bind (Q := fun _ t t' => Post h h' t t' ∧ (∀ j, j ≠ i → t.sampled j = h.sampled j) ∧
    DataEq t t' (h.samplers i).selector) (TwoRuns.modify' ?_) ?_
  · have k := post_modSampler p1.pair i (fun s => { s with isSampled := true })
      (fun s => { s with isSampled := true })
      (by have := sameSampler_iff.1 (p1.pair.same.samplers i)
          rw [sameSampler_iff]; simp only; grind) id id id rfl (fun _ => rfl)
    refine ⟨p1.trans k, fun j hj => ?_, d1⟩
    rw [← s1]; simp [Heap.sampled, Heap.modSampler, hj]
  rintro - a a' ⟨p1, s1, d1⟩
  refine TwoRuns.bind (drawSelector_pair w p1.pair d1 ?_) ?_
  · intro hk; rw [p1.kind] at hk; exact p1.mono _ (h7 hk)
  rintro - b b' ⟨p2, e1, e2, e3⟩
  have p2 := p1.trans p2
  refine TwoRuns.get' ?_
  rw [p2.pair.view (p2.mono _ h1) (p2.mono _ h2)]
  refine TwoRuns.bind (TwoRuns.liftE' (Q := fun _ t t' => t = b ∧ t' = b') fun _ _ => ⟨rfl, rfl⟩) ?_
  rintro pr u u' ⟨eu, eu'⟩
  rw [← eu, ← eu'] at p2 e1
  rw [← eu] at e2
  have k := post_modSampler p2.pair i (fun s => { s with prob := pr }) (fun s => { s with prob := pr })
      (by have := sameSampler_iff.1 (p2.pair.same.samplers i)
          rw [sameSampler_iff]; simp only; grind) id id (fun _ => rfl) rfl id
  refine TwoRuns.modify' ⟨p2.trans k, fun j hj => ?_⟩
  by_cases hji : j = i
  · subst hji
    right
    refine ⟨by simp [Eqat], ?_⟩
    have hs : (u.samplers j).selector = (h.samplers j).selector := static_selector (p2.stat j)
    simp only [Eqat, modSampler_same, hs, modSampler_selectors, e1]
  · left
    have : u.sampled j = true := by simpa [Heap.sampled, Heap.modSampler, hji] using hj
    rw [← s1 j hji]
    simpa [Heap.sampled, e2] using this

/-- Two draws of the same sampler from heaps that differ only in leftovers. -/
theorem samplerDraw_pair (w : World F G) (n : Nat) (S : Nat → Prop) :
    ∀ (k i : Nat) (h h' : Heap F G), Pair h h' → S i → (∀ j, S j → ∀ c ∈ h.children j, S c) →
      (∀ j, S j → ReadyAt h h' j) → Eqat h h' (.spatial i) →
      TwoRuns (fun _ t t' => Post h h' t t' ∧ NewlyDone h t t')
        (samplerDraw w k i n h) (samplerDraw w k i n h')
  | 0, _, _, _, _, _, _, _, _ => rfl
  | k + 1, i, h, h', p, hi, hc, hr, hsp => by
    unfold samplerDraw
    refine TwoRuns.get' ?_
    obtain ⟨-, -, e3, e4, -⟩ := p.sampler i
    rw [e3, e4]
    split
    · exact ⟨rfl, Post.refl p, fun j hj => .inl hj⟩
    rename_i hns
    have hns : h.sampled i = false := by simpa [Heap.sampled] using hns
    refine TwoRuns.bind (giveSelector_pair p hsp ((hr i hi).lum hns).1) ?_
    rintro - a a' ⟨p1, f1, f1', hd, hl⟩
    have hna : NewlyDone h a a' := fun j hj => .inl (by simpa [Heap.sampled, f1] using hj)
    -- the secondaries
    let I : Heap F G → Heap F G → Prop := fun t t' => Post a a' t t' ∧ NewlyDone a t t'
    refine TwoRuns.bind (Q := fun _ => I) (TwoRuns.forEach' _ ⟨Post.refl p1.pair, fun j hj => .inl hj⟩ ?_) ?_
    · rintro x hx t t' ⟨q, nd⟩
      have hcx : S x.2 := hc i hi x.2 (List.mem_map_of_mem hx)
      have qq := p1.trans q
      have ht : Eqat t t' (.spatial i) := qq.mono _ hsp
      refine TwoRuns.bind (Q := fun _ u u' => Post t t' u u' ∧ u.sampled = t.sampled ∧
          Eqat u u' (.spatial x.2)) ?_ ?_
      · unfold prepSecondary
        rw [(q.pair.sampler x.2).2.2.2.2.1]
        simp only [Eqat] at ht
        rw [← ht]
        split
        · split
          · exact rfl
          · rename_i v _
            refine ⟨rfl, post_modSampler q.pair x.2 _ _ ?_ (fun _ => rfl) id id rfl id, ?_, ?_⟩
            · have := sameSampler_iff.1 (q.pair.same.samplers x.2)
              rw [sameSampler_iff]; simp only; grind
            · funext j; by_cases hj : j = x.2 <;> simp [Heap.sampled, Heap.modSampler, hj]
            · simp [Eqat]
        · exact rfl
      · rintro - u u' ⟨pu, su, eu⟩
        have ndu : NewlyDone t u u' := fun j hj => .inl (by rw [← su]; exact hj)
        have pu' := q.trans pu
        have ndu' : NewlyDone a u u' := nd.trans ndu pu q
        have hst : ∀ j, (u.samplers j).static = (h.samplers j).static := fun j => (p1.trans pu').stat j
        refine (samplerDraw_pair w n S k x.2 u u' pu.pair hcx ?_ ?_ eu).imp ?_
        · intro j hj c hcc
          refine hc j hj c ?_
          simpa [Heap.children, static_secondaries (hst j)] using hcc
        · intro j hj
          exact (((hr j hj).post p1 hna).post pu' ndu')
        · rintro - v v' ⟨pv, nv⟩
          exact ⟨pu'.trans pv, ndu'.trans nv pv pu'⟩
    · rintro - t t' ⟨q, nd⟩
      have qq := p1.trans q
      have hst : (t.samplers i).static = (h.samplers i).static := qq.stat i
      have esel := static_selector hst
      have hrest := (hr i hi).rest hns
      have hlum := (hr i hi).lum hns
      refine (finishDraw_pair w qq.pair (qq.mono _ hsp) (qq.mono _ hlum.1) ?_ ?_ ?_ ?_ ?_).imp ?_
      · rw [esel]; exact qq.mono _ hrest.1
      · rw [esel]; exact qq.mono _ hrest.2.1
      · rw [esel]
        cases hu : (h.samplers i).usesDistance with
        | true => exact q.mono _ (hd hu)
        | false => exact qq.mono _ (hrest.2.2.1 hu)
      · rw [esel]
        cases hu : (h.samplers i).luminosity with
        | none => exact qq.mono _ (hlum.2 hu)
        | some l => exact q.mono _ (hl (by rw [hu]; simp))
      · rw [esel, qq.kind]; intro hk; exact qq.mono _ (hrest.2.2.2 hk)
      · rintro - v v' ⟨pv, nv⟩
        have ndt : NewlyDone h t t' := hna.trans nd q p1
        exact ⟨qq.trans pv, ndt.trans nv pv qq⟩

end
end Popsynth
