import Verif.Props.Config
import Verif.Lemmas.SameSurvey
import Verif.Model.Build

/-!
# C68: a survey depends only on how the synth is set up
-/

set_option autoImplicit false
set_option linter.unusedSectionVars false

namespace Popsynth

namespace Spec

variable {F G : Type}

/-- The same population: everything agrees, except that `auxiliary` may refer to other selector
objects. -/
def SamePopulation (P P' : Population F) : Prop :=
  { P with auxiliary := none } = { P' with auxiliary := none } ∧
  (P.auxiliary.map fun q => q.map fun v => (v.1, v.2.name, v.2.trueVals, v.2.obsVals, v.2.prob)) =
    P'.auxiliary.map fun q => q.map fun v => (v.1, v.2.name, v.2.trueVals, v.2.obsVals, v.2.prob)

/-- Two runs return the same population and leave numpy's random state the same, or both raise
the same exception. -/
def SameOutcome : EStateM.Result Err (SurvSt F G) (Population F) →
    EStateM.Result Err (SurvSt F G) (Population F) → Prop
  | .ok P s, .ok P' s' => SamePopulation P P' ∧ s.heap.rng = s'.heap.rng
  | .error e _, .error e' _ => e = e'
  | _, _ => False

/-- Selectors a configuration uses. -/
inductive RoleUsed (y : CSynth F) : Role → Prop
  | flux : RoleUsed y .flux
  | dist : RoleUsed y .dist
  | spat {q : CSel F} : y.spatSel = some q → RoleUsed y .spat
  | of {i : String} : Used y i → RoleUsed y (.of i)

/-- The state holds new objects, made as the configuration says and all different. -/
structure InMemory (K : Classes F G) (y : CSynth F) (at' : String → Nat) (sel : Role → Nat)
    (code : Nat → SamplerCode F G) (s : SurvSt F G) : Prop where
  smp : ∀ i c, Used y i → Dict.get? y.objs i = some c →
    s.heap.samplers (at' i) = K.sampler at' (sel (.of i)) c
  code : ∀ i c, Used y i → Dict.get? y.objs i = some c → code (at' i) = K.smp c.cls
  own : ∀ i c, Used y i → Dict.get? y.objs i = some c →
    s.heap.selectors (sel (.of i)) = K.selector c.sel
  flux : s.heap.selectors (sel .flux) = K.selector (y.fluxSel.getD unitySel)
  dist : s.heap.selectors (sel .dist) = K.selector (y.distSel.getD unitySel)
  spat : ∀ q, y.spatSel = some q → s.heap.selectors (sel .spat) = K.selector q
  smpApart : ∀ i j, Used y i → Used y j → at' i = at' j → i = j
  selApart : ∀ a b, RoleUsed y a → RoleUsed y b → sel a = sel b → a = b
  sp : s.sp = { params := K.assigned y.spatial.cls (truthOf y.spatial.obj) }
  lum : s.lum = { params := (y.lum.map fun l => K.assigned l.cls (truthOf l.obj)).getD {} }
  graph : s.graph = ({} : Graph).addNode (K.distName y.spatial.cls) none

end Spec

open Spec

variable {F G : Type}

/-! ### Objects may be replaced by equal ones -/

theorem samePopulation_of {r : Corr} {P P' : Population F} (h : PopAlike r P P') :
    SamePopulation P P' := by
  obtain ⟨h1, h2⟩ := h
  refine ⟨?_, ?_⟩
  · rw [← h1]
  · cases e : P.auxiliary with
    | none =>
      cases e' : P'.auxiliary with
      | none => rfl
      | some b => rw [e, e'] at h2; exact h2.elim
    | some a =>
      cases e' : P'.auxiliary with
      | none => rw [e, e'] at h2; exact h2.elim
      | some b =>
        rw [e, e'] at h2
        replace h2 : StorAlike r a b := h2
        simp only [Option.map_some, Option.some.injEq]
        unfold StorAlike at h2
        clear e e' h1
        induction h2 with
        | nil => rfl
        | cons hp _ ih =>
          rw [List.map_cons, List.map_cons, ih, hp.1, hp.2.name, hp.2.trueVals, hp.2.obsVals,
            hp.2.prob]

theorem sameOutcome_of {r : Corr}
    {a b : EStateM.Result Err (SurvSt F G) (Population F)}
    (h : Alike (fun P P' s s' => PopAlike r P P' ∧ SurvAlike r s s') a b) : SameOutcome a b := by
  cases a <;> cases b <;> first | exact h.elim | skip
  · exact ⟨samePopulation_of h.1, h.2.heap.rng⟩
  · exact h

section dict
variable {r : Corr} {h h' : Heap F G}

theorem entryAt_alike (a : HeapAlike r h h') {i i' : Nat} (hi : r.smp i i') (t : String) :
    entryAt h i t = entryAt h' i' t := by
  have s := a.smp i i' hi
  have q := a.sel _ _ s.selector
  have e : (h.samplers i).secondaries.map (fun p => (p.1, p.1)) =
      (h'.samplers i').secondaries.map (fun p => (p.1, p.1)) := by
    have := s.secondaries
    generalize (h.samplers i).secondaries = l at this
    generalize (h'.samplers i').secondaries = m at this
    induction this with
    | nil => rfl
    | cons hr _ ih => rw [List.map_cons, List.map_cons, ih, hr.1]
  unfold entryAt selAt
  dsimp only
  rw [s.cls, s.name, s.obsName, s.isObserved, s.params, q.cls, q.params, e]

theorem foldlM_alike {α β γ : Type} {rel : α → β → Prop} {f : γ → α → Except Err γ}
    {f' : γ → β → Except Err γ} {l : List α} {m : List β} (hl : All2 rel l m)
    (hf : ∀ x y, rel x y → ∀ b, f b x = f' b y) (b : γ) : l.foldlM f b = m.foldlM f' b := by
  induction hl generalizing b with
  | nil => rfl
  | cons hr _ ih =>
    rw [List.foldlM_cons, List.foldlM_cons, hf _ _ hr]
    congr 1
    funext b
    exact ih b

theorem secObjectsAt_alike (a : HeapAlike r h h') : ∀ (k i i' : Nat) (d : Dict (PVal F)),
    r.smp i i' → secObjectsAt h k i d = secObjectsAt h' k i' d
  | 0, _, _, _, _ => rfl
  | k + 1, i, i', d, hi => by
    have s := a.smp i i' hi
    unfold secObjectsAt
    rw [entryAt_alike a hi, s.hasSecondary, s.name, s.cls,
      foldlM_alike s.secondaries fun x y hxy b => secObjectsAt_alike a k x.2 y.2 b hxy.2]

theorem addEntryAt_alike (a : HeapAlike r h h') {i i' : Nat} (hi : r.smp i i') (fuel : Nat)
    (d : Dict (PVal F)) (k t : String) :
    addEntryAt fuel h d i k t = addEntryAt fuel h' d i' k t := by
  unfold addEntryAt
  dsimp only
  rw [entryAt_alike a hi, (a.smp i i' hi).hasSecondary, secObjectsAt_alike a _ _ _ _ hi]

/-- `to_dict` does not depend on which objects the synth is made of. -/
theorem heapDict_alike (R : Registry F) (sp : String × PVal F) (lum : String) (fuel : Nat)
    {y y' : Synth F} (hy : SynthAlike r y y') {s s' : SurvSt F G} (a : SurvAlike r s s') :
    heapDict R sp lum fuel y s = heapDict R sp lum fuel y' s' := by
  have hsel : ∀ {q q'}, r.sel q q' → selAt s.heap q = selAt s'.heap q' := by
    intro q q' hq
    unfold selAt
    rw [(a.heap.sel _ _ hq).cls, (a.heap.sel _ _ hq).params]
  have hspat : (y.spatSel.map fun q => selDict (selAt s.heap q)) =
      y'.spatSel.map fun q => selDict (selAt s'.heap q) := by
    have := hy.spatSel
    cases e : y.spatSel <;> cases e' : y'.spatSel <;> rw [e, e'] at this
    · rfl
    · exact this.elim
    · exact this.elim
    · simp only [Option.map_some, Option.some.injEq]
      rw [hsel this]
  have haux : auxDictAt fuel s.heap y = auxDictAt fuel s'.heap y' := by
    unfold auxDictAt
    rw [foldlM_alike (f' := fun d p => addEntryAt fuel s'.heap d p.2 p.1 (s'.heap.samplers p.2).cls)
      hy.aux fun x y hxy b => by
        rw [addEntryAt_alike a.heap hxy.2, hxy.1, (a.heap.smp _ _ hxy.2).cls]]
    have := hy.derived
    cases e : y.derived <;> cases e' : y'.derived <;> rw [e, e'] at this
    · exact this.elim
    · exact this.elim
    · simp only
      congr 1
      funext d
      rw [addEntryAt_alike a.heap this, (a.heap.smp _ _ this).name]
  unfold heapDict
  rw [haux, hspat, hsel hy.fluxSel, hsel hy.distSel, hy.seed, a.sp, a.lum, hy.lumName,
    hy.fluxSelSet, hy.distSelSet]

end dict

variable [LE F] [DecidableLE F] [OfNat F 0] [OfNat F 1]

/-- **C68**, objects: take any synth in any state (its objects may already have been drawn from)
and a second one whose objects correspond one to one to those of the first and hold the same
data.  With the same random state, `draw_survey` returns the same population from both and
leaves the same random state, or raises the same exception in both.  Flags of selectors whose
class does not look at them may differ. -/
theorem C68_objects (r : Corr) (ho : r.OneToOne) (e : SurveyEnv F G) (w' : World F G)
    (hw : WorldAlike r e.world w') (R : Registry F) (sp : String × PVal F) (lum : String)
    (fuel : Nat) (y y' : Synth F) (hy : SynthAlike r y y') (s s' : SurvSt F G)
    (hs : SurvAlike r s s') (args : SurveyArgs F) :
    SameOutcome
      (drawSurvey { e with toDict := heapDict R sp lum fuel } y args s)
      (drawSurvey { e with world := w', toDict := heapDict R sp lum fuel } y' args s') :=
  sameOutcome_of (drawSurvey_alike { e with toDict := heapDict R sp lum fuel } w'
    (heapDict R sp lum fuel) ho hw hy (fun _ _ h => heapDict_alike R sp lum fuel hy h) args hs)

/-! ### The objects of a configuration -/

variable {R : Registry F} {rank : String → Nat} {y y' : CSynth F}

section same

theorem used_name (hy : Config R rank y) (hs : SameConfig R y y') {i : String} (hi : Used y i) :
    ∀ c, Dict.get? y.objs i = some c → Used y' c.name := by
  induction hi with
  | @root i hr =>
    intro c hc
    refine .root ?_
    rcases hr with ⟨k, hk⟩ | hd
    · refine .inl ⟨c.name, ?_⟩
      rw [hs.aux, List.mem_map]
      exact ⟨(k, i), hk, by rw [hy.auxKey k i c hk hc]⟩
    · right
      rw [hs.derived, hd, Option.map_some, nameAt_of_get? hc]
  | @sec i j k c hi hc hm ih =>
    intro c2 hc2
    obtain ⟨c', h1, h2, -⟩ := hs.sampler i c hi hc
    obtain ⟨-, -, -, -, -, -, h3⟩ := h2
    refine .sec (k := c2.name) (ih c hc) h1 ?_
    rw [h3, List.mem_map]
    exact ⟨(k, j), hm, by rw [hy.secKey i c k j c2 hi hc hm hc2]⟩

/-- Which objects of the two synths correspond. -/
def corrOf (y : CSynth F) (at1 at2 : String → Nat) (sel1 sel2 : Role → Nat) : Corr where
  smp a b := ∃ i c, Used y i ∧ Dict.get? y.objs i = some c ∧ a = at1 i ∧ b = at2 c.name
  sel a b := (a = sel1 .flux ∧ b = sel2 .flux) ∨ (a = sel1 .dist ∧ b = sel2 .dist) ∨
    (y.spatSel.isSome = true ∧ a = sel1 .spat ∧ b = sel2 .spat) ∨
    ∃ i c, Used y i ∧ Dict.get? y.objs i = some c ∧ a = sel1 (.of i) ∧ b = sel2 (.of c.name)

/-- The correspondence of roles. -/
def RolePair (y : CSynth F) (a b : Role) : Prop :=
  (a = .flux ∧ b = .flux) ∨ (a = .dist ∧ b = .dist) ∨
  (y.spatSel.isSome = true ∧ a = .spat ∧ b = .spat) ∨
  ∃ i c, Used y i ∧ Dict.get? y.objs i = some c ∧ a = .of i ∧ b = .of c.name

theorem corrOf_sel_iff {at1 at2 : String → Nat} {sel1 sel2 : Role → Nat} {a b : Nat} :
    (corrOf y at1 at2 sel1 sel2).sel a b ↔
      ∃ p q, RolePair y p q ∧ a = sel1 p ∧ b = sel2 q := by
  constructor
  · rintro (⟨rfl, rfl⟩ | ⟨rfl, rfl⟩ | ⟨h, rfl, rfl⟩ | ⟨i, c, h1, h2, rfl, rfl⟩)
    · exact ⟨_, _, .inl ⟨rfl, rfl⟩, rfl, rfl⟩
    · exact ⟨_, _, .inr (.inl ⟨rfl, rfl⟩), rfl, rfl⟩
    · exact ⟨_, _, .inr (.inr (.inl ⟨h, rfl, rfl⟩)), rfl, rfl⟩
    · exact ⟨_, _, .inr (.inr (.inr ⟨i, c, h1, h2, rfl, rfl⟩)), rfl, rfl⟩
  · rintro ⟨p, q, ⟨rfl, rfl⟩ | ⟨rfl, rfl⟩ | ⟨h, rfl, rfl⟩ | ⟨i, c, h1, h2, rfl, rfl⟩, rfl, rfl⟩
    · exact .inl ⟨rfl, rfl⟩
    · exact .inr (.inl ⟨rfl, rfl⟩)
    · exact .inr (.inr (.inl ⟨h, rfl, rfl⟩))
    · exact .inr (.inr (.inr ⟨i, c, h1, h2, rfl, rfl⟩))

theorem opt_isSome {α : Type} {rel : α → α → Prop} {a b : Option α} (h : Opt rel a b) :
    a.isSome = b.isSome := by
  cases a <;> cases b <;> first | rfl | exact h.elim

theorem isSome_elim {α : Type} {a : Option α} (h : a.isSome = true) : ∃ x, a = some x := by
  cases a with
  | none => cases h
  | some x => exact ⟨x, rfl⟩

theorem RolePair.used (hy : Config R rank y) (hs : SameConfig R y y') {a b : Role}
    (h : RolePair y a b) : RoleUsed y a ∧ RoleUsed y' b := by
  rcases h with ⟨rfl, rfl⟩ | ⟨rfl, rfl⟩ | ⟨h, rfl, rfl⟩ | ⟨i, c, h1, h2, rfl, rfl⟩
  · exact ⟨.flux, .flux⟩
  · exact ⟨.dist, .dist⟩
  · obtain ⟨q, hq⟩ := isSome_elim h
    obtain ⟨q', hq'⟩ := isSome_elim (opt_isSome hs.spat ▸ h)
    exact ⟨.spat hq, .spat hq'⟩
  · exact ⟨.of h1, .of (used_name hy hs h1 c h2)⟩

theorem RolePair.unique (hy : Config R rank y) {a b p q : Role} (h : RolePair y a b)
    (h' : RolePair y p q) : a = p ↔ b = q := by
  rcases h with ⟨rfl, rfl⟩ | ⟨rfl, rfl⟩ | ⟨h, rfl, rfl⟩ | ⟨i, c, h1, h2, rfl, rfl⟩ <;>
  rcases h' with ⟨rfl, rfl⟩ | ⟨rfl, rfl⟩ | ⟨h', rfl, rfl⟩ | ⟨j, d, k1, k2, rfl, rfl⟩ <;> simp
  constructor
  · rintro rfl
    rw [h2] at k2
    cases k2
    rfl
  · exact fun e => hy.names i j c d h1 k1 h2 k2 e

variable {K : Classes F G} {at1 at2 : String → Nat} {sel1 sel2 : Role → Nat}
  {code1 code2 : Nat → SamplerCode F G} {s s' : SurvSt F G}

theorem corrOf_oneToOne (hy : Config R rank y) (hs : SameConfig R y y')
    (m : InMemory K y at1 sel1 code1 s) (m' : InMemory K y' at2 sel2 code2 s') :
    (corrOf y at1 at2 sel1 sel2).OneToOne := by
  constructor
  · rintro a a' b b' ⟨i, c, h1, h2, rfl, rfl⟩ ⟨j, d, k1, k2, rfl, rfl⟩
    constructor
    · intro e
      have := m.smpApart _ _ h1 k1 e
      subst this
      rw [h2] at k2
      cases k2
      rfl
    · intro e
      have := m'.smpApart _ _ (used_name hy hs h1 c h2) (used_name hy hs k1 d k2) e
      rw [hy.names i j c d h1 k1 h2 k2 this]
  · intro a a' b b' ha hb
    rw [corrOf_sel_iff] at ha hb
    obtain ⟨p, q, h1, rfl, rfl⟩ := ha
    obtain ⟨p2, q2, h2, rfl, rfl⟩ := hb
    have u := RolePair.used hy hs h1
    have v := RolePair.used hy hs h2
    have w := RolePair.unique hy h1 h2
    constructor
    · intro e
      rw [w.1 (m.selApart _ _ u.1 v.1 e)]
    · intro e
      rw [w.2 (m'.selApart _ _ u.2 v.2 e)]

/-- Classes the registry says do not look at the flags do not. -/
def FlagsRight (R : Registry F) (K : Classes F G) : Prop :=
  ∀ n k, Dict.get? R.sels n = some k → k.usesFlags = false → (K.kind n).ignoresFlags = true

theorem selector_alike (hK : FlagsRight R K) {q q' : CSel F} {flag : SelFlags → SelFlags}
    (hq : SelOk R flag q) (h : SameSel R q q') : SelAlike (K.selector q) (K.selector q') := by
  obtain ⟨h1, h2, h3⟩ := h
  obtain ⟨k, k1, -, -, -⟩ := hq
  unfold Classes.selector
  refine ⟨h1.symm, by simp only [h1], by simp only [h1, h2], ⟨rfl, rfl, rfl, rfl, rfl, ?_⟩, rfl, rfl⟩
  cases hu : k.usesFlags with
  | false => exact .inl (hK _ _ k1 hu)
  | true =>
    have := h3 k k1 hu
    simp only
    rw [this]
    exact .inr ⟨rfl, rfl, rfl, rfl⟩

theorem selAlike_refl (a : Selector F G) : SelAlike a a :=
  ⟨rfl, rfl, rfl, ⟨rfl, rfl, rfl, rfl, rfl, .inr ⟨rfl, rfl, rfl, rfl⟩⟩, rfl, rfl⟩

theorem optSelector_alike (hK : FlagsRight R K) {q q' : Option (CSel F)}
    {flag : SelFlags → SelFlags} (hq : ∀ x, q = some x → SelOk R flag x) (h : Opt (SameSel R) q q') :
    SelAlike (K.selector (q.getD unitySel)) (K.selector (q'.getD unitySel)) := by
  cases q <;> cases q' <;> first | exact h.elim | skip
  · exact selAlike_refl _
  · exact selector_alike hK (hq _ rfl) h

theorem all2_secs (f g : String → String → Nat) {rel : Nat → Nat → Prop} (l : Dict String)
    (h : ∀ k j, (k, j) ∈ l → rel (f k j) (g k j)) :
    All2 (fun p q : String × Nat => p.1 = q.1 ∧ rel p.2 q.2)
      (l.map fun p => (p.1, f p.1 p.2)) (l.map fun p => (p.1, g p.1 p.2)) := by
  induction l with
  | nil => exact .nil
  | cons p l ih =>
    exact .cons ⟨rfl, h _ _ (List.mem_cons_self ..)⟩ (ih fun k j hm => h k j (List.mem_cons_of_mem _ hm))

theorem heapAlike_of (hy : Config R rank y) (hs : SameConfig R y y') (hK : FlagsRight R K)
    (hsec : ∀ i c, Used y i → Dict.get? y.objs i = some c → (c.isSecondary = true ↔ ¬ Root y i))
    (m : InMemory K y at1 sel1 code1 s) (m' : InMemory K y' at2 sel2 code2 s')
    (hr : s.heap.rng = s'.heap.rng) :
    HeapAlike (corrOf y at1 at2 sel1 sel2) s.heap s'.heap := by
  refine ⟨?_, ?_, hr⟩
  · rintro a b ⟨i, c, h1, h2, rfl, rfl⟩
    obtain ⟨c', k1, ⟨l1, l2, l3, l4, l5, l6, l7⟩, k3⟩ := hs.sampler i c h1 h2
    rw [m.smp i c h1 h2, m'.smp c.name c' (used_name hy hs h1 c h2) k1]
    unfold Classes.sampler
    refine ⟨l1.symm, l2.symm, l3.symm, by simp only [l4], by simp only [l1], by simp only [l1],
      ?_, ?_, ?_, rfl, ?_, by simp only [l1, l5], rfl, rfl, rfl, rfl, rfl⟩
    · simp only [l7, List.map_map]
      refine all2_secs (fun _ j => at1 j) (fun k _ => at2 k) c.secs fun k j hm => ?_
      have hj : Used y j := .sec h1 h2 hm
      obtain ⟨cj, hcj, -⟩ := hy.sampler j hj
      exact ⟨j, cj, hj, hcj, rfl, by rw [hy.secKey i c k j cj h1 h2 hm hcj]⟩
    · have := hsec i c h1 h2
      simp only
      cases e : c.isSecondary <;> cases e' : c'.isSecondary <;> rw [e] at this <;> rw [e'] at k3 <;>
        simp_all
    · simp only [l7, List.isEmpty_map]
    · exact .inr (.inr (.inr ⟨i, c, h1, h2, rfl, rfl⟩))
  · rintro a b (⟨rfl, rfl⟩ | ⟨rfl, rfl⟩ | ⟨h, rfl, rfl⟩ | ⟨i, c, h1, h2, rfl, rfl⟩)
    · rw [m.flux, m'.flux]
      exact optSelector_alike hK hy.flux hs.flux
    · rw [m.dist, m'.dist]
      exact optSelector_alike hK hy.dist hs.dist
    · obtain ⟨q, hq⟩ := isSome_elim h
      obtain ⟨q', hq'⟩ := isSome_elim (opt_isSome hs.spat ▸ h)
      rw [m.spat q hq, m'.spat q' hq']
      have := hs.spat
      rw [hq, hq'] at this
      exact selector_alike hK (hy.spat q hq) this
    · obtain ⟨c', k1, k2, -⟩ := hs.sampler i c h1 h2
      obtain ⟨-, -, -, -, -, l6, -⟩ := k2
      rw [m.own i c h1 h2, m'.own c.name c' (used_name hy hs h1 c h2) k1]
      obtain ⟨c0, hc0, k, -, -, -, -, hok, -⟩ := hy.sampler i h1
      rw [h2] at hc0
      cases hc0
      exact selector_alike hK hok l6

theorem synthAlike_of (hy : Config R rank y) (hs : SameConfig R y y') :
    SynthAlike (corrOf y at1 at2 sel1 sel2) (K.synth at1 sel1 y) (K.synth at2 sel2 y') := by
  have hlum : y.lum.map (·.cls) = y'.lum.map (·.cls) := by
    have := hs.lum
    cases e : y.lum <;> cases e' : y'.lum <;> rw [e, e'] at this
    · exact this.elim
    · exact this.elim
    · simp only [Option.map_some, this.1]
  have hn : ∀ f : String → String, (y.lum.map fun l => f l.cls) = y'.lum.map fun l => f l.cls := by
    intro f
    have := congrArg (Option.map f) hlum
    rw [Option.map_map, Option.map_map] at this
    exact this
  constructor
  · unfold Classes.synth Classes.synthName
    simp only
    have := hn K.distName
    cases e : y.lum <;> cases e' : y'.lum <;> rw [e, e'] at this <;> simp at this
    · simp only [hs.spatial.1]
    · simp only [hs.spatial.1, this]
  · exact hs.seed.symm
  · simp only [Classes.synth, hs.spatial.1]
  · exact hn _
  · rfl
  · rfl
  · simp only [Classes.synth, hs.spatial.1]
  · simp only [Classes.synth, hn K.distForm]
  · simp only [Classes.synth, hs.aux, List.map_map]
    refine all2_secs (fun _ j => at1 j) (fun k _ => at2 k) y.aux fun k j hm => ?_
    have hj : Used y j := .root (.inl ⟨k, hm⟩)
    obtain ⟨cj, hcj, -⟩ := hy.sampler j hj
    exact ⟨j, cj, hj, hcj, rfl, by rw [hy.auxKey k j cj hm hcj]⟩
  · simp only [Classes.synth, hs.derived]
    cases e : y.derived with
    | none => trivial
    | some i =>
      have hi : Used y i := .root (.inr e)
      obtain ⟨c, hc, -⟩ := hy.sampler i hi
      exact ⟨i, c, hi, hc, rfl, by rw [nameAt_of_get? hc]⟩
  · exact .inl ⟨rfl, rfl⟩
  · exact .inr (.inl ⟨rfl, rfl⟩)
  · exact opt_isSome hs.flux
  · exact opt_isSome hs.dist
  · simp only [Classes.synth]
    have := opt_isSome hs.spat
    cases e : y.spatSel <;> cases e' : y'.spatSel <;> rw [e, e'] at this <;>
      first | trivial | cases this
    exact .inr (.inr (.inl ⟨by rw [e]; rfl, rfl, rfl⟩))

theorem env_same (hs : SameConfig R y y') (fuel : Nat) (base : SurveyEnv F G)
    (c1 c2 : Nat → SamplerCode F G) :
    K.env R fuel base c2 y' =
      { K.env R fuel base c1 y with world := { base.world with code := c2 } } := by
  obtain ⟨h1, -, h3⟩ := hs.spatial
  have hl : y'.lum.map (·.cls) = y.lum.map (·.cls) := by
    have := hs.lum
    cases e : y.lum <;> cases e' : y'.lum <;> rw [e, e'] at this
    · exact this.elim
    · exact this.elim
    · simp only [Option.map_some, this.1]
  have hc : (y'.lum.map fun l => K.lum l.cls) = y.lum.map fun l => K.lum l.cls := by
    have := congrArg (Option.map K.lum) hl
    rw [Option.map_map, Option.map_map] at this
    exact this
  unfold Classes.env
  simp only [h1, h3, hl, hc]

theorem survAlike_of (hy : Config R rank y) (hs : SameConfig R y y') (hK : FlagsRight R K)
    (hsec : ∀ i c, Used y i → Dict.get? y.objs i = some c → (c.isSecondary = true ↔ ¬ Root y i))
    (m : InMemory K y at1 sel1 code1 s) (m' : InMemory K y' at2 sel2 code2 s')
    (hr : s.heap.rng = s'.heap.rng) :
    SurvAlike (corrOf y at1 at2 sel1 sel2) s s' := by
  refine ⟨heapAlike_of hy hs hK hsec m m' hr, ?_, ?_, ?_⟩
  · rw [m.sp, m'.sp, hs.spatial.1, hs.spatial.2.1]
  · rw [m.lum, m'.lum]
    have := hs.lum
    cases e : y.lum <;> cases e' : y'.lum <;> rw [e, e'] at this
    · exact this.elim
    · exact this.elim
    · simp only [Option.map_some, this.1, this.2.1]
  · rw [m.graph, m'.graph, hs.spatial.1]

/-- **C68**, configurations: two synths that are configured the same (same classes, parameter
values, selections, attached samplers and secondaries in the same order), held in memory as
different objects at different places, draw the same survey from the same random state, for all
classes, arguments and primitives: the same population and random state, or the same
exception. -/
theorem C68_configured (hy : Config R rank y) (hs : SameConfig R y y') (hK : FlagsRight R K)
    (hsec : ∀ i c, Used y i → Dict.get? y.objs i = some c → (c.isSecondary = true ↔ ¬ Root y i))
    (m : InMemory K y at1 sel1 code1 s) (m' : InMemory K y' at2 sel2 code2 s')
    (hr : s.heap.rng = s'.heap.rng) (fuel : Nat) (base : SurveyEnv F G) (args : SurveyArgs F) :
    SameOutcome
      (drawSurvey (K.env R fuel base code1 y) (K.synth at1 sel1 y) args s)
      (drawSurvey (K.env R fuel base code2 y') (K.synth at2 sel2 y') args s') := by
  rw [env_same hs fuel base code1 code2]
  refine C68_objects _ (corrOf_oneToOne hy hs m m') (K.env R fuel base code1 y) _ ?_ R _ _ fuel _ _
    (synthAlike_of hy hs) s s' (survAlike_of hy hs hK hsec m m' hr) args
  refine ⟨rfl, rfl, rfl, rfl, ?_⟩
  rintro a b ⟨i, c, h1, h2, rfl, rfl⟩
  obtain ⟨c', k1, k2, -⟩ := hs.sampler i c h1 h2
  show code1 _ = code2 _
  rw [m.code i c h1 h2, m'.code c.name c' (used_name hy hs h1 c h2) k1, k2.1]

/-- **C68**, rebuilding (partial): a synth rebuilt by `from_dict` from what `to_dict` wrote draws
the same survey as the original, for every configuration `to_dict` can describe completely
(`Config`), all of whose samplers and selectors are new and different objects.  Without the last
condition this is false: see `C68_violated_shared`. -/
theorem C68_rebuilt_partial (C : Conv F) (fuel : Nat) (hy : Config R rank y)
    (hf : ∀ i, Root y i → rank i < fuel) (hK : FlagsRight R K)
    (hsec : ∀ i c, Used y i → Dict.get? y.objs i = some c → (c.isSecondary = true ↔ ¬ Root y i))
    (m : InMemory K y at1 sel1 code1 s) :
    ∃ d y' d', toDict R fuel y = .ok d ∧ fromDict R C d = .ok y' d' ∧
      ∀ at2 sel2 code2 s', InMemory K y' at2 sel2 code2 s' → s.heap.rng = s'.heap.rng →
        ∀ (fuel' : Nat) (base : SurveyEnv F G) (args : SurveyArgs F), SameOutcome
          (drawSurvey (K.env R fuel' base code1 y) (K.synth at1 sel1 y) args s)
          (drawSurvey (K.env R fuel' base code2 y') (K.synth at2 sel2 y') args s') := by
  obtain ⟨d, y', d', h1, h2, h3⟩ := C41_roundtrip_partial R C rank fuel y hy hf
  exact ⟨d, y', d', h1, h2, fun at2 sel2 code2 s' m' hr fuel' base args =>
    C68_configured hy h3 hK hsec m m' hr fuel' base args⟩

/-! ### Writing again what was rebuilt -/

theorem entryOf_same {c c' : CSampler F} (h : SameSampler R c c') (t : String) :
    entryOf c' t = entryOf c t := by
  obtain ⟨-, -, -, h4, h5, h6, h7⟩ := h
  have e : (c'.secs.map fun p => PVal.str p.1) = c.secs.map fun p => (PVal.str p.1 : PVal F) := by
    rw [h7, List.map_map]
    rfl
  unfold entryOf selDict pvTruth
  rw [h4, h5, e, h6.1, h6.2.1]

theorem foldlM_map_mem {α β γ : Type} {f : γ → β → Except Err γ} {f' : γ → α → Except Err γ}
    (g : α → β) (l : List α) (h : ∀ x ∈ l, ∀ b, f b (g x) = f' b x) (b : γ) :
    (l.map g).foldlM f b = l.foldlM f' b := by
  induction l generalizing b with
  | nil => rfl
  | cons x l ih =>
    rw [List.map_cons, List.foldlM_cons, List.foldlM_cons, h x (List.mem_cons_self ..)]
    congr 1
    funext b
    exact ih (fun x hx b => h x (List.mem_cons_of_mem _ hx) b) b

theorem secObjects_same (hy : Config R rank y) (hs : SameConfig R y y') :
    ∀ (k : Nat) (i : String) (c : CSampler F) (d : Dict (PVal F)), Used y i →
      Dict.get? y.objs i = some c → secObjects y'.objs k c.name d = secObjects y.objs k i d
  | 0, _, _, _, _, _ => rfl
  | k + 1, i, c, d, hi, hc => by
    obtain ⟨c', k1, k2, -⟩ := hs.sampler i c hi hc
    have k2' := k2
    obtain ⟨l1, l2, -, -, -, -, l7⟩ := k2
    unfold secObjects
    rw [k1, hc]
    simp only
    rw [l7, foldlM_map_mem (f' := fun d p => secObjects y.objs k p.2 d) (fun p => (p.1, p.1)) c.secs,
      l2, l1, entryOf_same k2']
    intro p hp b
    have hj : Used y p.2 := .sec hi hc hp
    obtain ⟨cj, hcj, -⟩ := hy.sampler p.2 hj
    simp only
    rw [hy.secKey i c p.1 p.2 cj hi hc hp hcj]
    exact secObjects_same hy hs k p.2 cj b hj hcj

theorem addEntry_same (hy : Config R rank y) (hs : SameConfig R y y') (fuel : Nat)
    {i : String} {c : CSampler F} (hi : Used y i) (hc : Dict.get? y.objs i = some c)
    (d : Dict (PVal F)) (key type : CSampler F → String)
    (hk : ∀ a b, SameSampler R a b → key b = key a ∧ type b = type a) :
    addEntry fuel y'.objs d c.name key type = addEntry fuel y.objs d i key type := by
  obtain ⟨c', k1, k2, -⟩ := hs.sampler i c hi hc
  unfold addEntry
  rw [k1, hc]
  simp only
  rw [(hk _ _ k2).1, (hk _ _ k2).2, entryOf_same k2, secObjects_same hy hs fuel i c _ hi hc]
  obtain ⟨-, -, -, -, -, -, l7⟩ := k2
  rw [l7, List.isEmpty_map]

/-- **C68**, writing again: `to_dict` of a synth configured the same writes the same dictionary,
key by key and in the same order; so dictionary, rebuilt synth, dictionary is stable. -/
theorem C68_same_dict (hy : Config R rank y) (hs : SameConfig R y y') (fuel : Nat) :
    toDict R fuel y' = toDict R fuel y := by
  have haux : auxDict fuel y' = auxDict fuel y := by
    unfold auxDict
    rw [hs.aux, foldlM_map_mem
      (f' := fun d p => addEntry fuel y.objs d p.2 (fun _ => p.1) (·.cls)) (fun p => (p.1, p.1)) y.aux]
    · rw [hs.derived]
      cases e : y.derived with
      | none => rfl
      | some i =>
        have hi : Used y i := .root (.inr e)
        obtain ⟨c, hc, -⟩ := hy.sampler i hi
        simp only [Option.map_some]
        congr 1
        funext d
        rw [nameAt_of_get? hc]
        exact addEntry_same hy hs fuel hi hc d _ _ fun a b h => ⟨h.2.1, h.2.1⟩
    · intro p hp b
      have hi : Used y p.2 := .root (.inl ⟨p.1, hp⟩)
      obtain ⟨c, hc, -⟩ := hy.sampler p.2 hi
      have e := hy.auxKey p.1 p.2 c hp hc
      simp only
      have := addEntry_same hy hs fuel hi hc b (fun _ => p.1) (·.cls) fun a b h => ⟨rfl, h.1⟩
      rw [← e] at this
      exact this
  have hsel : ∀ {a b : Option (CSel F)}, Opt (SameSel R) a b → b.map selDict = a.map selDict := by
    intro a b h
    cases a <;> cases b <;> first | exact h.elim | skip
    · rfl
    · simp only [Option.map_some, Option.some.injEq]
      unfold selDict pvTruth
      rw [h.1, h.2.1]
  have hdist : ∀ {a b : CDist F}, SameDist a b → distDict b = distDict a := by
    intro a b h
    unfold distDict pvTruth
    rw [h.1, h.2.1]
  have hlum : (y'.lum.map fun c => PVal.dict (distDict c)) =
      y.lum.map fun c => PVal.dict (distDict c) := by
    have := hs.lum
    cases e : y.lum <;> cases e' : y'.lum <;> rw [e, e'] at this
    · exact this.elim
    · exact this.elim
    · simp only [Option.map_some, hdist this]
  have hsp : spatialDict R y'.spatial = spatialDict R y.spatial := by
    unfold spatialDict
    rw [hdist hs.spatial, hs.spatial.1, hs.spatial.2.2]
  unfold toDict
  rw [haux, hs.seed, hsp, hlum, hsel hs.flux, hsel hs.dist, hsel hs.spat]

/-! ### The two descriptions of `to_dict` agree -/

/-- Assigning values to a new object records them, and flags are Booleans. -/
structure Faithful (K : Classes F G) (y : CSynth F) : Prop where
  assigned : ∀ n l, truthOf (K.assigned n l) = l
  observed : ∀ i c, Used y i → Dict.get? y.objs i = some c → PVal.bool (K.truthy c.observed) = c.observed

theorem selDict_at (hk : Faithful K y) (h : Heap F G) (q : Nat) (c : CSel F)
    (e : h.selectors q = K.selector c) : selDict (selAt h q) = selDict c := by
  unfold selDict selAt pvTruth
  rw [e]
  simp only [Classes.selector, hk.assigned]

theorem entryAt_eq (hk : Faithful K y) (m : InMemory K y at1 sel1 code1 s) {i : String}
    {c : CSampler F} (hi : Used y i) (hc : Dict.get? y.objs i = some c) (t : String) :
    entryAt s.heap (at1 i) t = entryOf c t := by
  unfold entryAt entryOf
  dsimp only
  rw [m.smp i c hi hc]
  simp only [Classes.sampler]
  rw [selDict_at hk s.heap _ c.sel (m.own i c hi hc), hk.observed i c hi hc]
  unfold pvTruth
  rw [hk.assigned, List.map_map, List.map_map]
  rfl

theorem secObjectsAt_eq (hy : Config R rank y) (hk : Faithful K y)
    (m : InMemory K y at1 sel1 code1 s) :
    ∀ (k : Nat) (i : String) (c : CSampler F) (d : Dict (PVal F)), Used y i →
      Dict.get? y.objs i = some c → secObjectsAt s.heap k (at1 i) d = secObjects y.objs k i d
  | 0, _, _, _, _, _ => rfl
  | k + 1, i, c, d, hi, hc => by
    unfold secObjectsAt secObjects
    rw [entryAt_eq hk m hi hc, m.smp i c hi hc, hc]
    have ef : (c.secs.map fun p => (p.1, at1 p.2)).foldlM
        (fun d p => secObjectsAt s.heap k p.2 d) d =
        c.secs.foldlM (fun d p => secObjects y.objs k p.2 d) d := by
      refine foldlM_map_mem _ c.secs (fun p hp b => ?_) d
      have hj : Used y p.2 := .sec hi hc hp
      obtain ⟨cj, hcj, -⟩ := hy.sampler p.2 hj
      exact secObjectsAt_eq hy hk m k p.2 cj b hj hcj
    by_cases hne : (!c.secs.isEmpty) = true
    · rw [if_pos (show (K.sampler at1 (sel1 (.of i)) c).hasSecondary = true from hne)]
      simp only [Classes.sampler]
      rw [ef]
    · rw [if_neg (show ¬ (K.sampler at1 (sel1 (.of i)) c).hasSecondary = true from hne)]
      have : c.secs = [] := by simpa using hne
      simp only [this]
      rfl

/-- **C68**, `to_dict` in memory: read off new objects in memory, `to_dict` writes the dictionary
of the configuration they were made from. -/
theorem C68_dict_in_memory (hy : Config R rank y) (hk : Faithful K y)
    (m : InMemory K y at1 sel1 code1 s) (fuel : Nat) (base : SurveyEnv F G) :
    (K.env R fuel base code1 y).toDict (K.synth at1 sel1 y) s = (toDict R fuel y).map .dict := by
  have hadd : ∀ {i c}, Used y i → Dict.get? y.objs i = some c → ∀ d k t,
      addEntryAt fuel s.heap d (at1 i) (k c) (t c) = addEntry fuel y.objs d i k t := by
    intro i c hi hc d k t
    unfold addEntryAt addEntry
    rw [hc]
    dsimp only
    rw [entryAt_eq hk m hi hc, secObjectsAt_eq hy hk m fuel i c _ hi hc, m.smp i c hi hc]
    by_cases hne : (!c.secs.isEmpty) = true
    · rw [if_pos (show (K.sampler at1 (sel1 (.of i)) c).hasSecondary = true from hne),
        if_neg (by simpa using hne)]
    · rw [if_neg (show ¬ (K.sampler at1 (sel1 (.of i)) c).hasSecondary = true from hne),
        if_pos (by simpa using hne)]
  have haux : auxDictAt fuel s.heap (K.synth at1 sel1 y) = auxDict fuel y := by
    unfold auxDictAt auxDict
    simp only [Classes.synth]
    rw [foldlM_map_mem
      (f' := fun d p => addEntry fuel y.objs d p.2 (fun _ => p.1) (·.cls)) _ y.aux]
    · cases e : y.derived with
      | none => rfl
      | some i =>
        have hi : Used y i := .root (.inr e)
        obtain ⟨c, hc, -⟩ := hy.sampler i hi
        simp only [Option.map_some]
        congr 1
        funext d
        have := hadd hi hc d (·.name) (·.name)
        rw [← this, m.smp i c hi hc]
        rfl
    · intro p hp b
      have hi : Used y p.2 := .root (.inl ⟨p.1, hp⟩)
      obtain ⟨c, hc, -⟩ := hy.sampler p.2 hi
      have := hadd hi hc b (fun _ => p.1) (·.cls)
      simp only at this ⊢
      rw [← this, m.smp p.2 c hi hc]
      rfl
  show heapDict R _ _ fuel _ s = _
  unfold heapDict toDict
  rw [haux]
  cases auxDict fuel y with
  | error e => rfl
  | ok aux =>
    have h1 : (if (K.synth at1 sel1 y).fluxSelSet = true then
        some (selDict (selAt s.heap (K.synth at1 sel1 y).fluxSel)) else none) =
        y.fluxSel.map selDict := by
      by_cases hsome : y.fluxSel.isSome = true
      · obtain ⟨q, e⟩ := isSome_elim hsome
        have := m.flux
        rw [e] at this
        rw [if_pos (show (K.synth at1 sel1 y).fluxSelSet = true from hsome), e]
        exact congrArg some (selDict_at hk s.heap _ q this)
      · rw [if_neg (show ¬ (K.synth at1 sel1 y).fluxSelSet = true from hsome),
          Option.not_isSome_iff_eq_none.1 hsome]
        rfl
    have h2 : (if (K.synth at1 sel1 y).distSelSet = true then
        some (selDict (selAt s.heap (K.synth at1 sel1 y).distSel)) else none) =
        y.distSel.map selDict := by
      by_cases hsome : y.distSel.isSome = true
      · obtain ⟨q, e⟩ := isSome_elim hsome
        have := m.dist
        rw [e] at this
        rw [if_pos (show (K.synth at1 sel1 y).distSelSet = true from hsome), e]
        exact congrArg some (selDict_at hk s.heap _ q this)
      · rw [if_neg (show ¬ (K.synth at1 sel1 y).distSelSet = true from hsome),
          Option.not_isSome_iff_eq_none.1 hsome]
        rfl
    have h3 : ((K.synth at1 sel1 y).spatSel.map fun q => selDict (selAt s.heap q)) =
        y.spatSel.map selDict := by
      simp only [Classes.synth]
      cases e : y.spatSel with
      | none => rfl
      | some q =>
        simp only [Option.map_some, Option.some.injEq]
        exact selDict_at hk s.heap _ q (m.spat q e)
    have h4 : ((K.synth at1 sel1 y).lumName.map fun _ => PVal.dict (distDict
        { cls := (y.lum.map (·.cls)).getD "", obj := s.lum.params })) =
        y.lum.map fun c => PVal.dict (distDict c) := by
      rw [m.lum]
      simp only [Classes.synth]
      cases e : y.lum with
      | none => rfl
      | some l =>
        simp only [Option.map_some, Option.some.injEq, Option.getD_some]
        unfold distDict pvTruth
        rw [hk.assigned]
    have h5 : spatialDict R { cls := y.spatial.cls, obj := s.sp.params, isRate := y.spatial.isRate } =
        spatialDict R y.spatial := by
      rw [m.sp]
      unfold spatialDict distDict pvTruth
      simp only [hk.assigned]
    simp only [h1, h2, h3, h4, h5]
    rfl

end same

end Popsynth
