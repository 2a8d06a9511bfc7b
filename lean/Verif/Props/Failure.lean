import Verif.Props.Sampler
import Verif.Props.SurveyExample
import Verif.Props.SurveyState

/-!
# C65: what a draw leaves behind, whether it returns or raises

`draw` marks a sampler as sampled before its selection is drawn
(auxiliary_sampler.py:393-397), and `draw_survey` never resets samplers.  So what is left
after an exception decides what the next call does.
-/

set_option autoImplicit false
set_option linter.unusedSectionVars false

namespace Popsynth
open Spec

variable {F G : Type}

/-- What every draw of `n` objects does at most: samplers change at most in their values,
mark, parameters, probability, position and luminosity (`ident` is all the rest: names,
dependencies, flags, selector), those that were marked as sampled stay so and keep their
values, and those that are newly marked are among `S` and hold `n` true and `n` observed
values. -/
structure Spec.Kept (n : Nat) (S : Nat → Prop) (h h' : Heap F G) : Prop where
  ident : ∀ j, (h'.samplers j).ident = (h.samplers j).ident
  marked : ∀ j, (h.samplers j).isSampled = true → (h'.samplers j).isSampled = true ∧
    (h'.samplers j).trueVals = (h.samplers j).trueVals ∧
    (h'.samplers j).obsVals = (h.samplers j).obsVals
  fresh : ∀ j, (h.samplers j).isSampled = false → (h'.samplers j).isSampled = true → S j ∧
    ∃ t o, (h'.samplers j).trueVals = some t ∧ (h'.samplers j).obsVals = some o ∧
      t.length = n ∧ o.length = n

theorem Spec.Kept.refl (n : Nat) (S : Nat → Prop) (h : Heap F G) : Kept n S h h :=
  ⟨fun _ => rfl, fun _ hs => ⟨hs, rfl, rfl⟩, fun j h1 h2 => by rw [h1] at h2; cases h2⟩

theorem Spec.Kept.of_fields {n : Nat} {S : Nat → Prop} {h h' : Heap F G}
    (e : ∀ j, (h'.samplers j).ident = (h.samplers j).ident ∧
      (h'.samplers j).isSampled = (h.samplers j).isSampled ∧
      (h'.samplers j).trueVals = (h.samplers j).trueVals ∧
      (h'.samplers j).obsVals = (h.samplers j).obsVals) : Kept n S h h' :=
  ⟨fun j => (e j).1, fun j hs => ⟨(e j).2.1.trans hs, (e j).2.2⟩,
    fun j h1 h2 => by rw [(e j).2.1, h1] at h2; cases h2⟩

theorem Spec.Kept.of_eq {n : Nat} {S : Nat → Prop} {h h' : Heap F G}
    (e : h'.samplers = h.samplers) : Kept n S h h' :=
  Kept.of_fields fun j => by rw [e]; exact ⟨rfl, rfl, rfl, rfl⟩

theorem Spec.Kept.trans {n : Nat} {S : Nat → Prop} {a b c : Heap F G} (h1 : Kept n S a b)
    (h2 : Kept n S b c) : Kept n S a c := by
  refine ⟨fun j => (h2.ident j).trans (h1.ident j), ?_, ?_⟩
  · intro j hs
    obtain ⟨x1, x2, x3⟩ := h1.marked j hs
    obtain ⟨y1, y2, y3⟩ := h2.marked j x1
    exact ⟨y1, y2.trans x2, y3.trans x3⟩
  · intro j ha hc
    cases hb : (b.samplers j).isSampled with
    | false => exact h2.fresh j hb hc
    | true =>
      obtain ⟨hS, t, o, e1, e2, l1, l2⟩ := h1.fresh j ha hb
      obtain ⟨-, y2, y3⟩ := h2.marked j hb
      exact ⟨hS, t, o, y2.trans e1, y3.trans e2, l1, l2⟩

theorem Spec.Kept.mono {n : Nat} {S S' : Nat → Prop} {a b : Heap F G} (h : Kept n S a b)
    (hS : ∀ j, S j → S' j) : Kept n S' a b :=
  ⟨h.ident, h.marked, fun j h1 h2 => ⟨hS j (h.fresh j h1 h2).1, (h.fresh j h1 h2).2⟩⟩

theorem Spec.Kept.children {n : Nat} {S : Nat → Prop} {h h' : Heap F G} (k : Kept n S h h') :
    h'.children = h.children := by
  funext j; simp only [Heap.children, ident_secondaries (k.ident j)]

section
variable [LE F] [DecidableLE F] [OfNat F 0] [OfNat F 1]

/-- If sampler `i` is not marked, then finishing its draw marks it, if at all, only with `n`
values. -/
theorem finishDraw_marked (w : World F G) (i n : Nat) (h : Heap F G)
    (hs : (h.samplers i).isSampled = false) :
    ((endState (finishDraw w i n h)).samplers i).isSampled = true →
      lenIs ((endState (finishDraw w i n h)).samplers i).trueVals n = true ∧
      lenIs ((endState (finishDraw w i n h)).samplers i).obsVals n = true := by
  let U := fun t : Heap F G => (t.samplers i).isSampled = false
  let Q := fun t : Heap F G => (t.samplers i).isSampled = true →
    lenIs (t.samplers i).trueVals n = true ∧ lenIs (t.samplers i).obsVals n = true
  have hU : ∀ t, U t → Q t := fun t hu hq => by simp only [U] at hu; rw [hu] at hq; cases hq
  have run : ∀ (c : SView F → Nat → G → SOut F G) (t : Heap F G), U t →
      U (endState (runCode c i n t)) := by
    intro c t hu
    unfold runCode
    simp only
    split <;> simpa [U, endState] using hu
  show Q (endState (finishDraw w i n h))
  unfold finishDraw
  -- keep `U` until the mark is set
  have step : ∀ {α β : Type} (m : Py (Heap F G) α) (f : α → Py (Heap F G) β) (s : Heap F G),
      U (endState (m s)) → (∀ a t, m s = .ok a t → U t → Q (endState (f a t))) →
      Q (endState ((m >>= f) s)) := by
    intro α β m f s h1 h2
    rw [bind_apply]
    cases hm : m s with
    | ok a t => rw [hm] at h1; exact h2 a t hm h1
    | error e t => rw [hm] at h1; exact hU _ h1
  refine step _ _ _ hs fun _ h1 _ u1 => ?_
  refine step _ _ _ (run _ _ u1) fun _ h2 _ u2 => ?_
  refine step _ _ _ ?_ fun _ h3 _ u3 => ?_
  · unfold observe
    split
    · exact run _ _ u2
    · simpa [U, endState] using u2
  refine step _ _ _ u3 fun _ h4 e4 u4 => ?_
  refine step _ _ _ u4 fun h5 h6 e5 u5 => ?_
  cases e5
  refine step _ _ _ ?_ fun _ h7 e7 u7 => ?_
  · unfold pyAssert; split <;> exact u5
  obtain ⟨a1, rfl⟩ := (pyAssert_ok_iff _ _ _ _).1 e7
  refine step _ _ _ ?_ fun _ h8 e8 u8 => ?_
  · unfold pyAssert; split <;> exact u5
  obtain ⟨a2, rfl⟩ := (pyAssert_ok_iff _ _ _ _).1 e8
  have q9 : Q (h4.modSampler i fun s => { s with isSampled := true }) := by
    intro _
    simpa using ⟨a1, a2⟩
  apply bind_inv (P := Q)
  · exact q9
  intro _ h9 e9 _
  cases e9
  apply bind_inv (P := Q)
  · unfold drawSelector withSelector
    split <;> exact q9
  intro _ h10 _ q10
  apply bind_inv (P := Q)
  · exact q10
  intro h11 h12 e12 q11
  cases e12
  apply bind_inv (P := Q)
  · cases (w.code i).prob (h10.view i) <;> exact q11
  intro p h13 _ q13
  intro hq
  simp only [modify_apply, endState, modSampler_same] at hq ⊢
  exact q13 hq

/-- A loop over the secondaries of `i` that returns has not marked `i`. -/
theorem secondaries_unmarked (w : World F G) (k i n : Nat) (ch : Nat → List Nat) :
    ∀ (todo : Dict Nat) (ha hb : Heap F G), ha.children = ch → (∀ p ∈ todo, p.2 ∈ ch i) →
      ha.sampled i = false →
      forEach todo (fun p => do
        prepSecondary i p.2
        samplerDraw w k p.2 n) ha = .ok () hb → hb.sampled i = false := by
  intro todo
  induction todo with
  | nil => intro ha hb _ _ hu e; simp at e; subst e; exact hu
  | cons p todo ih =>
    intro ha hb hch hc hu e
    rw [forEach_cons, bind_ok_iff] at e
    obtain ⟨_, hc', ec, hrest⟩ := e
    rw [bind_ok_iff] at ec
    obtain ⟨_, hm, em, ed⟩ := ec
    obtain ⟨peff, -, -, -⟩ := prepSecondary_eff (w := w) (n := n) em
    have hchm : hm.children = ch := peff.children_eq.trans hch
    have hum : hm.sampled i = false := by
      have := peff.marks i
      simp only [List.map_nil, List.not_mem_nil, or_false] at this
      exact (Bool.eq_iff_iff.2 this).trans hu
    have fr := samplerDraw_fr w n k p.2 hm
    rw [ed] at fr
    simp only [endState] at fr
    refine ih hc' hb (fr.children.trans hchm) (fun q hq => hc q (by simp [hq])) ?_ hrest
    cases hx : hc'.sampled i with
    | false => rfl
    | true =>
      rcases fr.newly i hx with h' | h'
      · rw [hum] at h'; cases h'
      · rw [hchm] at h'
        refine absurd ed (samplerDraw_cycle w n k p.2 hm hc' ?_)
        rw [hchm]
        exact ⟨i, p.2, h', hc p (by simp), h'⟩

theorem samplerDraw_kept (w : World F G) (n : Nat) :
    ∀ (k i : Nat) (h : Heap F G), Kept n (fun _ => True) h (endState (samplerDraw w k i n h)) := by
  intro k
  induction k with
  | zero => intro i h; exact Kept.refl n _ h
  | succ k ih =>
    intro i h
    rw [samplerDraw, bind_apply, get_apply]
    simp only
    cases hs : (h.samplers i).isSampled with
    | true => simp only [if_true]; exact Kept.refl n _ h
    | false =>
      simp only [Bool.false_eq_true, if_false]
      apply bind_inv (P := fun t => Kept n (fun _ => True) h t)
      · exact Kept.of_eq (giveSelector_samplers i h)
      intro _ h1 e1 k1
      have hs1 : h1.samplers = h.samplers := by
        have := giveSelector_samplers i h
        rw [e1] at this; exact this
      apply bind_inv (P := fun t => Kept n (fun _ => True) h t)
      · apply forEach_inv (P := fun t => Kept n (fun _ => True) h t) k1
        intro p _ t kt
        apply bind_inv (P := fun t => Kept n (fun _ => True) h t)
        · refine kt.trans (Kept.of_fields fun j => ?_)
          unfold prepSecondary
          split
          · split
            · exact ⟨rfl, rfl, rfl, rfl⟩
            · simp only [setSpatialValues, modify_apply, endState, modSampler_samplers]
              split <;> exact ⟨rfl, rfl, rfl, rfl⟩
          · exact ⟨rfl, rfl, rfl, rfl⟩
        · intro _ t2 _ kt2
          exact kt2.trans (ih p.2 t2)
      intro _ h2 e2 k2
      have hu : h2.sampled i = false :=
        secondaries_unmarked w k i n h1.children _ h1 h2 rfl
          (fun p hp => by
            simp only [Heap.children, hs1]; exact List.mem_map.2 ⟨p, hp, rfl⟩)
          (by simp only [Heap.sampled, hs1]; exact hs) e2
      refine k2.trans ?_
      have o := finishDraw_only w i n h2
      have hm := finishDraw_marked w i n h2 hu
      refine ⟨?_, ?_, ?_⟩
      · intro j
        by_cases hj : j = i
        · subst hj; exact ident_of_static o.2.1
        · rw [o.1 j hj]
      · intro j hjs
        have hj : j ≠ i := by
          rintro rfl
          simp only [Heap.sampled] at hu
          rw [hu] at hjs; cases hjs
        rw [o.1 j hj]
        exact ⟨hjs, rfl, rfl⟩
      · intro j hju hjs
        by_cases hj : j = i
        · subst hj
          obtain ⟨a, b⟩ := hm hjs
          unfold lenIs at a b
          split at a
          · cases a
          · split at b
            · cases b
            · next t ht _ o ho => exact ⟨trivial, t, o, ht, ho, by simpa using a, by simpa using b⟩
        · rw [o.1 j hj, hju] at hjs; cases hjs

/-- **C65 (one draw).** Whatever happens during a draw – it returns, it raises, on any graph,
even with cycles – samplers that were sampled before keep their values and their mark, and a
sampler is only newly marked if it is a dependency, and together with `n` true and `n`
observed values. -/
theorem C65_draw (w : World F G) (fuel i n : Nat) (h : Heap F G) :
    Kept n (Reach h.children i) h (endState (samplerDraw w fuel i n h)) := by
  have k := samplerDraw_kept w n fuel i h
  refine ⟨k.ident, k.marked, fun j h1 h2 => ⟨?_, (k.fresh j h1 h2).2⟩⟩
  rcases (samplerDraw_fr w n fuel i h).newly j h2 with h' | h'
  · simp only [Heap.sampled] at h'; rw [h1] at h'; cases h'
  · exact h'.reach

/-- **C65 (retrying).** After any history of draws of `n` objects, some of which may have
raised, a draw that returns leaves every dependency with `n` true and `n` observed values;
and what was drawn by a failed attempt is still the same. -/
theorem C65_retry (w : World F G) (fuel n i : Nat) (ops : List Nat) (h h' : Heap F G)
    (hac : Acyclic h.children i) (hnew : ∀ j, h.sampled j = false)
    (hk : samplerDraw w fuel i n
      (ops.foldl (fun h o => endState (samplerDraw w fuel o n h)) h) = .ok () h') :
    (∀ j, Reach h.children i j → ∃ t o, (h'.samplers j).trueVals = some t ∧
      (h'.samplers j).obsVals = some o ∧ t.length = n ∧ o.length = n) ∧
    ∀ k j, k ≤ ops.length →
      ((((ops.take k).foldl (fun h o => endState (samplerDraw w fuel o n h)) h).samplers j).isSampled
        = true →
      (h'.samplers j).trueVals =
        (((ops.take k).foldl (fun h o => endState (samplerDraw w fuel o n h)) h).samplers j).trueVals ∧
      (h'.samplers j).obsVals =
        (((ops.take k).foldl (fun h o => endState (samplerDraw w fuel o n h)) h).samplers j).obsVals) := by
  have hist : ∀ (ops : List Nat) (h : Heap F G),
      Kept n (fun _ => True) h (ops.foldl (fun h o => endState (samplerDraw w fuel o n h)) h) := by
    intro ops
    induction ops with
    | nil => exact Kept.refl n _
    | cons o ops ih => exact fun h => (samplerDraw_kept w n fuel o h).trans (ih _)
  have hd := C12_draws_keep_dependencies_sampled w fuel (ops.map fun o => (o, n)) h
    (fun j hj => by rw [hnew] at hj; cases hj)
  rw [List.foldl_map] at hd
  have k1 := hist ops h
  have hch := k1.children
  constructor
  · intro j hj
    refine C12_all_hold_n w fuel i n _ h' (by rw [hch]; exact hac) hd ?_ hk j (by rw [hch]; exact hj)
    intro m _ hm
    exact (k1.fresh m (hnew m) hm).2
  · intro k j _ hj
    have k2 := hist (ops.drop k) ((ops.take k).foldl
      (fun h o => endState (samplerDraw w fuel o n h)) h)
    rw [← List.foldl_append, List.take_append_drop] at k2
    have k3 := samplerDraw_kept w n fuel i (ops.foldl (fun h o => endState (samplerDraw w fuel o n h)) h)
    rw [hk] at k3
    exact ((k2.trans k3).marked j hj).2

/-! ### Surveys -/

/-- A part of `draw_survey` that leaves the samplers alone. -/
def NoSamplers {α : Type} (m : Py (SurvSt F G) α) : Prop :=
  Keeps (fun s t : SurvSt F G => t.heap.samplers = s.heap.samplers) m

theorem noSamplers_bind {α β : Type} {m : Py (SurvSt F G) α} {f : α → Py (SurvSt F G) β}
    (h1 : NoSamplers m) (h2 : ∀ a, NoSamplers (f a)) : NoSamplers (m >>= f) :=
  Keeps.bind' (fun _ _ _ a b => b.trans a) h1 h2

theorem noSamplers_onSpatial {α : Type} (m : Py (SpSt F G) α) :
    NoSamplers (F := F) (G := G) (onSpatial m) := by
  intro s
  unfold onSpatial
  split <;> rfl

theorem noSamplers_onLum {α : Type} (m : Py (LumSt F G) α) :
    NoSamplers (F := F) (G := G) (onLum m) := by
  intro s
  unfold onLum
  split <;> rfl

theorem noSamplers_onRng {α : Type} (f : G → Except Err α × G) :
    NoSamplers (F := F) (G := G) (onRng f) := by
  intro s
  unfold onRng
  split <;> rfl

theorem noSamplers_onGraph {α : Type} (m : Py Graph α) :
    NoSamplers (F := F) (G := G) (onGraph m) := by
  intro s
  unfold onGraph
  split <;> rfl

theorem noSamplers_liftE {α : Type} (x : Except Err α) :
    NoSamplers (F := F) (G := G) (liftE x) := by
  intro s
  cases x <;> rfl

theorem NoSamplers.of_ok {α : Type} {m : Py (SurvSt F G) α} (h : NoSamplers m) {s t : SurvSt F G}
    {a : α} (e : m s = .ok a t) : t.heap.samplers = s.heap.samplers := by
  have := h s
  rwa [e] at this

theorem noSamplers_pure {α : Type} (a : α) :
    NoSamplers (F := F) (G := G) (pure a) := fun _ => rfl

theorem noSamplers_raise {α : Type} (e : Err) :
    NoSamplers (F := F) (G := G) (raise e : Py (SurvSt F G) α) := fun _ => rfl

theorem noSamplers_get : NoSamplers (F := F) (G := G) get := fun _ => rfl

theorem noSamplers_assert (b : Bool) : NoSamplers (F := F) (G := G) (pyAssert b) := by
  intro s; unfold pyAssert; split <;> rfl

theorem noSamplers_selectOn (e : SurveyEnv F G) (q n : Nat) :
    NoSamplers (F := F) (G := G) (selectOn e q n) := by
  intro s
  unfold selectOn onHeap withSelector
  split
  · next h => split at h <;> cases h; rfl
  · next h => split at h <;> cases h; rfl

theorem noSamplers_foldPy {α β : Type} {f : β → α → Py (SurvSt F G) β}
    (h : ∀ b a, NoSamplers (f b a)) : ∀ (xs : List α) (b : β), NoSamplers (foldPy xs b f)
  | [], _ => noSamplers_pure _
  | _ :: xs, _ => noSamplers_bind (h _ _) fun b => noSamplers_foldPy h xs b

theorem noSamplers_observeFlux (e : SurveyEnv F G) (y : Synth F) (n : Nat) (sigma : Option F)
    (log10 : Bool) (fluxes : List F) : NoSamplers (observeFlux e y n sigma log10 fluxes) := by
  have noisy : ∀ s fwd bwd, NoSamplers (noisyFlux e n s fwd bwd fluxes) := by
    intro s fwd bwd
    unfold noisyFlux
    have hj : NoSamplers (F := F) (G := G) (do
        let xs ← onRng fun g => let r := normalMany e s n g; (.ok r.1, r.2)
        let l ← liftE (bcast e.add (fluxes.map fwd) xs)
        pyAssert (l.all e.isFinite)
        pure (l.map bwd)) := by
      refine noSamplers_bind (noSamplers_onRng _) fun _ => ?_
      refine noSamplers_bind (noSamplers_liftE _) fun _ => ?_
      exact noSamplers_bind (noSamplers_assert _) fun _ => noSamplers_pure _
    simp only
    split
    · exact noSamplers_bind (noSamplers_raise _) fun _ => hj
    · exact hj
  unfold observeFlux
  refine noSamplers_bind noSamplers_get fun s => ?_
  split
  · split
    · simp only
      split
      · exact noSamplers_bind (noisy _ _ _) fun _ => noSamplers_pure _
      · exact noSamplers_bind (noisy _ _ _) fun _ => noSamplers_pure _
    · exact noSamplers_pure _
  · exact noSamplers_pure _

theorem noSamplers_applySelections (e : SurveyEnv F G) (y : Synth F) (n : Nat) (v : Spatial F)
    (fluxObs : List F) (loc : Loc F) : NoSamplers (applySelections e y n v fluxObs loc) := by
  unfold applySelections
  refine noSamplers_bind (fun s => rfl) fun _ => ?_
  refine noSamplers_bind (noSamplers_selectOn _ _ _) fun _ => ?_
  refine noSamplers_bind (noSamplers_foldPy ?_ _ _) fun r => ?_
  · intro b a
    unfold applyAux
    refine noSamplers_bind noSamplers_get fun s => ?_
    simp only
    split
    · exact noSamplers_pure _
    · refine noSamplers_bind (noSamplers_liftE _) fun _ => ?_
      exact noSamplers_bind (noSamplers_liftE _) fun _ => noSamplers_pure _
  refine noSamplers_bind (noSamplers_liftE _) fun _ => ?_
  refine noSamplers_bind noSamplers_get fun s => ?_
  refine noSamplers_bind (noSamplers_liftE _) fun _ => ?_
  refine noSamplers_bind ?_ fun _ => noSamplers_pure _
  unfold applySpatial
  split
  · exact noSamplers_pure _
  · refine noSamplers_bind noSamplers_get fun s => ?_
    split
    · refine noSamplers_bind (fun s => rfl) fun _ => ?_
      refine noSamplers_bind (noSamplers_selectOn _ _ _) fun _ => ?_
      exact noSamplers_bind noSamplers_get fun s => noSamplers_liftE _
    · exact noSamplers_raise _

theorem noSamplers_buildPopulation (e : SurveyEnv F G) (y : Synth F) (d : Drawn F G) :
    NoSamplers (buildPopulation e y d) := by
  unfold buildPopulation
  refine noSamplers_bind (noSamplers_liftE _) fun _ => ?_
  refine noSamplers_bind (noSamplers_selectOn _ _ _) fun _ => ?_
  refine noSamplers_bind noSamplers_get fun s => ?_
  refine noSamplers_bind (noSamplers_liftE _) fun _ => ?_
  refine noSamplers_bind (noSamplers_liftE _) fun _ => ?_
  refine noSamplers_bind (noSamplers_liftE _) fun _ => ?_
  refine noSamplers_bind (noSamplers_liftE _) fun _ => ?_
  refine noSamplers_bind (noSamplers_onSpatial _) fun _ => ?_
  refine noSamplers_bind (noSamplers_onGraph _) fun _ => ?_
  refine noSamplers_bind noSamplers_get fun s => ?_
  exact noSamplers_bind (noSamplers_liftE _) fun _ => noSamplers_liftE _

/-- A part of `draw_survey` that treats samplers as draws of `n` objects do, where the
dependencies are `ch` and only samplers of `S` are drawn. -/
def KeepsHeap {α : Type} (n : Nat) (ch : Nat → List Nat) (S : Nat → Prop)
    (m : Py (SurvSt F G) α) : Prop :=
  ∀ s, s.heap.children = ch → Kept n S s.heap (endState (m s)).heap

section keepsHeap
variable {n : Nat} {ch : Nat → List Nat} {S : Nat → Prop} {α β : Type}

theorem NoSamplers.keeps {m : Py (SurvSt F G) α} (h : NoSamplers m) : KeepsHeap n ch S m :=
  fun s _ => Kept.of_eq (h s)

theorem keepsHeap_bind {m : Py (SurvSt F G) α} {f : α → Py (SurvSt F G) β}
    (h1 : KeepsHeap n ch S m) (h2 : ∀ a, KeepsHeap n ch S (f a)) : KeepsHeap n ch S (m >>= f) := by
  intro s hs
  have k := h1 s hs
  rw [bind_apply]
  cases hm : m s with
  | error e t => rw [hm] at k; exact k
  | ok a t => rw [hm] at k; exact k.trans (h2 a t (k.children.trans hs))

theorem keepsHeap_onHeap {m : Py (Heap F G) α}
    (h : ∀ t, t.children = ch → Kept n S t (endState (m t))) :
    KeepsHeap (F := F) (G := G) n ch S (onHeap m) := by
  intro s hs
  have := h s.heap hs
  unfold onHeap
  split
  · next e => rw [e] at this; exact this
  · next e => rw [e] at this; exact this

theorem keepsHeap_foldPy {f : β → α → Py (SurvSt F G) β} : ∀ (xs : List α) (b : β),
    (∀ b, ∀ a ∈ xs, KeepsHeap n ch S (f b a)) → KeepsHeap n ch S (foldPy xs b f)
  | [], _, _ => (noSamplers_pure _).keeps
  | x :: xs, b, h => keepsHeap_bind (h b x (by simp)) fun b =>
      keepsHeap_foldPy xs b fun b a ha => h b a (by simp [ha])

end keepsHeap

theorem kept_setSpatial (n : Nat) (S : Nat → Prop) (i : Nat) (v : Spatial F) (h : Heap F G) :
    Kept n S h (endState (setSpatialValues i v h)) := by
  refine Kept.of_fields fun j => ?_
  simp only [setSpatialValues, modify_apply, endState, modSampler_samplers]
  split <;> exact ⟨rfl, rfl, rfl, rfl⟩

theorem kept_setLuminosity (n : Nat) (S : Nat → Prop) (i : Nat) (l : List F) (h : Heap F G) :
    Kept n S h (endState (setLuminosity i l h)) := by
  refine Kept.of_fields fun j => ?_
  simp only [setLuminosity, modify_apply, endState, modSampler_samplers]
  split <;> exact ⟨rfl, rfl, rfl, rfl⟩

theorem kept_prepareAux (n : Nat) (S : Nat → Prop) (lums : List F) (v : Spatial F) (i : Nat)
    (h : Heap F G) : Kept n S h (endState (prepareAux lums v i h)) := by
  have hb : ∀ {α β : Type} {m : Py (Heap F G) α} {f : α → Py (Heap F G) β},
      Keeps (Kept n S) m → (∀ a, Keeps (Kept n S) (f a)) → Keeps (Kept n S) (m >>= f) :=
    Keeps.bind' fun _ _ _ a b => a.trans b
  have hp : Keeps (Kept n S) (prepareAux (F := F) (G := G) lums v i) := by
    unfold prepareAux
    refine hb (kept_setLuminosity n S i lums) fun _ => ?_
    refine hb (kept_setSpatial n S i v) fun _ => ?_
    refine hb (Keeps.get' (Kept.refl n S)) fun t0 s => ?_
    refine forEach_inv (P := fun t => Kept n S s t) (Kept.refl n S s) ?_
    intro p _ t kt
    refine kt.trans ?_
    refine hb (m := get) (Keeps.get' (Kept.refl n S)) (fun t1 => ?_) t
    have hj : Keeps (Kept (F := F) (G := G) n S)
        (if (t1.samplers p.2).usesDistance = true then setSpatialValues p.2 v else pure ()) := by
      split
      · exact kept_setSpatial n S _ v
      · exact Keeps.pure' (Kept.refl n S) _
    simp only
    split
    · exact hb (kept_setLuminosity n S _ lums) fun _ => hj
    · exact hj
  exact hp h

/-- **C65 (surveys).** Whatever happens during `draw_survey` – it returns or raises at any
point –, there is one number `n` (the number of objects requested, if it was) such that
samplers that were sampled before keep their values and every newly marked sampler is
reachable from an attached one and holds `n` true and `n` observed values. -/
theorem C65_survey (e : SurveyEnv F G) (y : Synth F) (a : SurveyArgs F) (s : SurvSt F G) :
    ∃ n, (∀ k, a.nSamples = some k → n = k) ∧
      Kept n (ReachFrom s.heap y.roots) s.heap (endState (drawSurvey e y a s)).heap := by
  unfold drawSurvey drawAll
  have hcount : NoSamplers (countObjects e a.nSamples a.normalize) := by
    unfold countObjects
    split
    · exact noSamplers_pure _
    · exact noSamplers_bind (noSamplers_onSpatial _) fun _ => noSamplers_onRng _
  have hdraw : ∀ n i, i ∈ y.roots → KeepsHeap (F := F) (G := G) n s.heap.children
      (ReachFrom s.heap y.roots) (onHeap (samplerDraw e.world e.frames i n)) :=
    fun n i hi => keepsHeap_onHeap fun t ht => (C65_draw e.world e.frames i n t).mono
      fun j hj => ⟨i, hi, by rw [← ht]; exact hj⟩
  have hrest : ∀ n (truth : Dict (Dict F)), KeepsHeap n s.heap.children (ReachFrom s.heap y.roots) (do
      let (v, prob) ← drawPositions e n a.normalize
      let (lums, loc) ← drawLuminosities e y n v { truth, auxq := [], prob }
      let fluxes ← liftE (e.spatial.transform lums v.distance)
      let loc ← foldPy y.aux loc (auxStep e n lums v)
      let (fluxObs, sigma) ← observeFlux e y n a.fluxSigma a.log10Draw fluxes
      let (glob, prob) ← applySelections e y n v fluxObs loc
      pure ({ n, pos := v, lums, loc, fluxes, fluxObs, sigma, glob, prob } : Drawn F G)) := by
    intro n truth
    refine keepsHeap_bind (NoSamplers.keeps ?_) fun vp => ?_
    · unfold drawPositions
      refine noSamplers_bind (noSamplers_onSpatial _) fun _ => ?_
      refine noSamplers_bind noSamplers_get fun _ => ?_
      refine noSamplers_bind (noSamplers_liftE _) fun _ => ?_
      refine noSamplers_bind (noSamplers_onSpatial _) fun _ => ?_
      refine noSamplers_bind ?_ fun _ => noSamplers_pure _
      intro s
      unfold spatialValues
      split <;> rfl
    refine keepsHeap_bind ?_ fun ll => ?_
    · unfold drawLuminosities
      split
      · next d hdv =>
        unfold derivedLuminosity
        refine keepsHeap_bind (keepsHeap_onHeap fun t _ => kept_setSpatial n _ _ _ t) fun _ => ?_
        refine keepsHeap_bind (hdraw n d (by simp [Synth.roots, hdv])) fun _ => ?_
        refine NoSamplers.keeps ?_
        refine noSamplers_bind noSamplers_get fun _ => ?_
        refine noSamplers_bind (noSamplers_assert _) fun _ => ?_
        refine noSamplers_bind (noSamplers_assert _) fun _ => ?_
        refine noSamplers_bind (noSamplers_liftE _) fun _ => ?_
        exact noSamplers_bind (noSamplers_liftE _) fun _ => noSamplers_pure _
      · refine NoSamplers.keeps ?_
        unfold distLuminosity
        refine noSamplers_bind (noSamplers_onLum _) fun _ => ?_
        refine noSamplers_bind (noSamplers_onLum _) fun _ => ?_
        refine noSamplers_bind noSamplers_get fun _ => ?_
        exact noSamplers_bind (noSamplers_liftE _) fun _ => noSamplers_pure _
      · exact (noSamplers_raise _).keeps
    refine keepsHeap_bind ((noSamplers_liftE _).keeps) fun _ => ?_
    refine keepsHeap_bind (keepsHeap_foldPy _ _ ?_) fun _ => ?_
    · intro b kv hkv
      unfold auxStep
      refine keepsHeap_bind (noSamplers_get.keeps) fun _ => ?_
      refine keepsHeap_bind ((noSamplers_assert _).keeps) fun _ => ?_
      refine keepsHeap_bind (keepsHeap_onHeap fun t _ => kept_prepareAux n _ _ _ _ t) fun _ => ?_
      refine keepsHeap_bind (hdraw n kv.2 (by
        simp only [Synth.roots, List.mem_append, List.mem_map]
        exact .inr ⟨kv, hkv, rfl⟩)) fun _ => ?_
      refine NoSamplers.keeps ?_
      refine noSamplers_bind noSamplers_get fun _ => ?_
      refine noSamplers_bind (noSamplers_assert _) fun _ => ?_
      refine noSamplers_bind (noSamplers_assert _) fun _ => ?_
      exact noSamplers_bind (noSamplers_liftE _) fun _ => noSamplers_pure _
    refine NoSamplers.keeps ?_
    refine noSamplers_bind (noSamplers_observeFlux _ _ _ _ _ _) fun _ => ?_
    exact noSamplers_bind (noSamplers_applySelections _ _ _ _ _ _) fun _ => noSamplers_pure _
  let Q := fun t : SurvSt F G => ∃ n, (∀ k, a.nSamples = some k → n = k) ∧
    Kept n (ReachFrom s.heap y.roots) s.heap t.heap
  have hQ : ∀ t : SurvSt F G, t.heap.samplers = s.heap.samplers → Q t := by
    intro t ht
    cases hn : a.nSamples with
    | none => exact ⟨0, (by intro k hk; rw [hn] at hk; cases hk), Kept.of_eq ht⟩
    | some k => exact ⟨k, (by intro k' hk; rw [hn] at hk; cases hk; rfl), Kept.of_eq ht⟩
  show Q _
  apply bind_inv (P := Q)
  · rw [bind_apply, get_apply]
    simp only
    apply bind_inv (P := Q)
    · exact hQ _ (noSamplers_onRng _ s)
    intro _ s1 e1 _
    have h1 := (noSamplers_onRng _).of_ok e1
    apply bind_inv (P := Q)
    · exact hQ _ ((hcount s1).trans h1)
    intro n s2 e2 _
    have h2 := (hcount.of_ok e2).trans h1
    refine ⟨n, ?_, Kept.trans (Kept.of_eq h2) (hrest n _ s2 ?_)⟩
    · intro k hk
      simp only [countObjects, hk, pure_apply] at e2
      cases e2; rfl
    · funext j; simp only [Heap.children, h2]
  · rintro d t _ ⟨n, hn, k⟩
    exact ⟨n, hn, k.trans (Kept.of_eq (noSamplers_buildPopulation e y d t))⟩

/-- **C65 (the way out).** A survey raised somewhere; no sampler was drawn before it.  If the
samplers are then reset, a survey that returns afterwards runs every sampler reachable from an
attached one, exactly once: nothing of the failed attempt is reported. -/
theorem C65_reset (e e' : SurveyEnv F G) (y : Synth F) (a b : SurveyArgs F)
    (s s' s2 s3 : SurvSt F G) (frames : Nat) (P : Population F)
    (hw : WellFormed y.roots s.heap) (hnew : ∀ j, s.heap.sampled j = false)
    (hs' : s' = endState (drawSurvey e y a s))
    (hr : resetAll frames y s'.heap = .ok () s2.heap) (hk : drawSurvey e' y b s2 = .ok P s3) :
    ∃ T, s3.heap.trace = s2.heap.trace ++ T ∧ (T.map Prod.fst).Nodup ∧
      ∀ j, j ∈ T.map Prod.fst ↔ ReachFrom s.heap y.roots j := by
  obtain ⟨n, -, k⟩ := C65_survey e y a s
  rw [← hs'] at k
  obtain ⟨r1, r2, -, -⟩ := resetAll_ok hr
  have hid : ∀ j, (s2.heap.samplers j).ident = (s.heap.samplers j).ident := by
    intro j
    refine Eq.trans ?_ (k.ident j)
    rcases r2 j with h | h <;> rw [h]
    rfl
  have hch : s2.heap.children = s.heap.children := by
    funext j; simp only [Heap.children, ident_secondaries (hid j)]
  have hnone : ∀ j, s2.heap.sampled j = false := by
    intro j
    by_cases hj : ReachFrom s.heap y.roots j
    · refine r1 j ?_
      obtain ⟨i, hi, hij⟩ := hj
      exact ⟨i, hi, by rw [k.children]; exact hij⟩
    · cases hx : s2.heap.sampled j with
      | false => rfl
      | true =>
        have hx' : (s'.heap.samplers j).isSampled = true := by
          simp only [Heap.sampled] at hx
          rcases r2 j with h | h
          · rw [← h]; exact hx
          · rw [h] at hx; cases hx
        exact absurd (k.fresh j (hnew j) hx').1 hj
  obtain ⟨r⟩ := drawSurvey_ok hk
  obtain ⟨T, ef⟩ := surveyEff r (hw.of_ident hid) (fun j hj => by rw [hnone j] at hj; cases hj)
  refine ⟨T, ?_, ef.eff.nodup, ?_⟩
  · rw [r.samplers.2]; exact ef.eff.trace
  · intro j
    rw [ef.drawn j, hnone j]
    simp only [and_true]
    unfold ReachFrom
    rw [hch]

/-- **C65 (random numbers of a failed selection).** If the selection of a sampler raises after
it has taken random numbers, then these are lost: the generator is where the selection left
it, and what the selector had stored of its parameters stays stored.  Nothing else changes. -/
theorem C65_selection_raises (w : World F G) (q n : Nat) (h : Heap F G)
    (c : SelData F → Nat → G → Except Err (List Bool) × G) (x : Err) (g : G)
    (hq : (h.selectors q).kind = .custom c) (hc : c (h.selectors q).data n h.rng = (.error x, g)) :
    ∃ h', drawSelector w q n h = .error x h' ∧ h'.rng = g ∧ h'.samplers = h.samplers ∧
      h'.selectors q = h.selectors q ∧ ∀ r, r ≠ q → h'.selectors r = h.selectors r := by
  refine ⟨{ h.modSelector q (fun _ => h.selectors q) with rng := g }, ?_, ?_⟩
  · unfold drawSelector withSelector
    have : selDraw w.sel w.half w.ninety w.showProgress n { sel := h.selectors q, rng := h.rng } =
        .error x { sel := h.selectors q, rng := g } := by
      unfold selDraw
      rw [bind_apply, get_apply]
      simp only [hq, hc, bind_apply, modify_apply]
      rfl
    rw [this]
  · refine ⟨rfl, rfl, by simp [Heap.modSelector], fun r hr => by simp [Heap.modSelector, hr]⟩

end

/-! ### Violations and examples -/

namespace FailureExample
open SurveyExample

/-- Selector 2 has no boundary. -/
def noBoundary : SurvSt Nat Nat :=
  { st with heap := st.heap.modSelector 2 fun q => { q with params := {} } }

/-- What the failed survey leaves. -/
def failed : SurvSt Nat Nat := endState (drawSurvey env synth args noBoundary)

/-- What `failed` is like: three of the four samplers are marked. -/
theorem failed_marks : [0, 1, 2, 3].map (fun j => ((failed.heap.samplers j).isSampled,
    (failed.heap.samplers j).trueVals)) =
    [(false, none), (true, some [92, 92, 92]), (true, some [93, 93, 93]), (true, some [45, 45, 45])] := by
  decide +kernel

theorem failed_eq : endState (drawSurvey env synth args noBoundary) = failed := rfl

attribute [local irreducible] failed

/-- `C65_survey` is not empty: the failed survey marked samplers, with three values. -/
example : ∃ n, Kept n (ReachFrom noBoundary.heap synth.roots) noBoundary.heap failed.heap ∧
    n = 3 := by
  have hm := congrArg (·[3]?) failed_marks
  obtain ⟨n, -, k⟩ := C65_survey env synth args noBoundary
  rw [failed_eq] at k
  generalize failed = s at hm k ⊢
  refine ⟨n, k, ?_⟩
  simp only [List.map_cons, List.map_nil, List.getElem?_cons_succ, List.getElem?_cons_zero,
    Option.some.injEq, Prod.mk.injEq] at hm
  obtain ⟨-, t, o, ht, -, hl, -⟩ := k.fresh 3 rfl hm.1
  rw [hm.2] at ht
  cases ht
  exact hl.symm

/-- Luminosities `Lmin`, `Lmin + 1`, …, a sampler that copies them, and a flux noise that must
be smaller than 5. -/
def copyEnv : SurveyEnv Nat Nat :=
  { env with
    lum := { draw := fun n s =>
               match paramGet {} "Lmin" s.lum.params with
               | .ok x o => .ok ((List.range n).map (· + x)) { s with lum := { s.lum with params := o } }
               | .error e o => .error e { s with lum := { s.lum with params := o } }
             phi := env.lum.phi }
    validScale := fun x => decide (x < 5)
    world := { SamplerExample.w with
      code := fun _ =>
        { trueSampler := fun v _ g =>
            { trueVals := v.luminosity, obsVals := v.obsVals, params := v.params, rng := g }
          obsSampler := fun v _ g =>
            { trueVals := v.trueVals, obsVals := v.trueVals, params := v.params, rng := g } } } }

def copyHeap : Heap Nat Nat :=
  { samplers := fun _ => { name := "copy", obsName := "copy_obs", usesLuminosity := true }
    selectors := fun q => match q with
      | 10 => { kind := .lower, cls := "HardFluxSelection",
                params := { storage := [("boundary", some 4)] }, data := { useFlux := true } }
      | _ => { kind := .unity }
    rng := 7 }

def copySt (l : Nat) (h : Heap Nat Nat) : SurvSt Nat Nat :=
  { heap := h, sp := {}, lum := { params := { storage := [("Lmin", some l)] } }, graph := {} }

def copySynth : Synth Nat := { synth with aux := [("copy", 0)] }

/-- The heap after a survey with luminosities from 2 that failed because of its noise. -/
def copyFailed : Heap Nat Nat :=
  (endState (drawSurvey copyEnv copySynth { fluxSigma := some 7, nSamples := some 1 }
    (copySt 2 copyHeap))).heap

/-- **C65 (violated: values of a failed survey are reported).** A survey is rejected because
of its noise.  The user changes the noise and the luminosities and repeats it: it returns a
population in which the quantity that copies the luminosities has the values of the rejected
attempt. -/
theorem C65_violated_stale :
    outcome (drawSurvey copyEnv copySynth { fluxSigma := some 7, nSamples := some 1 }
      (copySt 2 copyHeap)) = .error .value ∧
    (okVal (drawSurvey copyEnv copySynth { nSamples := some 1 }
      (copySt 20 copyFailed))).map (fun P => (P.luminosities.latent, (Dict.get? P.attrs "copy").map (·.latent))) =
      some ([20], some [2]) ∧
    (okVal (drawSurvey copyEnv copySynth { nSamples := some 1 }
      (copySt 20 copyHeap))).map (fun P => (P.luminosities.latent, (Dict.get? P.attrs "copy").map (·.latent))) =
      some ([20], some [20]) :=
  ⟨outcome_of_errVal (by decide +kernel), by decide +kernel, by decide +kernel⟩

/-- The heap of one sampler, whose selection is on its observed value. -/
def oneHeap : Heap Nat Nat :=
  { copyHeap with
    selectors := fun q => match q with
      | 0 => { kind := .lower, cls := "LowerBound", data := { useObs := true } }
      | _ => copyHeap.selectors q }

/-- The user sets the boundary of selector 0. -/
def oneBoundary (x : Nat) (h : Heap Nat Nat) : Heap Nat Nat :=
  h.modSelector 0 fun q =>
    { q with params := endState (paramSet declBoundary true "boundary" (some x) q.params) }

def oneArgs : SurveyArgs Nat := { nSamples := some 3 }

/-- What the failed survey leaves. -/
def oneFailed : Heap Nat Nat :=
  (endState (drawSurvey copyEnv copySynth oneArgs (copySt 2 oneHeap))).heap

/-- **C65 (violated: repairing the cause of a failure).** A survey fails because the boundary
of a selection was not set.  After setting it the survey fails again, with another exception:
the sampler is marked, so its selection is never drawn.  Had the boundary been set before,
the survey would have returned; it also does after a reset. -/
theorem C65_violated_repair :
    outcome (drawSurvey copyEnv copySynth oneArgs (copySt 2 oneHeap)) = .error .assertion ∧
    outcome (drawSurvey copyEnv copySynth oneArgs (copySt 2 (oneBoundary 3 oneFailed))) =
      .error .runtime ∧
    (okVal (drawSurvey copyEnv copySynth oneArgs (copySt 2 (oneBoundary 3 oneHeap)))).map
      (·.selection) = some [false, true, true] ∧
    (okVal (drawSurvey copyEnv copySynth oneArgs (copySt 2 (endState (resetAll 10 copySynth
      (oneBoundary 3 oneFailed)))))).map (·.selection) = some [false, true, true] :=
  ⟨outcome_of_errVal (by decide +kernel), outcome_of_errVal (by decide +kernel),
    by decide +kernel, by decide +kernel⟩

/-- A selection that takes five random numbers and raises: they are gone. -/
example : ∃ h', drawSelector SamplerExample.w 0 2
    { copyHeap with selectors := fun _ => { kind := .custom fun _ _ g => (.error .user, g + 5) } } =
      .error .user h' ∧ h'.rng = 12 :=
  let ⟨h', e, r, _⟩ := C65_selection_raises SamplerExample.w 0 2
    { copyHeap with selectors := fun _ => { kind := .custom fun _ _ g => (.error .user, g + 5) } }
    _ .user 12 rfl rfl
  ⟨h', e, r⟩

end FailureExample
end Popsynth
