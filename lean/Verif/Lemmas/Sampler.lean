import Verif.Spec.Sampler
import Verif.Lemmas.Selection

/-! Helper lemmas for the sampler heap. -/

set_option linter.unusedSectionVars false

namespace Popsynth
open Spec
variable {F G : Type}

/-! ### Graph lemmas -/

section graph
variable {ch : Nat → List Nat} {smp smp' : Nat → Bool}

theorem Spec.Reach.trans {i j k : Nat} (h1 : Reach ch i j) (h2 : Reach ch j k) :
    Reach ch i k := by
  induction h1 with
  | here => exact h2
  | step hc _ ih => exact .step hc (ih h2)

theorem Spec.Acyclic.child {i c : Nat} (h : Acyclic ch i) (hc : c ∈ ch i) : Acyclic ch c :=
  fun j hj => h j (.step hc hj)

theorem Spec.ReachU.reach {i j : Nat} (h : ReachU ch smp i j) : Reach ch i j := by
  induction h with
  | here => exact .here _
  | step _ hc _ ih => exact .step hc ih

theorem Spec.ReachU.left {i j : Nat} (h : ReachU ch smp i j) : smp i = false := by
  cases h <;> assumption

theorem Spec.ReachU.right {i j : Nat} (h : ReachU ch smp i j) : smp j = false := by
  induction h with
  | here h => exact h
  | step _ _ _ ih => exact ih

theorem Spec.ReachU.trans {i j k : Nat} (h1 : ReachU ch smp i j) (h2 : ReachU ch smp j k) :
    ReachU ch smp i k := by
  induction h1 with
  | here => exact h2
  | step hs hc _ ih => exact .step hs hc (ih h2)

theorem Spec.ReachU.mono {i j : Nat} (h : ReachU ch smp' i j)
    (hm : ∀ j, smp' j = false → smp j = false) : ReachU ch smp i j := by
  induction h with
  | here h => exact .here (hm _ h)
  | step h hc _ ih => exact .step (hm _ h) hc ih

/-- A path of unsampled nodes either survives in a later state or meets a node
that has been sampled in the meantime. -/
theorem Spec.ReachU.survive_or {i j : Nat} (h : ReachU ch smp i j) :
    ReachU ch smp' i j ∨ ∃ x, smp' x = true ∧ smp x = false ∧ ReachU ch smp x j := by
  induction h with
  | @here i h =>
    cases hs : smp' i with
    | false => exact .inl (.here hs)
    | true => exact .inr ⟨i, hs, h, .here h⟩
  | @step i c j h hc hr ih =>
    cases hs : smp' i with
    | true => exact .inr ⟨i, hs, h, .step h hc hr⟩
    | false =>
      rcases ih with ih | ih
      · exact .inl (.step hs hc ih)
      · exact .inr ih

theorem Spec.reachU_iff_of_downClosed {i j : Nat} (hd : DownClosed ch smp) :
    ReachU ch smp i j ↔ Reach ch i j ∧ smp j = false := by
  constructor
  · intro h; exact ⟨h.reach, h.right⟩
  · rintro ⟨h, hs⟩
    induction h with
    | here => exact .here hs
    | @step i c j hc hr ih =>
      have := ih hs
      have hi : smp i = false := by
        cases h : smp i with
        | false => rfl
        | true =>
          have := hd i h c hc
          rw [(ih hs).left] at this; cases this
      exact .step hi hc this
end graph

/-! ### Heap access -/

@[simp] theorem modSampler_same (h : Heap F G) (i : Nat) (f : Sampler F → Sampler F) :
    (h.modSampler i f).samplers i = f (h.samplers i) := by simp [Heap.modSampler]

theorem modSampler_ne (h : Heap F G) {i j : Nat} (f : Sampler F → Sampler F) (hne : j ≠ i) :
    (h.modSampler i f).samplers j = h.samplers j := by simp [Heap.modSampler, hne]

theorem modSampler_samplers (h : Heap F G) (i j : Nat) (f : Sampler F → Sampler F) :
    (h.modSampler i f).samplers j = if j = i then f (h.samplers j) else h.samplers j := rfl

@[simp] theorem modSampler_selectors (h : Heap F G) (i : Nat) (f : Sampler F → Sampler F) :
    (h.modSampler i f).selectors = h.selectors := rfl
@[simp] theorem modSampler_rng (h : Heap F G) (i : Nat) (f : Sampler F → Sampler F) :
    (h.modSampler i f).rng = h.rng := rfl
@[simp] theorem modSampler_trace (h : Heap F G) (i : Nat) (f : Sampler F → Sampler F) :
    (h.modSampler i f).trace = h.trace := rfl

@[simp] theorem modSelector_samplers (h : Heap F G) (q : Nat) (f : Selector F G → Selector F G) :
    (h.modSelector q f).samplers = h.samplers := rfl
@[simp] theorem modSelector_rng (h : Heap F G) (q : Nat) (f : Selector F G → Selector F G) :
    (h.modSelector q f).rng = h.rng := rfl
@[simp] theorem modSelector_trace (h : Heap F G) (q : Nat) (f : Selector F G → Selector F G) :
    (h.modSelector q f).trace = h.trace := rfl
@[simp] theorem modSelector_same (h : Heap F G) (q : Nat) (f : Selector F G → Selector F G) :
    (h.modSelector q f).selectors q = f (h.selectors q) := by simp [Heap.modSelector]
theorem modSelector_ne (h : Heap F G) {q r : Nat} (f : Selector F G → Selector F G) (hne : r ≠ q) :
    (h.modSelector q f).selectors r = h.selectors r := by simp [Heap.modSelector, hne]

/-! ### Inversion of the single steps -/

theorem runCode_ok {c : SView F → Nat → G → SOut F G} {i n : Nat} {h h' : Heap F G}
    (hk : runCode c i n h = .ok () h') :
    ∃ t o p g, h' = { h.modSampler i (fun s =>
      { s with trueVals := t, obsVals := o, params := p }) with rng := g } := by
  unfold runCode at hk
  cases he : (c (h.view i) n h.rng).err with
  | none => simp only [he] at hk; cases hk; exact ⟨_, _, _, _, rfl⟩
  | some e => simp only [he] at hk; cases hk

theorem withSelector_ok {α : Type} {q : Nat} {m : Py (SelSt F G) α} {h h' : Heap F G} {a : α}
    (hk : withSelector q m h = .ok a h') :
    ∃ t, m { sel := h.selectors q, rng := h.rng } = .ok a t ∧
      h' = { h.modSelector q (fun _ => t.sel) with rng := t.rng } := by
  unfold withSelector at hk
  cases hm : m { sel := h.selectors q, rng := h.rng } with
  | ok b t => rw [hm] at hk; cases hk; exact ⟨t, rfl, rfl⟩
  | error e t => rw [hm] at hk; cases hk

theorem lenIs_iff (v : Option (List F)) (n : Nat) :
    lenIs v n = true ↔ ∃ l, v = some l ∧ l.length = n := by
  cases v <;> simp [lenIs]

section
variable [LE F] [DecidableLE F] [OfNat F 0] [OfNat F 1]

theorem finishDraw_ok {w : World F G} {i n : Nat} {h h' : Heap F G}
    (hk : finishDraw w i n h = .ok () h') :
    (∀ j, j ≠ i → h'.samplers j = h.samplers j) ∧
    h'.trace = h.trace ++ [(i, h.view i)] ∧
    (∀ q, q ≠ (h.samplers i).selector → h'.selectors q = h.selectors q) ∧
    ∃ t o p pr, t.length = n ∧ o.length = n ∧
      ((h.samplers i).isObserved = false → o = t) ∧
      h'.samplers i = { h.samplers i with
        trueVals := some t, obsVals := some o, isSampled := true, params := p, prob := pr } ∧
      ∃ g g', selDraw w.sel w.half w.ninety w.showProgress n
          { sel := { h.selectors (h.samplers i).selector with
              data := { (h.selectors (h.samplers i).selector).data with obsValue := some o } },
            rng := g } = .ok () { sel := h'.selectors (h.samplers i).selector, rng := g' } := by
  unfold finishDraw at hk
  rw [bind_ok_iff] at hk
  obtain ⟨_, h1, e1, hk⟩ := hk
  rw [modify_apply] at e1; cases e1
  rw [bind_ok_iff] at hk
  obtain ⟨_, h2, e2, hk⟩ := hk
  obtain ⟨t2, o2, p2, g2, e2⟩ := runCode_ok e2
  rw [bind_ok_iff] at hk
  obtain ⟨_, h4, e4, hk⟩ := hk
  -- the state after observing
  have hobs : ∃ t o p g, h4 = { h with
        samplers := fun j => if j = i then { h.samplers i with
          trueVals := t, obsVals := o, params := p } else h.samplers j,
        rng := g, trace := h.trace ++ [(i, h.view i)] } ∧
      ((h.samplers i).isObserved = false → o = t) := by
    have hio : (h2.samplers i).isObserved = (h.samplers i).isObserved := by
      rw [e2]; simp [Heap.modSampler]
    unfold observe at e4
    rw [hio] at e4
    cases hb : (h.samplers i).isObserved with
    | true =>
      simp only [hb, if_true] at e4
      obtain ⟨t4, o4, p4, g4, e4⟩ := runCode_ok e4
      refine ⟨t4, o4, p4, g4, ?_, by simp⟩
      rw [e4, e2]
      simp only [Heap.modSampler]
      congr 1
      funext j
      by_cases hj : j = i
      · subst hj; simp only [if_true]
      · simp only [if_neg hj]
    | false =>
      simp only [hb, Bool.false_eq_true, if_false] at e4
      cases e4
      refine ⟨t2, t2, p2, g2, ?_, fun _ => rfl⟩
      rw [e2]
      simp only [Heap.modSampler]
      congr 1
      funext j
      by_cases hj : j = i
      · subst hj; simp only [if_true]
      · simp only [if_neg hj]
  obtain ⟨t, o, p, g, rfl, hto⟩ := hobs
  rw [bind_ok_iff] at hk
  obtain ⟨_, h5, e5, hk⟩ := hk
  rw [modify_apply] at e5; cases e5
  rw [bind_ok_iff] at hk
  obtain ⟨_, h6, e6, hk⟩ := hk
  rw [get_apply] at e6; cases e6
  rw [bind_ok_iff] at hk
  obtain ⟨_, h7, e7, hk⟩ := hk
  rw [pyAssert_ok_iff] at e7; obtain ⟨ht, rfl⟩ := e7
  rw [bind_ok_iff] at hk
  obtain ⟨_, h8, e8, hk⟩ := hk
  rw [pyAssert_ok_iff] at e8; obtain ⟨ho, rfl⟩ := e8
  simp only [modSelector_samplers, if_true, lenIs_iff] at ht ho
  obtain ⟨t, rfl, ht⟩ := ht
  obtain ⟨o, rfl, ho⟩ := ho
  rw [bind_ok_iff] at hk
  obtain ⟨_, h9, e9, hk⟩ := hk
  rw [modify_apply] at e9; cases e9
  rw [bind_ok_iff] at hk
  obtain ⟨_, h10, e10, hk⟩ := hk
  obtain ⟨st, hd, rfl⟩ := withSelector_ok e10
  rw [bind_ok_iff] at hk
  obtain ⟨_, h11, e11, hk⟩ := hk
  rw [get_apply] at e11; cases e11
  rw [bind_ok_iff] at hk
  obtain ⟨pr, h12, e12, hk⟩ := hk
  rw [liftE_ok_iff] at e12; obtain ⟨-, rfl⟩ := e12
  rw [modify_apply] at hk; cases hk
  simp only [modSelector_samplers, if_true, modSampler_selectors, modSelector_same,
    modSampler_rng, modSelector_rng] at hd
  refine ⟨?_, rfl, ?_, t, o, p, pr, ht, ho, ?_, ?_, g, st.rng, ?_⟩
  · intro j hj; simp [Heap.modSampler, Heap.modSelector, hj]
  · intro q hq; simp [Heap.modSampler, Heap.modSelector, hq]
  · intro hb; simpa using hto hb
  · simp [Heap.modSampler, Heap.modSelector]
  · rw [hd]; simp [Heap.modSampler, Heap.modSelector]

end
end Popsynth
