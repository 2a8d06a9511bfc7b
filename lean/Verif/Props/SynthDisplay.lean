import Verif.Lemmas.Param
import Verif.Lemmas.SurveyHeap
import Verif.Model.SynthDisplay

/-! C69: what displaying and printing a synth shows. -/

set_option autoImplicit false
set_option linter.unusedSectionVars false

namespace Popsynth
open Spec

variable {F G : Type}

/-! ### Specification -/

namespace Spec

/-- The sections of a display: a title, a formula if one follows, and a table. -/
def sections : List (Piece F) → List (String × Option String × Dict (Option F))
  | .title k :: .table r :: rest => (k, none, r) :: sections rest
  | .title k :: .formula f :: .table r :: rest => (k, some f, r) :: sections rest
  | _ :: rest => sections rest
  | [] => []

/-- The parameter values in the tables of a display, in order. -/
def shownValues (ps : List (Piece F)) : List (String × Option F) :=
  ps.flatMap fun
    | .table r => r
    | _ => []

/-- The parameter values in a text, in order. -/
def printedValues (ls : List (Line F)) : List (String × Option F) :=
  ls.filterMap fun
    | .value k v => some (k, v)
    | _ => none

/-- The samplers the derived luminosity sampler, if there is one, depends on directly. -/
def lumSecs (y : Synth F) (h : Heap F G) : Dict Nat :=
  y.derived.elim [] fun d => (h.samplers d).secondaries

/-- An operation that touches parameter `n` of object `i` in the given state: a read, or an
assignment that is accepted. -/
def Touches [LE F] (decl : String → ParamDecl F) (st : ClassState F) (i : Nat) (n : String) :
    POp F → Prop
  | .assign j m v => j = i ∧ m = n ∧ st.free n = true ∧ InBounds (decl n) v
  | .read j m => j = i ∧ m = n
  | .setFree _ _ => False

end Spec

/-! ### Lemmas -/

theorem sections_secs (h : Heap F G) (l : Dict Nat) (rest : List (Piece F)) :
    sections (l.flatMap (fun p => section' h p.1 p.2) ++ rest) =
      l.map (fun p => (p.1, none, (h.samplers p.2).params.storage)) ++ sections rest := by
  induction l with
  | nil => rfl
  | cons p l ih =>
    simp only [List.flatMap_cons, List.map_cons, section', samplerDisplay, List.cons_append,
      List.nil_append, sections]
    rw [← ih]
    rfl

theorem auxPieces_eq {α : Type} (names : List String) (f : String → Nat → List α) (l : Dict Nat) :
    auxPieces names f l = (l.filter fun p => !(p.1 ∈ names)).flatMap fun p => f p.1 p.2 := by
  induction l with
  | nil => rfl
  | cons p l ih =>
    obtain ⟨k, i⟩ := p
    unfold auxPieces
    rw [ih]
    by_cases h : k ∈ names <;> simp [h]

/-- The sections of the samplers. -/
def samplerRows (y : Synth F) (h : Heap F G) : Dict Nat :=
  lumSecs y h ++ y.aux.filter fun p => !(p.1 ∈ (lumSecs y h).map (·.1))

theorem synthDisplay_eq (y : Synth F) (s : SurvSt F G) :
    synthDisplay y s =
      (match y.derived with
        | some d => [.title "Luminosity Function", .table (s.heap.samplers d).params.storage]
        | none => match y.lumName with
          | some _ => [.title "Luminosity Function", .formula y.lumForm, .table s.lum.params.storage]
          | none => [])
      ++ (.title "Spatial Function" :: .formula y.spatialForm :: .table s.sp.params.storage ::
        (samplerRows y s.heap).flatMap (fun p => section' s.heap p.1 p.2)) := by
  unfold synthDisplay samplerRows lumSecs
  cases y.derived with
  | none => cases y.lumName <;> simp [distDisplay, auxPieces_eq]
  | some d =>
    simp [samplerDisplay, distDisplay, auxPieces_eq]
    rfl

theorem sections_display (y : Synth F) (s : SurvSt F G) :
    sections (synthDisplay y s) =
      (match y.derived with
        | some d => [("Luminosity Function", none, (s.heap.samplers d).params.storage)]
        | none => match y.lumName with
          | some _ => [("Luminosity Function", some y.lumForm, s.lum.params.storage)]
          | none => [])
      ++ (("Spatial Function", some y.spatialForm, s.sp.params.storage) ::
        (samplerRows y s.heap).map fun p => (p.1, none, (s.heap.samplers p.2).params.storage)) := by
  have e : ∀ l : Dict Nat, sections (l.flatMap (fun p => section' s.heap p.1 p.2)) =
      l.map fun p => (p.1, none, (s.heap.samplers p.2).params.storage) := fun l => by
    have := sections_secs s.heap l ([] : List (Piece F))
    simpa [sections] using this
  rw [synthDisplay_eq]
  cases y.derived with
  | none => cases y.lumName <;> simp [sections, e]
  | some d => simp [sections, e]

theorem mem_samplerRows (y : Synth F) (h : Heap F G) (k : String) (i : Nat) :
    (k, i) ∈ samplerRows y h ↔
      (k, i) ∈ lumSecs y h ∨ ((k, i) ∈ y.aux ∧ ∀ j, (k, j) ∉ lumSecs y h) := by
  unfold samplerRows
  simp

/-! ### Theorems -/

/-- **C69 (sections).** The display has a section for the luminosity (the derived luminosity
sampler if there is one, otherwise the luminosity distribution), one for the spatial
distribution, one for every sampler the derived luminosity sampler depends on directly, and one
for every attached sampler whose name is not among those; each shows the parameters stored in
that object.  There are no other sections. -/
theorem C69_sections (y : Synth F) (s : SurvSt F G) (k : String) (f : Option String)
    (r : Dict (Option F)) :
    (k, f, r) ∈ sections (synthDisplay y s) ↔
      (∃ d, y.derived = some d ∧ k = "Luminosity Function" ∧ f = none ∧
        r = (s.heap.samplers d).params.storage) ∨
      (y.derived = none ∧ y.lumName ≠ none ∧ k = "Luminosity Function" ∧ f = some y.lumForm ∧
        r = s.lum.params.storage) ∨
      (k = "Spatial Function" ∧ f = some y.spatialForm ∧ r = s.sp.params.storage) ∨
      (f = none ∧ ∃ i, r = (s.heap.samplers i).params.storage ∧
        ((k, i) ∈ lumSecs y s.heap ∨ ((k, i) ∈ y.aux ∧ ∀ j, (k, j) ∉ lumSecs y s.heap))) := by
  have hs : (k, f, r) ∈ (samplerRows y s.heap).map (fun p =>
      (p.1, (none : Option String), (s.heap.samplers p.2).params.storage)) ↔
      (f = none ∧ ∃ i, r = (s.heap.samplers i).params.storage ∧
        ((k, i) ∈ lumSecs y s.heap ∨ ((k, i) ∈ y.aux ∧ ∀ j, (k, j) ∉ lumSecs y s.heap))) := by
    rw [List.mem_map]
    constructor
    · rintro ⟨⟨k', i⟩, hm, he⟩
      simp only [Prod.mk.injEq] at he
      obtain ⟨rfl, rfl, rfl⟩ := he
      exact ⟨rfl, i, rfl, (mem_samplerRows _ _ _ _).1 hm⟩
    · rintro ⟨rfl, i, rfl, hm⟩
      exact ⟨(k, i), (mem_samplerRows _ _ _ _).2 hm, rfl⟩
  rw [sections_display, List.mem_append, List.mem_cons, hs]
  cases hd : y.derived with
  | some d => simp
  | none => cases hl : y.lumName <;> simp

/-- **C69 (once).** If no two attached samplers and no two samplers the derived luminosity sampler
depends on have the same name, then no two of the sections of samplers have the same title. -/
theorem C69_once (y : Synth F) (s : SurvSt F G) (ha : (Dict.keys y.aux).Nodup)
    (hs : (Dict.keys (lumSecs y s.heap)).Nodup)
    (hk : ∀ k ∈ Dict.keys y.aux ++ Dict.keys (lumSecs y s.heap),
      k ≠ "Luminosity Function" ∧ k ≠ "Spatial Function") :
    ((sections (synthDisplay y s)).map (·.1)).Nodup := by
  have hn : ((samplerRows y s.heap).map (·.1)).Nodup := by
    unfold samplerRows
    rw [List.map_append, List.nodup_append]
    refine ⟨hs, (List.Sublist.map _ List.filter_sublist).nodup ha, ?_⟩
    intro a hm b hb e
    subst e
    obtain ⟨p, hp, rfl⟩ := List.mem_map.1 hb
    have := (List.mem_filter.1 hp).2
    simp only [Bool.not_eq_eq_eq_not, Bool.not_true, decide_eq_false_iff_not] at this
    exact this hm
  have hm : ∀ k ∈ (samplerRows y s.heap).map (·.1),
      k ≠ "Luminosity Function" ∧ k ≠ "Spatial Function" := by
    intro k hkm
    obtain ⟨⟨k', i⟩, hp, rfl⟩ := List.mem_map.1 hkm
    refine hk _ (List.mem_append.2 ?_)
    rcases (mem_samplerRows _ _ _ _).1 hp with h | h
    · exact Or.inr (List.mem_map.2 ⟨_, h, rfl⟩)
    · exact Or.inl (List.mem_map.2 ⟨_, h.1, rfl⟩)
  have e : ((samplerRows y s.heap).map fun p =>
      (p.1, (none : Option String), (s.heap.samplers p.2).params.storage)).map (·.1) =
      (samplerRows y s.heap).map (·.1) := by simp
  rw [sections_display, List.map_append, List.map_cons, e]
  have h1 : "Spatial Function" ∉ (samplerRows y s.heap).map (·.1) := fun h => (hm _ h).2 rfl
  have h2 : "Luminosity Function" ∉ (samplerRows y s.heap).map (·.1) := fun h => (hm _ h).1 rfl
  have h3 : ("Spatial Function" :: (samplerRows y s.heap).map (·.1)).Nodup :=
    List.nodup_cons.2 ⟨h1, hn⟩
  have h4 : ("Luminosity Function" :: "Spatial Function" ::
      (samplerRows y s.heap).map (·.1)).Nodup :=
    List.nodup_cons.2 ⟨fun h => by
      rcases List.mem_cons.1 h with h | h
      · exact absurd h (by decide)
      · exact h2 h, h3⟩
  cases y.derived with
  | some d => exact h4
  | none =>
    cases y.lumName with
    | none => exact h3
    | some n => exact h4

/-- **C69 (printing fails).** Printing a synth raises exactly if it has neither a derived
luminosity sampler nor a luminosity distribution, and then it raises `UnboundLocalError`. -/
theorem C69_repr_raises (y : Synth F) (s : SurvSt F G) (e : Err) :
    synthLines y s = .error e ↔ e = .unboundLocal ∧ y.derived = none ∧ y.lumName = none := by
  unfold synthLines
  cases hd : y.derived with
  | some d => simp [bind, Except.bind]
  | none =>
    cases hl : y.lumName with
    | some n => simp [bind, Except.bind]
    | none => simp [bind, Except.bind, eq_comm]

theorem printedValues_append (a b : List (Line F)) :
    printedValues (a ++ b) = printedValues a ++ printedValues b := by
  unfold printedValues
  exact List.filterMap_append

theorem shownValues_append (a b : List (Piece F)) :
    shownValues (a ++ b) = shownValues a ++ shownValues b := by
  unfold shownValues
  exact List.flatMap_append

theorem printed_storage (l : Dict (Option F)) :
    printedValues (l.map fun p => Line.value p.1 p.2) = l := by
  induction l with
  | nil => rfl
  | cons p l ih =>
    unfold printedValues at ih ⊢
    rw [List.map_cons, List.filterMap_cons, ih]

theorem printed_sampler (x : Sampler F) : printedValues (samplerLines x) = x.params.storage := by
  have hp : printedValues (if x.isSecondary then [Line.parents x.parents] else ([] : List (Line F)))
      = [] := by split <;> rfl
  have hs : printedValues (if x.hasSecondary then
      x.secondaries.map (fun p => Line.text p.1) else ([] : List (Line F))) = [] := by
    split
    · unfold printedValues
      rw [List.filterMap_map]
      exact List.filterMap_eq_nil_iff.2 fun _ _ => rfl
    · rfl
  unfold samplerLines
  rw [printedValues_append, printedValues_append, printedValues_append, printed_storage, hp, hs]
  simp [printedValues]

theorem printed_dist (n f : String) (o : Obj F) : printedValues (distLines n f o) = o.storage := by
  unfold distLines
  rw [printedValues_append, printed_storage]
  rfl

theorem printed_rows (h : Heap F G) (l : Dict Nat) :
    printedValues (l.flatMap fun p => samplerLines (h.samplers p.2)) =
      shownValues (l.flatMap fun p => section' h p.1 p.2) := by
  induction l with
  | nil => rfl
  | cons p l ih =>
    rw [List.flatMap_cons, List.flatMap_cons, printedValues_append, shownValues_append, ih,
      printed_sampler]
    simp [shownValues, section', samplerDisplay]

/-- **C69 (same values).** If printing returns, then the text and the display give the same
values of the same parameters in the same order. -/
theorem C69_same_values (y : Synth F) (s : SurvSt F G) (out : List (Line F))
    (h : synthLines y s = .ok out) :
    printedValues out = shownValues (synthDisplay y s) := by
  have ht : ∀ (t : String) (l : List (Line F)), printedValues (.text t :: l) = printedValues l :=
    fun _ _ => rfl
  rw [synthDisplay_eq]
  unfold synthLines at h
  cases hd : y.derived with
  | some d =>
    simp only [hd, bind, Except.bind, Except.ok.injEq] at h
    subst h
    rw [auxPieces_eq, List.append_assoc, ← List.flatMap_append]
    rw [printedValues_append, shownValues_append, printed_rows]
    rw [printedValues_append, ht, ht, printed_sampler, printed_dist]
    have e : samplerRows y s.heap = (s.heap.samplers d).secondaries ++ y.aux.filter fun p =>
        !(p.1 ∈ (s.heap.samplers d).secondaries.map (·.1)) := by
      simp only [samplerRows, lumSecs, hd]
      rfl
    rw [e]
    generalize List.flatMap (fun p : String × Nat => section' s.heap p.1 p.2) _ = l
    simp [shownValues]
  | none =>
    cases hl : y.lumName with
    | none => simp [hd, hl, bind, Except.bind] at h
    | some n =>
      simp only [hd, hl, bind, Except.bind, Except.ok.injEq] at h
      subst h
      rw [auxPieces_eq, printedValues_append, shownValues_append, printed_rows]
      rw [printedValues_append, ht, ht, printed_dist, printed_dist]
      simp [shownValues, samplerRows, lumSecs, hd]

/-- The flags printed, in order. -/
def printedFlags (l : List (Line F)) : List Bool :=
  l.filterMap fun | .observed b => some b | _ => none

theorem printedFlags_append (a b : List (Line F)) :
    printedFlags (a ++ b) = printedFlags a ++ printedFlags b := List.filterMap_append

theorem flags_values (l : Dict (Option F)) :
    printedFlags (l.map fun p => Line.value p.1 p.2) = [] := by
  unfold printedFlags
  rw [List.filterMap_map]
  exact List.filterMap_eq_nil_iff.2 fun _ _ => rfl

theorem flags_sampler (x : Sampler F) : printedFlags (samplerLines x) = [x.isObserved] := by
  have hp : printedFlags (if x.isSecondary then [Line.parents x.parents] else ([] : List (Line F)))
      = [] := by split <;> rfl
  have hs : printedFlags (if x.hasSecondary then
      x.secondaries.map (fun p => Line.text p.1) else ([] : List (Line F))) = [] := by
    split
    · unfold printedFlags
      rw [List.filterMap_map]
      exact List.filterMap_eq_nil_iff.2 fun _ _ => rfl
    · rfl
  unfold samplerLines
  rw [printedFlags_append, printedFlags_append, printedFlags_append, flags_values, hp, hs]
  rfl

theorem flags_dist (n f : String) (o : Obj F) : printedFlags (distLines n f o) = [] := by
  unfold distLines
  rw [printedFlags_append, flags_values]
  rfl

theorem flags_rows (h : Heap F G) (l : Dict Nat) :
    printedFlags (l.flatMap fun p => samplerLines (h.samplers p.2)) =
      l.map fun p => (h.samplers p.2).isObserved := by
  induction l with
  | nil => rfl
  | cons p l ih =>
    rw [List.flatMap_cons, printedFlags_append, ih, flags_sampler]
    rfl

/-- **C69 (observed).** If printing returns, the text says of the derived luminosity sampler, if
there is one, and then of every sampler with a row of its own whether it is observed, as the
object itself has it. -/
theorem C69_observed (y : Synth F) (s : SurvSt F G) (out : List (Line F))
    (h : synthLines y s = .ok out) :
    printedFlags out = (y.derived.toList ++ (samplerRows y s.heap).map (·.2)).map fun i =>
      (s.heap.samplers i).isObserved := by
  have ht : ∀ (t : String) (l : List (Line F)), printedFlags (.text t :: l) = printedFlags l :=
    fun _ _ => rfl
  unfold synthLines at h
  cases hd : y.derived with
  | some d =>
    simp only [hd, bind, Except.bind, Except.ok.injEq] at h
    subst h
    rw [auxPieces_eq, List.append_assoc, ← List.flatMap_append]
    rw [printedFlags_append, flags_rows]
    rw [printedFlags_append, ht, ht, flags_sampler, flags_dist]
    have e : samplerRows y s.heap = (s.heap.samplers d).secondaries ++ y.aux.filter fun p =>
        !(p.1 ∈ (s.heap.samplers d).secondaries.map (·.1)) := by
      simp only [samplerRows, lumSecs, hd]
      rfl
    rw [e]
    simp [List.map_map, Function.comp_def]
  | none =>
    cases hl : y.lumName with
    | none => simp [hd, hl, bind, Except.bind] at h
    | some n =>
      simp only [hd, hl, bind, Except.bind, Except.ok.injEq] at h
      subst h
      rw [auxPieces_eq, printedFlags_append, flags_rows]
      rw [printedFlags_append, ht, ht, flags_dist, flags_dist]
      simp [samplerRows, lumSecs, hd, List.map_map, Function.comp_def]

/-- **C69 (values).** A value shown for an object is the one the object uses: after any history
of assignments and reads, the value in its row is what reading the parameter returns. -/
theorem C69_values [LE F] [DecidableLE F] (decl : String → ParamDecl F) (ops : List (POp F))
    (i : Nat) (n : String) (v : F)
    (h : (n, some v) ∈ ((runOps decl (ClassState.init decl) ops).objs i).storage) :
    outcome (paramGet (decl n) n ((runOps decl (ClassState.init decl) ops).objs i)) = .ok v := by
  have hn := nodup_runOps decl i ops.reverse
  rw [List.reverse_reverse] at hn
  rw [outcome_paramGet, Dict.get?_of_mem hn h]
  rfl

/-- **C69 (rows).** A parameter has a row exactly if it was read or an assignment to it was
accepted at some point of the history: parameters that only have their default are not shown. -/
theorem C69_rows [LE F] [DecidableLE F] (decl : String → ParamDecl F) (ops : List (POp F))
    (i : Nat) (n : String) :
    n ∈ Dict.keys ((runOps decl (ClassState.init decl) ops).objs i).storage ↔
      ∃ pre op post, ops = pre ++ op :: post ∧
        Touches decl (runOps decl (ClassState.init decl) pre) i n op := by
  classical
  have key : ∀ d : Dict (Option F), n ∈ Dict.keys d ↔ Dict.get? d n ≠ none := fun d => by
    induction d with
    | nil => simp [Dict.keys, Dict.get?]
    | cons p d ih =>
      obtain ⟨k, w⟩ := p
      by_cases hk : k = n
      · simp [Dict.keys, Dict.get?, hk]
      · have : n ≠ k := fun e => hk e.symm
        simp only [Dict.keys] at ih
        simp [Dict.keys, Dict.get?, hk, this, ih]
  -- one more operation at the end
  have step : ∀ (pre : List (POp F)) (op : POp F),
      (n ∈ Dict.keys ((runOps decl (ClassState.init decl) (pre ++ [op])).objs i).storage ↔
        n ∈ Dict.keys ((runOps decl (ClassState.init decl) pre).objs i).storage ∨
          Touches decl (runOps decl (ClassState.init decl) pre) i n op) := by
    intro pre op
    rw [runOps_concat]
    generalize runOps decl (ClassState.init decl) pre = st
    cases op with
    | assign j m v =>
      simp only [stepOp, ClassState.setObj, Touches]
      by_cases hj : i = j
      · subst hj
        rw [if_pos rfl, key, key, storage_after_set]
        by_cases hm : m = n
        · subst hm
          by_cases hb : st.free m = true ∧ InBounds (decl m) v <;> simp [hb]
        · simp [hm]
      · have : ¬ j = i := fun e => hj e.symm
        simp [hj, this]
    | read j m =>
      simp only [stepOp, ClassState.setObj, Touches]
      by_cases hj : i = j
      · subst hj
        rw [if_pos rfl, key, key, storage_after_get]
        by_cases hm : m = n
        · subst hm
          cases hg : Dict.get? (st.objs i).storage m with
          | none => simp
          | some w => cases w <;> simp
        · simp [hm]
      · have : ¬ j = i := fun e => hj e.symm
        simp [hj, this]
    | setFree m b => simp [stepOp, Touches]
  generalize hl : ops.length = len
  induction len generalizing ops with
  | zero =>
    have : ops = [] := List.length_eq_zero_iff.1 hl
    subst this
    simp [runOps, ClassState.init, Dict.keys]
  | succ len ih =>
    obtain ⟨pre, op, rfl⟩ : ∃ pre op, ops = pre ++ [op] := by
      rcases List.eq_nil_or_concat ops with rfl | ⟨pre, op, rfl⟩
      · cases hl
      · exact ⟨pre, op, by simp⟩
    have ih' := ih pre (by simpa using hl)
    refine (step pre op).trans ((or_congr_left ih').trans ?_)
    constructor
    · rintro (⟨a, o, b, rfl, ht⟩ | ht)
      · exact ⟨a, o, b ++ [op], by simp, ht⟩
      · exact ⟨pre, op, [], rfl, ht⟩
    · rintro ⟨a, o, b, e, ht⟩
      rcases List.eq_nil_or_concat b with rfl | ⟨b', x, rfl⟩
      · obtain ⟨rfl, e2⟩ := List.append_inj' e rfl
        cases e2
        exact Or.inr ht
      · left
        have e' : pre ++ [op] = (a ++ o :: b') ++ [x] := by simpa using e
        obtain ⟨rfl, -⟩ := List.append_inj' e' rfl
        exact ⟨a, o, b', rfl, ht⟩

/-- **C69 (completeness, partial).** Wanted: every sampler a survey draws (`ReachFrom`) has a
section with its parameters.  That is false (`C69_violated_hidden`, `C69_violated_secondary`).
Proved if attached samplers and the samplers the derived luminosity sampler depends on have no
secondaries of their own, and no attached sampler has the name of one of the latter. -/
theorem C69_complete_partial (y : Synth F) (s : SurvSt F G)
    (ha : ∀ k i, (k, i) ∈ y.aux → (s.heap.samplers i).secondaries = [])
    (hs : ∀ k i, (k, i) ∈ lumSecs y s.heap → (s.heap.samplers i).secondaries = [])
    (hd : ∀ k i j, (k, i) ∈ y.aux → (k, j) ∉ lumSecs y s.heap)
    (i : Nat) (hi : ReachFrom s.heap y.roots i) :
    ∃ k, (k, none, (s.heap.samplers i).params.storage) ∈ sections (synthDisplay y s) := by
  have leaf : ∀ a b, (s.heap.samplers a).secondaries = [] → Reach s.heap.children a b → b = a := by
    intro a b h hr
    cases hr with
    | here => rfl
    | step hc _ => simp [Heap.children, h] at hc
  obtain ⟨a, hm, hr⟩ := hi
  simp only [Synth.roots, List.mem_append, Option.mem_toList, List.mem_map] at hm
  rcases hm with hm | ⟨⟨k, a'⟩, hm, rfl⟩
  · have hm : y.derived = some a := hm
    cases hr with
    | here => exact ⟨_, (C69_sections y s _ _ _).2 (.inl ⟨_, hm, rfl, rfl, rfl⟩)⟩
    | @step _ c _ hc hr =>
      obtain ⟨⟨k, c'⟩, hk, rfl⟩ := List.mem_map.1 hc
      have hk' : (k, c') ∈ lumSecs y s.heap := by simpa [lumSecs, hm] using hk
      obtain rfl := leaf _ _ (hs k c' hk') hr
      exact ⟨k, (C69_sections y s _ _ _).2 (.inr (.inr (.inr ⟨rfl, _, rfl, .inl hk'⟩)))⟩
  · obtain rfl := leaf _ _ (ha k a' hm) hr
    exact ⟨k, (C69_sections y s _ _ _).2
      (.inr (.inr (.inr ⟨rfl, _, rfl, .inr ⟨hm, fun j => hd k _ j hm⟩⟩)))⟩

/-! ### Violations and examples -/

namespace SynthDisplayExample

/-- Sampler 0 derives the luminosity from 1 (`"x"`); 2 is another sampler called `"x"`; 3 depends
on 4. -/
def heap : Heap Nat Unit where
  samplers := fun i => match i with
    | 0 => { name := "lum", obsName := "lum_obs", secondaries := [("x", 1)], hasSecondary := true
             params := { storage := [("p", some 10)] } }
    | 1 => { name := "x", obsName := "x_obs", isSecondary := true, parents := ["lum"]
             params := { storage := [("p", some 11)] } }
    | 2 => { name := "x", obsName := "x_obs", params := { storage := [("p", some 12)] } }
    | 3 => { name := "z", obsName := "z_obs", secondaries := [("w", 4)], hasSecondary := true
             params := { storage := [("p", some 13)] } }
    | _ => { name := "w", obsName := "w_obs", isSecondary := true, parents := ["z"]
             params := { storage := [("p", some 14)] } }
  selectors := fun _ => { kind := .unity }
  rng := ()

def st : SurvSt Nat Unit :=
  { heap, sp := { params := { storage := [("r_max", some 5)] } }
    lum := { params := { storage := [("Lmin", some 6)] } }, graph := {} }

def bare : Synth Nat :=
  { name := "s", seed := 1, spatialName := "cons_sphere", lumName := none, fluxSel := 0, distSel := 1
    spatialForm := "r" }

/-- **C69 (violated: an attached sampler is not shown).** Sampler 2 is attached and is drawn by
surveys.  Because its name is that of a sampler the derived luminosity sampler depends on, its
parameters are neither displayed nor printed. -/
theorem C69_violated_hidden :
    ReachFrom heap ({ bare with derived := some 0, aux := [("x", 2)] } : Synth Nat).roots 2 ∧
    (∀ k f, (k, f, (heap.samplers 2).params.storage) ∉
      sections (synthDisplay { bare with derived := some 0, aux := [("x", 2)] } st)) ∧
    ∃ out, synthLines { bare with derived := some 0, aux := [("x", 2)] } st = .ok out ∧
      Line.value "p" (some 12) ∉ out := by
  refine ⟨⟨2, by simp [Synth.roots], .here _⟩, fun k f => ?_, _, rfl, by decide⟩
  have : sections (synthDisplay { bare with derived := some 0, aux := [("x", 2)] } st) =
    [("Luminosity Function", none, [("p", some 10)]),
      ("Spatial Function", some "r", [("r_max", some 5)]), ("x", none, [("p", some 11)])] := by
    decide
  rw [this]
  simp [heap]

/-- **C69 (violated: secondary samplers are not shown).** Sampler 4 is drawn by surveys because
the attached sampler 3 depends on it.  Its parameters are neither displayed nor printed; the
text only gives its name. -/
theorem C69_violated_secondary :
    ReachFrom heap ({ bare with lumName := some "bpl", aux := [("z", 3)] } : Synth Nat).roots 4 ∧
    (∀ k f, (k, f, (heap.samplers 4).params.storage) ∉
      sections (synthDisplay { bare with lumName := some "bpl", aux := [("z", 3)] } st)) ∧
    ∃ out, synthLines { bare with lumName := some "bpl", aux := [("z", 3)] } st = .ok out ∧
      Line.value "p" (some 14) ∉ out ∧ Line.text "w" ∈ out := by
  refine ⟨⟨3, by simp [Synth.roots], .step (c := 4) (by simp [Heap.children, heap]) (.here _)⟩,
    fun k f => ?_, _, rfl, by decide, by decide⟩
  have : sections (synthDisplay { bare with lumName := some "bpl", aux := [("z", 3)] } st) =
    [("Luminosity Function", some "", [("Lmin", some 6)]),
      ("Spatial Function", some "r", [("r_max", some 5)]), ("z", none, [("p", some 13)])] := by
    decide
  rw [this]
  simp [heap]

/-- **C69 (violated: printing a synth without a luminosity).** A synth with only a spatial
distribution can be displayed but not printed. -/
theorem C69_violated_print :
    synthLines bare st = .error .unboundLocal ∧
    sections (synthDisplay bare st) = [("Spatial Function", some "r", [("r_max", some 5)])] := by
  decide

/-- **C69 (violated: defaults are not shown).** A parameter with a default that was neither
assigned nor read has no row, although reading it returns the default; the read adds the row. -/
theorem C69_violated_default :
    let decl : String → ParamDecl Nat := fun _ => { default := some 10 }
    let st := ClassState.init decl
    Dict.keys (st.objs 0).storage = [] ∧
    outcome (paramGet (decl "r_max") "r_max" (st.objs 0)) = .ok 10 ∧
    ((runOps decl st [.read 0 "r_max"]).objs 0).storage = [("r_max", some 10)] := by
  decide

/-- `C69_complete_partial` applies: the derived sampler, what it depends on, and an attached one. -/
example : ∃ k, (k, none, [("p", some 12)]) ∈
    sections (synthDisplay { bare with derived := some 0, aux := [("y", 2)] } st) :=
  C69_complete_partial { bare with derived := some 0, aux := [("y", 2)] } st
    (fun k i h => by
      simp only [List.mem_cons, Prod.mk.injEq, List.not_mem_nil, or_false] at h
      obtain ⟨-, rfl⟩ := h; rfl)
    (fun k i h => by
      have h : (k, i) ∈ [("x", 1)] := h
      simp only [List.mem_cons, Prod.mk.injEq, List.not_mem_nil, or_false] at h
      obtain ⟨-, rfl⟩ := h; rfl)
    (fun k i j h h' => by
      have h' : (k, j) ∈ [("x", 1)] := h'
      simp only [List.mem_cons, Prod.mk.injEq, List.not_mem_nil, or_false] at h h'
      exact absurd (h.1.symm.trans h'.1) (by decide))
    2 ⟨2, by simp [Synth.roots], .here _⟩

/-- `C69_once`. -/
example : ((sections (synthDisplay { bare with derived := some 0, aux := [("y", 2), ("z", 3)] } st)).map
    (·.1)).Nodup :=
  C69_once _ _ (by decide) (by decide) (by decide)

/-- `C69_same_values`: four values. -/
example : ∃ out, synthLines { bare with derived := some 0, aux := [("y", 2)] } st = .ok out ∧
    printedValues out = [("p", some 10), ("r_max", some 5), ("p", some 11), ("p", some 12)] :=
  ⟨_, rfl, (C69_same_values { bare with derived := some 0, aux := [("y", 2)] } st _ rfl).trans
    (by decide)⟩

/-- `C69_observed`: three samplers. -/
example : ∃ out, synthLines { bare with derived := some 0, aux := [("y", 2)] } st = .ok out ∧
    (printedFlags out).length = 3 :=
  ⟨_, rfl, by
    rw [C69_observed { bare with derived := some 0, aux := [("y", 2)] } st _ rfl]
    decide⟩

/-- `C69_rows` and `C69_values`: an accepted and a rejected assignment. -/
example :
    let decl : String → ParamDecl Nat := fun _ => { default := some 10, vmax := some 20 }
    let o := (runOps decl (ClassState.init decl)
      [.assign 0 "a" (some 3), .assign 0 "b" (some 30), .read 1 "c"]).objs 0
    o.storage = [("a", some 3)] ∧ outcome (paramGet (decl "a") "a" o) = .ok 3 := by
  intro decl o
  have h : o.storage = [("a", some 3)] := by decide
  exact ⟨h, C69_values decl _ 0 "a" 3 (by
    show ("a", some 3) ∈ o.storage
    rw [h]; simp)⟩

end SynthDisplayExample
end Popsynth
