import Verif.Lemmas.Selection
import Verif.Spec.Selection

/-!
# C05–C09 and the discrete parts of C10, C11: selections

Everything here holds for an arbitrary number type with an arbitrary decidable
relation `≤`; NaN is covered as an element that compares false.
-/

set_option linter.unusedSectionVars false

namespace Popsynth
open Spec
variable {F G : Type} [LE F] [DecidableLE F] [OfNat F 0] [OfNat F 1]
  (env : SelEnv F G) (half ninety : F) (pb : Bool)

/-! ### C06 -/

/-- **C06.** The quantity a value selector acts on: flux over luminosity over
observed value over distance, for all flag combinations. -/
theorem C06_source (d : SelData F) :
    chosenValues d = match source d with
      | some v => .ok v
      | none => .error .unboundLocal := by
  unfold chosenValues source
  cases d.useFlux <;> cases d.useLuminosity <;> cases d.useObs <;> cases d.useDistance <;> rfl

/-- Is the selector one of the four value selectors? -/
def SelKind.isValueSelector : SelKind F G → Bool
  | .box => true
  | .lower => true
  | .upper => true
  | .soft => true
  | _ => false

/-- **C06 (no source).** A value selector with no flag set, or whose flagged
quantity was never provided, cannot draw: it raises and keeps the previous
mask and the random state. -/
theorem C06_no_source_raises (s : SelSt F G) (n : Nat)
    (hk : s.sel.kind.isValueSelector = true)
    (hs : source s.sel.data = none ∨ source s.sel.data = some none) :
    ∃ e s', selDraw env half ninety pb n s = .error e s' ∧
      s'.sel.selection = s.sel.selection ∧ s'.rng = s.rng := by
  have hc : chosenValues s.sel.data = .error .unboundLocal ∨
      chosenValues s.sel.data = .ok none := by
    rw [C06_source]; rcases hs with h | h <;> rw [h] <;> simp
  cases hkind : s.sel.kind <;> rw [hkind] at hk <;> simp [SelKind.isValueSelector] at hk
  case box =>
    rcases hc with h | h
    · have : selDraw env half ninety pb n s = .error .unboundLocal s := by
        simp [selDraw, bind_apply, hkind, h, liftE]
      exact ⟨_, _, this, rfl, rfl⟩
    · have hf := selParam_frame (declBox : ParamDecl F) "vmin" s
      cases hp : selParam (declBox : ParamDecl F) "vmin" s with
      | ok v t =>
        rw [hp] at hf
        have : selDraw env half ninety pb n s = .error .type t := by
          simp [selDraw, bind_apply, hkind, h, liftE, hp, needArray]
        exact ⟨_, _, this, hf.1, hf.2.2.2.2⟩
      | error e t =>
        rw [hp] at hf
        have : selDraw env half ninety pb n s = .error e t := by
          simp [selDraw, bind_apply, hkind, h, liftE, hp]
        exact ⟨_, _, this, hf.1, hf.2.2.2.2⟩
  case lower =>
    rcases hc with h | h
    · have : selDraw env half ninety pb n s = .error .unboundLocal s := by
        simp [selDraw, bind_apply, hkind, h, liftE]
      exact ⟨_, _, this, rfl, rfl⟩
    · have hf := selParam_frame (declBoundary : ParamDecl F) "boundary" s
      cases hp : selParam (declBoundary : ParamDecl F) "boundary" s with
      | ok v t =>
        rw [hp] at hf
        have : selDraw env half ninety pb n s = .error .type t := by
          simp [selDraw, bind_apply, hkind, h, liftE, hp, needArray]
        exact ⟨_, _, this, hf.1, hf.2.2.2.2⟩
      | error e t =>
        rw [hp] at hf
        have : selDraw env half ninety pb n s = .error e t := by
          simp [selDraw, bind_apply, hkind, h, liftE, hp]
        exact ⟨_, _, this, hf.1, hf.2.2.2.2⟩
  case upper =>
    rcases hc with h | h
    · have : selDraw env half ninety pb n s = .error .unboundLocal s := by
        simp [selDraw, bind_apply, hkind, h, liftE]
      exact ⟨_, _, this, rfl, rfl⟩
    · have hf := selParam_frame (declBoundary : ParamDecl F) "boundary" s
      cases hp : selParam (declBoundary : ParamDecl F) "boundary" s with
      | ok v t =>
        rw [hp] at hf
        have : selDraw env half ninety pb n s = .error .type t := by
          simp [selDraw, bind_apply, hkind, h, liftE, hp, needArray]
        exact ⟨_, _, this, hf.1, hf.2.2.2.2⟩
      | error e t =>
        rw [hp] at hf
        have : selDraw env half ninety pb n s = .error e t := by
          simp [selDraw, bind_apply, hkind, h, liftE, hp]
        exact ⟨_, _, this, hf.1, hf.2.2.2.2⟩
  case soft =>
    rcases hc with h | h
    · have : selDraw env half ninety pb n s = .error .unboundLocal s := by
        simp [selDraw, bind_apply, hkind, h, liftE]
      exact ⟨_, _, this, rfl, rfl⟩
    · have hf := selParam_frame (declStrength : ParamDecl F) "strength" s
      cases hp : selParam (declStrength : ParamDecl F) "strength" s with
      | ok v t =>
        rw [hp] at hf
        have : selDraw env half ninety pb n s = .error .type t := by
          simp [selDraw, bind_apply, hkind, h, liftE, hp, needArray]
        exact ⟨_, _, this, hf.1, hf.2.2.2.2⟩
      | error e t =>
        rw [hp] at hf
        have : selDraw env half ninety pb n s = .error e t := by
          simp [selDraw, bind_apply, hkind, h, liftE, hp]
        exact ⟨_, _, this, hf.1, hf.2.2.2.2⟩

/-! ### C05 -/

/-- **C05 (LowerBound, HardFluxSelection).** Whatever size is passed, drawing
selects exactly the values `>= boundary`. -/
theorem C05_lower (s : SelSt F G) (n : Nat) (vs : List F) (b : F)
    (hk : s.sel.kind = .lower) (hs : source s.sel.data = some (some vs))
    (hb : outcome (paramGet (declBoundary : ParamDecl F) "boundary" s.sel.params) = .ok b) :
    ∃ s' m, selDraw env half ninety pb n s = .ok () s' ∧ s'.sel.selection = some m ∧
      SelectsExactly m vs (fun v => b ≤ v) ∧ s'.rng = s.rng := by
  have hc : chosenValues s.sel.data = .ok (some vs) := by rw [C06_source, hs]
  obtain ⟨o, ho, _⟩ := selParam_ok _ _ s b hb
  refine ⟨{ s with sel := { s.sel with params := o, selection := some (geMask vs b) } }, geMask vs b,
    by simp [selDraw, bind_apply, hk, hc, liftE, ho, needArray],
    rfl, ⟨by simp, ?_⟩, rfl⟩
  intro i h1 h2
  simp [geMask]

/-- **C05 (UpperBound).** -/
theorem C05_upper (s : SelSt F G) (n : Nat) (vs : List F) (b : F)
    (hk : s.sel.kind = .upper) (hs : source s.sel.data = some (some vs))
    (hb : outcome (paramGet (declBoundary : ParamDecl F) "boundary" s.sel.params) = .ok b) :
    ∃ s' m, selDraw env half ninety pb n s = .ok () s' ∧ s'.sel.selection = some m ∧
      SelectsExactly m vs (fun v => v ≤ b) ∧ s'.rng = s.rng := by
  have hc : chosenValues s.sel.data = .ok (some vs) := by rw [C06_source, hs]
  obtain ⟨o, ho, _⟩ := selParam_ok _ _ s b hb
  refine ⟨{ s with sel := { s.sel with params := o, selection := some (leMask vs b) } }, leMask vs b,
    by simp [selDraw, bind_apply, hk, hc, liftE, ho, needArray],
    rfl, ⟨by simp, ?_⟩, rfl⟩
  intro i h1 h2
  simp [leMask]

/-- **C05 (BoxSelection).** Both bounds inclusive. -/
theorem C05_box (s : SelSt F G) (n : Nat) (vs : List F) (lo hi : F)
    (hk : s.sel.kind = .box) (hs : source s.sel.data = some (some vs))
    (hlo : outcome (paramGet (declBox : ParamDecl F) "vmin" s.sel.params) = .ok lo)
    (hhi : outcome (paramGet (declBox : ParamDecl F) "vmax" s.sel.params) = .ok hi) :
    ∃ s' m, selDraw env half ninety pb n s = .ok () s' ∧ s'.sel.selection = some m ∧
      SelectsExactly m vs (fun v => lo ≤ v ∧ v ≤ hi) ∧ s'.rng = s.rng := by
  have hc : chosenValues s.sel.data = .ok (some vs) := by rw [C06_source, hs]
  obtain ⟨o, ho, hpo⟩ := selParam_ok _ _ s lo hlo
  have hhi' : outcome (paramGet (declBox : ParamDecl F) "vmax" o) = .ok hi := by
    rw [outcome_paramGet_after hpo (fun h => absurd h (by decide)), hhi]
  obtain ⟨o2, ho2, _⟩ := selParam_ok (declBox : ParamDecl F) "vmax"
    { s with sel := { s.sel with params := o } } hi hhi'
  simp only [hk] at ho2
  refine ⟨{ s with sel := { s.sel with
      params := o2, selection := some (andMask (geMask vs lo) (leMask vs hi)) } },
    andMask (geMask vs lo) (leMask vs hi),
    by simp [selDraw, bind_apply, hk, hc, liftE, ho, needArray, ho2],
    rfl, ⟨by simp, ?_⟩, rfl⟩
  intro i h1 h2
  simp [andMask, geMask, leMask]

/-- **C05 (missing boundary).** Without a boundary the hard selectors refuse to
draw with `AssertionError` rather than selecting something. -/
theorem C05_unset_boundary (s : SelSt F G) (n : Nat) (vs : List F)
    (hk : s.sel.kind = .lower ∨ s.sel.kind = .upper)
    (hs : source s.sel.data = some (some vs))
    (hb : (s.sel.params.storage.get? "boundary").join = none) :
    outcome (selDraw env half ninety pb n s) = .error .assertion := by
  have hc : chosenValues s.sel.data = .ok (some vs) := by rw [C06_source, hs]
  have hp : outcome (paramGet (declBoundary : ParamDecl F) "boundary" s.sel.params)
      = .error .assertion := by
    rw [outcome_paramGet, hb]; rfl
  rw [outcome_error_iff] at hp
  obtain ⟨o, ho⟩ := hp
  rcases hk with hk | hk <;>
    simp [selDraw, bind_apply, hk, hc, liftE, selParam_apply, ho, outcome]

/-- **C05 (Box = Lower and Upper).** -/
theorem C05_box_is_conjunction (vs : List F) (lo hi : F) (m ml mu : List Bool)
    (h : SelectsExactly m vs (fun v => lo ≤ v ∧ v ≤ hi))
    (hl : SelectsExactly ml vs (fun v => lo ≤ v))
    (hu : SelectsExactly mu vs (fun v => v ≤ hi)) :
    m = List.zipWith (· && ·) ml mu := by
  obtain ⟨h0, h1⟩ := h
  obtain ⟨l0, l1⟩ := hl
  obtain ⟨u0, u1⟩ := hu
  apply List.ext_getElem
  · simp; omega
  · intro i i1 i2
    have a := h1 i i1 (by omega)
    have b := l1 i (by omega) (by omega)
    have c := u1 i (by omega) (by omega)
    rw [List.getElem_zipWith, Bool.eq_iff_iff, Bool.and_eq_true, a, b, c]

/-! ### C07 -/

/-- **C07.** Adding two drawn selections of equal length selects exactly the
objects both select. -/
theorem C07_add (a b : Selector F G) (ma mb : List Bool)
    (ha : a.selection = some ma) (hb : b.selection = some mb)
    (hl : ma.length = mb.length) :
    ∃ c mc, a.add b = .ok c ∧ c.selection = some mc ∧ mc.length = ma.length ∧
      ∀ i, Selects mc i ↔ Selects ma i ∧ Selects mb i := by
  refine ⟨{ kind := .dummy, cls := "DummySelection", name := "dummy",
            selection := some (List.zipWith (· && ·) ma mb) }, _, ?_, rfl, ?_, ?_⟩
  · unfold Selector.add Selector.mask
    rw [hb, ha]
    simp only [bind, Except.bind]
    rw [logicalAnd_of_length hl]
    rfl
  · simp [hl]
  · intro i
    simp only [Selects, List.getElem?_zipWith]
    by_cases hi : i < ma.length
    · rw [List.getElem?_eq_getElem hi, List.getElem?_eq_getElem (by omega)]
      simp
    · rw [List.getElem?_eq_none (by omega), List.getElem?_eq_none (by omega)]
      simp

/-- The running sum `g + s1 + s2 + …` as used by `draw_survey`. -/
def addAll (g : Selector F G) : List (Selector F G) → Except Err (Selector F G)
  | [] => .ok g
  | s :: ss => do
    let g' ← g.add s
    addAll g' ss

/-- **C07 (any number of selections).** The sum of any list of drawn selections
of common length selects exactly the objects that all of them select.
The right-hand side does not mention order, grouping or multiplicity. -/
theorem C07_addAll (n : Nat) (l : List (Selector F G)) (g : Selector F G) (mg : List Bool)
    (hg : g.selection = some mg) (hgl : mg.length = n)
    (hl : ∀ s ∈ l, ∃ m, s.selection = some m ∧ m.length = n) :
    ∃ c mc, addAll g l = .ok c ∧ c.selection = some mc ∧ mc.length = n ∧
      ∀ i, Selects mc i ↔
        Selects mg i ∧ ∀ s ∈ l, ∀ m, s.selection = some m → Selects m i := by
  induction l generalizing g mg with
  | nil => exact ⟨g, mg, rfl, hg, hgl, by simp⟩
  | cons s ss ih =>
    obtain ⟨ms, hms, hmsl⟩ := hl s (by simp)
    obtain ⟨c, mc, h1, h2, h3, h4⟩ := C07_add g s mg ms hg hms (by omega)
    obtain ⟨c', mc', k1, k2, k3, k4⟩ :=
      ih c mc h2 (by omega) (fun t ht => hl t (by simp [ht]))
    refine ⟨c', mc', by simp [addAll, h1, bind, Except.bind, k1], k2, k3, ?_⟩
    intro i
    rw [k4, h4]
    constructor
    · rintro ⟨⟨p, q⟩, r⟩
      refine ⟨p, ?_⟩
      intro t ht m hm
      rcases List.mem_cons.1 ht with rfl | ht
      · rw [hms] at hm; cases hm; exact q
      · exact r t ht m hm
    · rintro ⟨p, q⟩
      exact ⟨⟨p, q s (by simp) ms hms⟩, fun t ht m hm => q t (by simp [ht]) m hm⟩

/-- **C07 (order, grouping, repetition).** Two lists containing the same
selections give the same mask. -/
theorem C07_order_irrelevant (n : Nat) (l l' : List (Selector F G)) (g : Selector F G)
    (mg : List Bool) (hg : g.selection = some mg) (hgl : mg.length = n)
    (hl : ∀ s ∈ l, ∃ m, s.selection = some m ∧ m.length = n)
    (hmem : ∀ s, s ∈ l ↔ s ∈ l') :
    ∃ c c' m, addAll g l = .ok c ∧ addAll g l' = .ok c' ∧
      c.selection = some m ∧ c'.selection = some m := by
  obtain ⟨c, mc, h1, h2, h3, h4⟩ := C07_addAll n l g mg hg hgl hl
  obtain ⟨c', mc', k1, k2, k3, k4⟩ := C07_addAll n l' g mg hg hgl
    (fun s hs => hl s ((hmem s).2 hs))
  have : mc = mc' := by
    apply List.ext_getElem (by omega)
    intro i i1 i2
    have e : Selects mc i ↔ Selects mc' i := by
      rw [h4, k4]
      constructor
      · rintro ⟨p, q⟩; exact ⟨p, fun s hs => q s ((hmem s).2 hs)⟩
      · rintro ⟨p, q⟩; exact ⟨p, fun s hs => q s ((hmem s).1 hs)⟩
    simp only [Selects, List.getElem?_eq_getElem i1, List.getElem?_eq_getElem i2,
      Option.some.injEq] at e
    exact Bool.eq_iff_iff.2 e
  subst this
  exact ⟨c, c', mc, h1, k1, h2, k2⟩

/-- **C07 (unity is neutral).** Adding a drawn `UnitySelection` of the same
length changes nothing. -/
theorem C07_unity_neutral (a u : Selector F G) (ma : List Bool)
    (ha : a.selection = some ma) (hu : u.selection = some (List.replicate ma.length true)) :
    ∃ c, a.add u = .ok c ∧ c.selection = some ma := by
  obtain ⟨c, mc, h1, h2, h3, h4⟩ := C07_add a u ma _ ha hu (by simp)
  refine ⟨c, h1, ?_⟩
  rw [h2]
  congr 1
  apply List.ext_getElem h3
  intro i i1 i2
  have := h4 i
  simp only [Selects, List.getElem?_eq_getElem i1, List.getElem?_eq_getElem i2,
    List.getElem?_replicate, i2, if_true, and_true, Option.some.injEq] at this
  exact Bool.eq_iff_iff.2 this

/-- **C07 (mismatch).** Masks of different lengths, neither of length one,
cannot be combined: `ValueError`. -/
theorem C07_length_mismatch (a b : Selector F G) (ma mb : List Bool)
    (ha : a.selection = some ma) (hb : b.selection = some mb)
    (hl : ma.length ≠ mb.length) (h1 : ma.length ≠ 1) (h2 : mb.length ≠ 1) :
    a.add b = .error .value := by
  unfold Selector.add Selector.mask
  rw [hb, ha]
  simp [bind, Except.bind, logicalAnd, hl, h1, h2]

/-- **C07 (undrawn operand).** Adding a selection that was never drawn raises
`RuntimeError`. -/
theorem C07_undrawn (a b : Selector F G) (hb : b.selection = none) :
    a.add b = .error .runtime := by
  unfold Selector.add Selector.mask
  rw [hb]; rfl

/-! ### C08 -/

/-- **C08 (kept).** Once a selector has been selected, any history without
`reset` – whatever sizes and data are supplied – keeps its mask and consumes no
random numbers. -/
theorem C08_mask_kept_until_reset (s : SelSt F G) (ops : List (SelOp F)) (m : List Bool)
    (hs : s.sel.isSampled = true) (hm : s.sel.selection = some m)
    (hops : SelOp.reset ∉ ops) :
    (selRun env half ninety pb s ops).sel.selection = some m ∧
    (selRun env half ninety pb s ops).sel.isSampled = true ∧
    (selRun env half ninety pb s ops).rng = s.rng := by
  induction ops generalizing s with
  | nil => exact ⟨hm, hs, rfl⟩
  | cons op ops ih =>
    have hstep : (selStep env half ninety pb s op).sel.isSampled = true ∧
        (selStep env half ninety pb s op).sel.selection = some m ∧
        (selStep env half ninety pb s op).rng = s.rng := by
      cases op with
      | select n =>
        simp [selStep, selSelect_apply, hs, hm, endState]
      | reset => exact absurd (List.mem_cons_self ..) hops
      | _ => exact ⟨hs, hm, rfl⟩
    obtain ⟨a, b, c⟩ := hstep
    have := ih (selStep env half ninety pb s op) a b
      (fun h => hops (List.mem_cons_of_mem _ h))
    simpa only [selRun, List.foldl_cons, c] using this

/-- **C08 (first select draws).** Selecting a selector that is not marked as
sampled runs `draw` on the data it currently holds; if that produces a mask the
selector is marked as sampled with exactly that mask. -/
theorem C08_first_select_draws (s s1 : SelSt F G) (n : Nat) (m : List Bool)
    (hs : s.sel.isSampled = false)
    (hd : selDraw env half ninety pb n s = .ok () s1) (hm : s1.sel.selection = some m) :
    selSelect env half ninety pb n s =
      .ok () { s1 with sel := { s1.sel with isSampled := true } } := by
  simp [selSelect_apply, hs, hd, hm]

/-- **C08 (failed draw).** If `draw` raises, so does `select`, and the selector
is not marked as sampled (so a later `select` draws again). -/
theorem C08_failed_draw (s s1 : SelSt F G) (n : Nat) (e : Err)
    (hs : s.sel.isSampled = false)
    (hd : selDraw env half ninety pb n s = .error e s1) :
    outcome (selSelect env half ninety pb n s) = .error e ∧
      (endState (selSelect env half ninety pb n s)).sel.isSampled = false := by
  have hf := (selDraw_keeps env half ninety pb n s).2.2.2.2
  rw [hd, hs] at hf
  simp only [endState] at hf
  simp [selSelect_apply, hs, hd, outcome, endState, hf]

/-- **C08 (reset).** Resetting a sampled selector drops the mask and the mark;
reading the selection then raises `RuntimeError`. -/
theorem C08_reset (s : Selector F G) (hs : s.isSampled = true) :
    s.reset.isSampled = false ∧ s.reset.selection = none ∧
      s.reset.mask = .error .runtime ∧ s.reset.data = s.data ∧ s.reset.params = s.params ∧
      s.reset.kind = s.kind := by
  simp [Selector.reset, hs, Selector.mask]

/-- **C08 (undrawn).** Reading the selection of a selector without mask raises
`RuntimeError`; with a mask it returns it. -/
theorem C08_read (s : Selector F G) :
    s.mask = match s.selection with
      | none => .error .runtime
      | some m => .ok m := by
  unfold Selector.mask; cases s.selection <;> rfl

/-- **C08 (mark implies mask).** For every history of operations, a selector
that is marked as sampled has a mask. -/
theorem C08_sampled_has_mask (s : SelSt F G) (ops : List (SelOp F))
    (h0 : s.sel.isSampled = true → s.sel.selection ≠ none) :
    (selRun env half ninety pb s ops).sel.isSampled = true →
      (selRun env half ninety pb s ops).sel.selection ≠ none := by
  induction ops generalizing s with
  | nil => exact h0
  | cons op ops ih =>
    have : (selStep env half ninety pb s op).sel.isSampled = true →
        (selStep env half ninety pb s op).sel.selection ≠ none := by
      cases op with
      | select n =>
        simp only [selStep, selSelect_apply]
        cases hs : s.sel.isSampled with
        | true =>
          cases hm : s.sel.selection with
          | none => exact absurd hm (h0 hs)
          | some m => simp [hm, endState]
        | false =>
          have hd := (selDraw_keeps env half ninety pb n s).2.2.2.2
          cases hr : selDraw env half ninety pb n s with
          | ok u t =>
            rw [hr] at hd
            simp only [endState] at hd
            cases hm : t.sel.selection with
            | none => simp [hm, endState, hd, hs]
            | some m => simp [hm, endState]
          | error e t =>
            rw [hr] at hd
            simp only [endState] at hd
            simp [endState, hd, hs]
      | reset =>
        simp only [selStep, Selector.reset]
        split
        · simp
        · rename_i hns; intro h; exact absurd h hns
      | _ => exact h0
    simpa [selRun] using ih (selStep env half ninety pb s op) this

/-! ### C09 -/

/-- **C09.** Index lists are strictly increasing, contain exactly the selected
(non-selected) positions, partition `0 … n-1`, and the counts are their
lengths. -/
theorem C09_index_partition (m : List Bool) :
    (selectionIndex m).Pairwise (· < ·) ∧ (nonSelectionIndex m).Pairwise (· < ·) ∧
    (∀ i, i ∈ selectionIndex m ↔ m[i]? = some true) ∧
    (∀ i, i ∈ nonSelectionIndex m ↔ m[i]? = some false) ∧
    (∀ i, (i ∈ selectionIndex m ∨ i ∈ nonSelectionIndex m) ↔ i < m.length) ∧
    (∀ i, ¬ (i ∈ selectionIndex m ∧ i ∈ nonSelectionIndex m)) ∧
    (selectionIndex m).length = nSelected m ∧
    (nonSelectionIndex m).length = nNonSelected m ∧
    nSelected m + nNonSelected m = nObjects m ∧ nObjects m = m.length := by
  have h1 : ∀ i, i ∈ selectionIndex m ↔ m[i]? = some true := by
    intro i; simp [selectionIndex, mem_whereFrom]
  have h2 : ∀ i, i ∈ nonSelectionIndex m ↔ m[i]? = some false := by
    intro i
    simp only [nonSelectionIndex, mem_whereFrom, notMask, Nat.zero_le, true_and, Nat.sub_zero,
      List.getElem?_map]
    cases m[i]? with
    | none => simp
    | some b => cases b <;> simp
  refine ⟨pairwise_whereFrom 0 m, pairwise_whereFrom 0 _, h1, h2, ?_, ?_,
    length_whereFrom 0 m, length_whereFrom 0 _, countTrue_add_not m, rfl⟩
  · intro i
    rw [h1, h2]
    by_cases hi : i < m.length
    · rw [List.getElem?_eq_getElem hi]
      cases m[i] <;> simp [hi]
    · rw [List.getElem?_eq_none (by omega)]; simp [hi]
  · intro i
    rw [h1, h2]
    rintro ⟨a, b⟩
    rw [a] at b; simp at b

/-- **C09 (counting).** `n_selected` is the number of positions holding `True`. -/
theorem C09_nSelected_counts (m : List Bool) :
    nSelected m = m.count true ∧ nNonSelected m = m.count false := by
  have key : ∀ l : List Bool, nSelected l = l.count true := by
    intro l
    induction l with
    | nil => rfl
    | cons b l ih =>
      have := countTrue_cons b l
      simp only [nSelected] at *
      rw [this, ih]; cases b <;> simp [Nat.add_comm]
  refine ⟨key m, ?_⟩
  have h := countTrue_add_not m
  have h2 := key m
  have h3 : m.count true + m.count false = m.length := by
    clear h h2
    induction m with
    | nil => rfl
    | cons b l ih => cases b <;> simp <;> omega
  simp only [nSelected, nNonSelected] at *
  omega

/-! ### C10 (discrete part) -/

/-- **C10 (DistanceSelection).** Keeps exactly the objects with
`min_distance <= d <= max_distance`. -/
theorem C10_distance (s : SelSt F G) (n : Nat) (sp : SpatialView F) (lo hi : F)
    (hk : s.sel.kind = .distance) (hs : s.sel.data.spatial = some sp)
    (hlo : outcome (paramGet (declDistance : ParamDecl F) "min_distance" s.sel.params) = .ok lo)
    (hhi : outcome (paramGet (declDistance : ParamDecl F) "max_distance" s.sel.params) = .ok hi) :
    ∃ s' m, selDraw env half ninety pb n s = .ok () s' ∧ s'.sel.selection = some m ∧
      SelectsExactly m sp.distances (fun v => lo ≤ v ∧ v ≤ hi) ∧ s'.rng = s.rng := by
  obtain ⟨o, ho, hpo⟩ := selParam_ok _ _ s lo hlo
  have hhi' : outcome (paramGet (declDistance : ParamDecl F) "max_distance" o) = .ok hi := by
    rw [outcome_paramGet_after hpo (fun h => absurd h (by decide)), hhi]
  obtain ⟨o2, ho2, _⟩ := selParam_ok (declDistance : ParamDecl F) "max_distance"
    { s with sel := { s.sel with params := o } } hi hhi'
  simp only [hk] at ho2
  refine ⟨{ s with sel := { s.sel with
      params := o2, selection := some (andMask (geMask sp.distances lo) (leMask sp.distances hi)) } },
    andMask (geMask sp.distances lo) (leMask sp.distances hi),
    by simp [selDraw, bind_apply, hk, hs, ho, ho2],
    rfl, ⟨by simp, ?_⟩, rfl⟩
  intro i h1 h2
  simp [andMask, geMask, leMask]

/-- **C10 (GalacticPlaneSelection, any number type).** Keeps exactly the objects
with `b >= b_limit` or `b <= -b_limit`; see `C10_galactic_abs` for `|b|`. -/
theorem C10_galactic (s : SelSt F G) (n : Nat) (sp : SpatialView F) (l : F)
    (hk : s.sel.kind = .galactic) (hs : s.sel.data.spatial = some sp)
    (hl : outcome (paramGet (declBLimit ninety : ParamDecl F) "b_limit" s.sel.params) = .ok l) :
    ∃ s' m, selDraw env half ninety pb n s = .ok () s' ∧ s'.sel.selection = some m ∧
      SelectsExactly m sp.galB (fun v => l ≤ v ∨ v ≤ env.neg l) ∧ s'.rng = s.rng := by
  obtain ⟨o, ho, hpo⟩ := selParam_ok _ _ s l hl
  have hl' : outcome (paramGet (declBLimit ninety : ParamDecl F) "b_limit" o) = .ok l := by
    rw [outcome_paramGet_after hpo (fun _ => rfl), hl]
  obtain ⟨o2, ho2, _⟩ := selParam_ok (declBLimit ninety : ParamDecl F) "b_limit"
    { s with sel := { s.sel with params := o } } l hl'
  simp only [hk] at ho2
  refine ⟨{ s with sel := { s.sel with
      params := o2, selection := some (orMask (geMask sp.galB l) (leMask sp.galB (env.neg l))) } },
    orMask (geMask sp.galB l) (leMask sp.galB (env.neg l)),
    by simp [selDraw, bind_apply, hk, hs, ho, ho2],
    rfl, ⟨by simp, ?_⟩, rfl⟩
  intro i h1 h2
  simp [orMask, geMask, leMask]

/-- **C10 (no distribution).** Without a spatial distribution the spatial
selections cannot draw. -/
theorem C10_needs_distribution (s : SelSt F G) (n : Nat)
    (hk : s.sel.kind.isSpatial = true) (hs : s.sel.data.spatial = none) :
    selDraw env half ninety pb n s = .error .attribute s := by
  cases hkind : s.sel.kind <;> rw [hkind] at hk <;> simp [SelKind.isSpatial] at hk <;>
    simp [selDraw, bind_apply, hkind, hs]

/-! ### C11 (discrete part) -/

/-- **C11 (progress bars).** For the same selector and random state, drawing a
`BernoulliSelection` gives the same mask and leaves the same random state with
progress bars on and off. -/
theorem C11_bernoulli_progress_irrelevant (s : SelSt F G) (n : Nat) (p : F)
    (hk : s.sel.kind = .bernoulli)
    (hp : outcome (paramGet (declProb half : ParamDecl F) "probability" s.sel.params) = .ok p)
    (hv : env.validProb p = true) :
    ∃ s1 s2 m, selDraw env half ninety true n s = .ok () s1 ∧
      selDraw env half ninety false n s = .ok () s2 ∧
      s1.sel.selection = some m ∧ s2.sel.selection = some m ∧
      s1.rng = s2.rng ∧ m.length = n := by
  obtain ⟨o, ho, hpo⟩ := selParam_ok _ _ s p hp
  have hloop := bernLoop_eq env p n 0 [] s.rng rfl
  simp only [List.nil_append, Nat.zero_add, List.map_id_fun', id_eq] at hloop
  have hoff : selDraw env half ninety false n s = .ok ()
      { sel := { s.sel with params := o,
                            selection := some (bernMany env (List.replicate n p) s.rng).1 },
        rng := (bernMany env (List.replicate n p) s.rng).2 } := by
    simp [selDraw, bind_apply, hk, ho, hv]
  by_cases hn : n = 0
  · subst hn
    refine ⟨{ s with sel := { s.sel with selection := some [] } }, _, [], ?_, hoff, rfl, ?_, ?_, rfl⟩
    · simp [selDraw, bind_apply, hk]
    · simp [bernMany]
    · simp [bernMany]
  · have ho' := selParam_ok (declProb half : ParamDecl F) "probability"
      { s with sel := { s.sel with selection := some (List.replicate n false) } } p hp
    obtain ⟨o', ho', hpo'⟩ := ho'
    simp only [hk] at ho'
    refine ⟨{ sel := { s.sel with params := o',
                                  selection := some (bernMany env (List.replicate n p) s.rng).1 },
              rng := (bernMany env (List.replicate n p) s.rng).2 }, _, _, ?_, hoff, rfl, rfl, rfl, ?_⟩
    · simp [selDraw, bind_apply, hk, hn, ho', hv, hloop]
    · rw [length_bernMany]; simp

/-- **C11 (mask length and extreme probabilities).** The Bernoulli mask has one
entry per object; if a draw with probability `p` always fails (always succeeds)
– which scipy guarantees for `p = 0` (`p = 1`) – nothing (everything) is
selected. -/
theorem C11_bernoulli_extremes (n : Nat) (p : F) (g : G) :
    (bernMany env (List.replicate n p) g).1.length = n ∧
    ((∀ g, (env.bern p g).1 = false) →
      (bernMany env (List.replicate n p) g).1 = List.replicate n false) ∧
    ((∀ g, (env.bern p g).1 = true) →
      (bernMany env (List.replicate n p) g).1 = List.replicate n true) := by
  refine ⟨by rw [length_bernMany]; simp, ?_, ?_⟩
  · intro h
    induction n generalizing g with
    | zero => rfl
    | succ n ih => simp [List.replicate_succ, bernMany, h, ih]
  · intro h
    induction n generalizing g with
    | zero => rfl
    | succ n ih => simp [List.replicate_succ, bernMany, h, ih]

/-- **C11 (soft selection draws one trial per value).** The probabilities handed
to the Bernoulli generator are the logistic values of the selected quantity, in
order; an invalid probability (NaN) makes the draw fail instead of selecting. -/
theorem C11_soft_draw (s : SelSt F G) (n : Nat) (vs : List F) (k b : F)
    (hk : s.sel.kind = .soft) (hs : source s.sel.data = some (some vs))
    (hst : outcome (paramGet (declStrength : ParamDecl F) "strength" s.sel.params) = .ok k)
    (hb : outcome (paramGet (declBoundary : ParamDecl F) "boundary" s.sel.params) = .ok b) :
    ((∀ v ∈ vs, env.validProb (env.softLog k b v) = true) →
      ∃ s', selDraw env half ninety pb n s = .ok () s' ∧
        s'.sel.selection = some (bernMany env (vs.map (env.softLog k b)) s.rng).1 ∧
        s'.rng = (bernMany env (vs.map (env.softLog k b)) s.rng).2) ∧
    ((∃ v ∈ vs, env.validProb (env.softLog k b v) = false) →
      outcome (selDraw env half ninety pb n s) = .error .value) := by
  have hc : chosenValues s.sel.data = .ok (some vs) := by rw [C06_source, hs]
  obtain ⟨o, ho, hpo⟩ := selParam_ok _ _ s k hst
  have hb' : outcome (paramGet (declBoundary : ParamDecl F) "boundary" o) = .ok b := by
    rw [outcome_paramGet_after hpo (fun h => absurd h (by decide)), hb]
  obtain ⟨o2, ho2, _⟩ := selParam_ok (declBoundary : ParamDecl F) "boundary"
    { s with sel := { s.sel with params := o } } b hb'
  simp only [hk] at ho2
  constructor
  · intro hv
    have hall : (vs.map (env.softLog k b)).all env.validProb = true := by
      simpa [List.all_eq_true] using hv
    refine ⟨{ sel := { s.sel with
                params := o2, selection := some (bernMany env (vs.map (env.softLog k b)) s.rng).1 },
              rng := (bernMany env (vs.map (env.softLog k b)) s.rng).2 }, ?_, rfl, rfl⟩
    simp only [selDraw, bind_apply, get_apply, hk, hc, liftE, pure_apply, ho, needArray, ho2, hall,
      if_true, setMask_apply, modify_apply]
  · rintro ⟨v, hv, hf⟩
    have hall : (vs.map (env.softLog k b)).all env.validProb = false := by
      rw [List.all_eq_false]
      exact ⟨env.softLog k b v, List.mem_map.2 ⟨v, hv, rfl⟩, by simp [hf]⟩
    simp only [selDraw, bind_apply, get_apply, hk, hc, liftE, pure_apply, ho, needArray, ho2, hall,
        outcome, raise_apply, Bool.false_eq_true, if_false]

/-! ### Concrete cases meeting the hypotheses -/

section examples

/-- A toy environment over the integers: random state = a list of coin flips. -/
def toyEnv : SelEnv Int (List Bool) where
  bern _ g := (g.headD false, g.tail)
  validProb p := decide (0 ≤ p ∧ p ≤ 1)
  softLog k b v := if k * (v - b) ≥ 0 then 1 else 0
  softLin k b v := if k * (v - b) ≥ 0 then 1 else 0
  neg := fun x => -x

/-- A `LowerBound` on the luminosity although a distance flag is set too. -/
def toyLower : SelSt Int (List Bool) :=
  { sel := { kind := .lower, params := { storage := [("boundary", some 3)] },
             data := { useLuminosity := true, useDistance := true,
                       luminosity := some [5, 3, 2], distance := some [0, 0, 0] } },
    rng := [true] }

-- C05/C06: hypotheses hold, the boundary value itself is selected
example : source toyLower.sel.data = some (some [5, 3, 2]) := by decide
example : outcome (paramGet (declBoundary : ParamDecl Int) "boundary" toyLower.sel.params) = .ok 3 := by
  decide
example : (endState (selDraw toyEnv 0 90 false 3 toyLower)).sel.selection
    = some [true, true, false] := by decide

/-- A `BoxSelection` on the observed value. -/
def toyBox : SelSt Int (List Bool) :=
  { sel := { kind := .box, params := { storage := [("vmin", some 2), ("vmax", some 4)] },
             data := { useObs := true, obsValue := some [1, 2, 3, 4, 5] } },
    rng := [] }
example : (endState (selDraw toyEnv 0 90 false 5 toyBox)).sel.selection
    = some [false, true, true, true, false] := by decide

-- C06: no flag, or flagged quantity missing
example : outcome (selDraw toyEnv 0 90 false 3 { toyLower with sel := { toyLower.sel with data := {} } })
    = .error .unboundLocal := by decide
example : outcome (selDraw toyEnv 0 90 false 3
    { toyLower with sel := { toyLower.sel with data := { useFlux := true } } })
    = .error .type := by decide

-- C08: select, new data, select again: mask kept; reset, select: redrawn
example : (selRun toyEnv 0 90 false toyLower
    [.select 3, .setLuminosity [1, 1, 9], .select 3]).sel.selection
    = some [true, true, false] := by decide
example : (selRun toyEnv 0 90 false toyLower
    [.select 3, .setLuminosity [1, 1, 9], .reset, .select 3]).sel.selection
    = some [false, false, true] := by decide

-- C07
example : (({ kind := .dummy, selection := some [true, true, false] } : Selector Int Unit).add
    { kind := .dummy, selection := some [true, false, false] }).map (·.selection)
    = .ok (some [true, false, false]) := rfl

-- C09
example : selectionIndex [true, false, true] = [0, 2] ∧ nonSelectionIndex [true, false, true] = [1] := by
  decide

-- C10
def toySpatial (k : SelKind Int (List Bool)) (st : Dict (Option Int)) : SelSt Int (List Bool) :=
  { sel := { kind := k, params := { storage := st },
             data := { spatial := some { distances := [0, 2, 7], galB := [-30, 5, 20] } } },
    rng := [] }
example : (endState (selDraw toyEnv 0 90 false 3
    (toySpatial .distance [("min_distance", some 0), ("max_distance", some 2)]))).sel.selection
    = some [true, true, false] := by decide
example : (endState (selDraw toyEnv 0 90 false 3
    (toySpatial .galactic [("b_limit", some 20)]))).sel.selection
    = some [true, false, true] := by decide

-- C11: same mask and same remaining randomness with and without progress bar
def toyBern : SelSt Int (List Bool) :=
  { sel := { kind := .bernoulli }, rng := [true, false, true, true] }
example : (endState (selDraw toyEnv 1 90 true 3 toyBern)).sel.selection = some [true, false, true] ∧
    (endState (selDraw toyEnv 1 90 false 3 toyBern)).sel.selection = some [true, false, true] ∧
    (endState (selDraw toyEnv 1 90 true 3 toyBern)).rng = [true] := by decide

end examples

end Popsynth
