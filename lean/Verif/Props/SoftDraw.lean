import Verif.Model.SoftDraw
import Verif.Props.SelectionReal

/-!
# C105: soft selections with and without logarithm
-/

set_option autoImplicit false
set_option linter.unusedSectionVars false

namespace Popsynth
open Spec

section any

variable {F G : Type} [LE F] [DecidableLE F] [OfNat F 0] [OfNat F 1]
  (env : SelEnv F G) (half ninety : F) (pb : Bool)

/-- What a soft selection needs: the chosen values, the strength and the boundary. -/
structure Spec.SoftInput (s : SelSt F G) (vs : List F) (k b : F) : Prop where
  values : source s.sel.data = some (some vs)
  strength : outcome (paramGet (declStrength : ParamDecl F) "strength" s.sel.params) = .ok k
  boundary : outcome (paramGet (declBoundary : ParamDecl F) "boundary" s.sel.params) = .ok b

/-- **C105** (default): with `use_log=True` this is the draw of all other theorems about soft selections,
whatever the state, also when it fails. -/
theorem C105_default (s : SelSt F G) (n : Nat) (hk : s.sel.kind = .soft) :
    softDraw env true s = selDraw env half ninety pb n s := by
  simp only [softDraw, softMask, selDraw, bind_apply, get_apply, hk, if_true]

/-- One trial after the other: the trial `i` has the probability `ps[i]`, the answer `bs[i]` and starts from
the random numbers the one before has left. -/
def Spec.Trials (bern : F → G → Bool × G) (ps : List F) (g : G) (bs : List Bool) (g' : G) : Prop :=
  bs.length = ps.length ∧ ∃ h : Nat → G, h 0 = g ∧ h ps.length = g' ∧
    ∀ i p b, ps[i]? = some p → bs[i]? = some b → bern p (h i) = (b, h (i + 1))

/-- **C11** (trials): what all theorems about random selections call the trials of a list of
probabilities is one trial per probability, in order. -/
theorem C11_trials (ps : List F) (g : G) (bs : List Bool) (g' : G) :
    bernMany env ps g = (bs, g') ↔ Trials env.bern ps g bs g' := by
  induction ps generalizing g bs with
  | nil =>
    constructor
    · intro e
      cases e
      exact ⟨rfl, fun _ => g', rfl, rfl, fun i p b hp => by simp at hp⟩
    · rintro ⟨hl, h, h0, h1, -⟩
      cases bs with
      | nil => simp only [List.length_nil] at h1; rw [← h1, h0]; rfl
      | cons _ _ => simp at hl
  | cons p ps ih =>
    have step : bernMany env (p :: ps) g =
        ((env.bern p g).1 :: (bernMany env ps (env.bern p g).2).1, (bernMany env ps (env.bern p g).2).2) := rfl
    constructor
    · intro e
      rw [step] at e
      cases e
      obtain ⟨hl, h, h0, h1, hi⟩ := (ih (env.bern p g).2 _).1 rfl
      refine ⟨by simp [hl], fun i => match i with | 0 => g | i + 1 => h i, rfl, h1, ?_⟩
      intro i q b hp hb
      cases i with
      | zero =>
        simp only [List.getElem?_cons_zero, Option.some.injEq] at hp hb
        subst hp hb
        show env.bern p g = (_, h 0)
        rw [h0]
      | succ i => exact hi i q b (by simpa using hp) (by simpa using hb)
    · rintro ⟨hl, h, h0, h1, hi⟩
      cases bs with
      | nil => simp at hl
      | cons b bs =>
        have e0 := hi 0 p b rfl rfl
        rw [h0] at e0
        have := (ih (h 1) bs).2 ⟨by simpa using hl, fun i => h (i + 1), rfl, h1, fun i q c hq hc =>
          hi (i + 1) q c (by simpa using hq) (by simpa using hc)⟩
        rw [step, e0, this]

theorem softDraw_bern (s : SelSt F G) (useLog : Bool) (vs : List F) (k b : F) (h : SoftInput s vs k b) :
    let f := if useLog then env.softLog k b else env.softLin k b
    ((∀ v ∈ vs, env.validProb (f v) = true) → ∃ s', softDraw env useLog s = .ok () s' ∧
      s'.sel.selection = some (bernMany env (vs.map f) s.rng).1 ∧
      s'.rng = (bernMany env (vs.map f) s.rng).2) ∧
    ((∃ v ∈ vs, env.validProb (f v) = false) → ∃ s', softDraw env useLog s = .error .value s' ∧
      s'.sel.selection = s.sel.selection ∧ s'.rng = s.rng) := by
  have hc : chosenValues s.sel.data = .ok (some vs) := by rw [C06_source, h.values]
  obtain ⟨o, ho, hpo⟩ := selParam_ok _ _ s k h.strength
  have hb' : outcome (paramGet (declBoundary : ParamDecl F) "boundary" o) = .ok b := by
    rw [outcome_paramGet_after hpo (fun h => absurd h (by decide)), h.boundary]
  obtain ⟨o2, ho2, _⟩ := selParam_ok (declBoundary : ParamDecl F) "boundary"
    { s with sel := { s.sel with params := o } } b hb'
  have red : ∀ r, softMask env (vs.map (if useLog then env.softLog k b else env.softLin k b))
      { s with sel := { s.sel with params := o2 } } = r → softDraw env useLog s = r := by
    rintro r rfl
    cases useLog <;>
      simp only [softDraw, bind_apply, get_apply, hc, liftE, pure_apply, ho, needArray, ho2, if_true,
        Bool.false_eq_true, if_false]
  intro f
  constructor
  · intro hv
    have hall : (vs.map f).all env.validProb = true := by simpa [List.all_eq_true] using hv
    refine ⟨{ sel := { s.sel with params := o2, selection := some (bernMany env (vs.map f) s.rng).1 },
              rng := (bernMany env (vs.map f) s.rng).2 }, red _ ?_, rfl, rfl⟩
    show softMask env (vs.map f) _ = _
    simp only [softMask, hall, if_true, bind_apply, get_apply, setMask_apply, modify_apply]
  · rintro ⟨v, hv, hf⟩
    have hall : (vs.map f).all env.validProb = false := by
      rw [List.all_eq_false]
      exact ⟨f v, List.mem_map.2 ⟨v, hv, rfl⟩, by simp [hf]⟩
    refine ⟨{ s with sel := { s.sel with params := o2 } }, red _ ?_, rfl, rfl⟩
    show softMask env (vs.map f) _ = _
    simp only [softMask, hall, Bool.false_eq_true, if_false, raise_apply]

/-- **C105** (one trial per value): with either setting there is one trial for every chosen value, in
order, with the logistic probability of the value or of its logarithm; if a probability is not valid the
draw fails and no random numbers are used. -/
theorem C105_draw (s : SelSt F G) (useLog : Bool) (vs : List F) (k b : F) (h : SoftInput s vs k b) :
    let f := if useLog then env.softLog k b else env.softLin k b
    ((∀ v ∈ vs, env.validProb (f v) = true) → ∃ s' bs, softDraw env useLog s = .ok () s' ∧
      s'.sel.selection = some bs ∧ Trials env.bern (vs.map f) s.rng bs s'.rng) ∧
    ((∃ v ∈ vs, env.validProb (f v) = false) → ∃ s', softDraw env useLog s = .error .value s' ∧
      s'.sel.selection = s.sel.selection ∧ s'.rng = s.rng) := by
  intro f
  obtain ⟨h1, h2⟩ := softDraw_bern env s useLog vs k b h
  refine ⟨fun hv => ?_, h2⟩
  obtain ⟨s', e, e1, e2⟩ := h1 hv
  exact ⟨s', _, e, e1, (C11_trials env _ _ _ _).1 (by rw [e2])⟩

/-- **C105** (order of failures): if the values were never provided and no boundary was set, the draw
with logarithm raises `TypeError` for the values and the one without `AssertionError` for the boundary. -/
theorem C105_missing (s : SelSt F G) (k : F) (hs : source s.sel.data = some none)
    (hst : outcome (paramGet (declStrength : ParamDecl F) "strength" s.sel.params) = .ok k)
    (hb : (s.sel.params.storage.get? "boundary").join = none) :
    outcome (softDraw env true s) = .error .type ∧ outcome (softDraw env false s) = .error .assertion := by
  have hc : chosenValues s.sel.data = .ok none := by rw [C06_source, hs]
  obtain ⟨o, ho, hpo⟩ := selParam_ok _ _ s k hst
  have hp : outcome (paramGet (declBoundary : ParamDecl F) "boundary" o) = .error .assertion := by
    rw [outcome_paramGet_after hpo (fun h => absurd h (by decide)), outcome_paramGet, hb]; rfl
  obtain ⟨o2, ho2⟩ := (outcome_error_iff _ _).1 hp
  have hq : selParam (declBoundary : ParamDecl F) "boundary" { s with sel := { s.sel with params := o } } =
      .error .assertion { s with sel := { s.sel with params := o2 } } := by
    rw [selParam_apply, ho2]
  constructor
  · simp only [softDraw, bind_apply, get_apply, hc, liftE, pure_apply, ho, needArray, if_true, outcome, raise_apply]
  · simp only [softDraw, bind_apply, get_apply, hc, liftE, pure_apply, ho, Bool.false_eq_true, if_false, hq, outcome]

/-- **C105** (no values chosen): without a flag the draw fails before anything is read or changed. -/
theorem C105_no_flag (s : SelSt F G) (useLog : Bool) (hs : source s.sel.data = none) :
    softDraw env useLog s = .error .unboundLocal s := by
  have hc : chosenValues s.sel.data = .error .unboundLocal := by rw [C06_source, hs]
  simp only [softDraw, bind_apply, get_apply, hc, liftE, raise_apply]

end any

/-! ### Real numbers -/

section real

variable {G : Type} (bern : ℝ → G → Bool × G)

/-- Two soft selections whose probabilities agree value by value select the same objects and use the same
random numbers. -/
theorem soft_same (s t : SelSt ℝ G) (l m : Bool) (vs ws : List ℝ) (k b k' b' : ℝ) (hs : SoftInput s vs k b)
    (ht : SoftInput t ws k' b') (hr : s.rng = t.rng)
    (he : vs.map (if l then softLogProb k b else softLinProb k b) =
      ws.map (if m then softLogProb k' b' else softLinProb k' b')) :
    ∃ s' t', softDraw (realEnv bern) l s = .ok () s' ∧ softDraw (realEnv bern) m t = .ok () t' ∧
      s'.sel.selection = t'.sel.selection ∧ s'.rng = t'.rng := by
  have valid : ∀ x : ℝ, (realEnv bern).validProb (expit x) = true := fun x => by
    have := expit_mem x
    simp [realEnv, this.1.le, this.2.le]
  obtain ⟨s', h1, h2, h3⟩ := (softDraw_bern (realEnv bern) s l vs k b hs).1 fun v _ => by cases l <;> exact valid _
  obtain ⟨t', g1, g2, g3⟩ := (softDraw_bern (realEnv bern) t m ws k' b' ht).1 fun v _ => by cases m <;> exact valid _
  refine ⟨s', t', h1, g1, ?_, ?_⟩
  · rw [h2, g2, hr]
    exact congrArg (fun z => some (bernMany (realEnv bern) z t.rng).1) he
  · rw [h3, g3, hr]
    exact congrArg (fun z => (bernMany (realEnv bern) z t.rng).2) he

/-- **C105** (logarithm): selecting on positive values with logarithm is selecting on their logarithms
without: with the same random numbers the same objects are selected. -/
theorem C105_logarithm (s t : SelSt ℝ G) (vs : List ℝ) (k b : ℝ) (_ : 0 < b) (_ : ∀ v ∈ vs, 0 < v) (hs : SoftInput s vs k b)
    (ht : SoftInput t (vs.map (Real.logb 10)) k (Real.logb 10 b)) (hr : s.rng = t.rng) :
    ∃ s' t', softDraw (realEnv bern) true s = .ok () s' ∧ softDraw (realEnv bern) false t = .ok () t' ∧
      s'.sel.selection = t'.sel.selection ∧ s'.rng = t'.rng :=
  soft_same bern s t _ _ _ _ _ _ _ _ hs ht hr (by simp [softLogProb, softLinProb])

/-- **C105** (units): with logarithm, positive values may be given in any unit, if the boundary is given in
the same one. -/
theorem C105_units_log (s t : SelSt ℝ G) (vs : List ℝ) (k b c : ℝ) (hc : 0 < c) (hb : 0 < b) (hv : ∀ v ∈ vs, 0 < v)
    (hs : SoftInput s vs k b) (ht : SoftInput t (vs.map (c * ·)) k (c * b)) (hr : s.rng = t.rng) :
    ∃ s' t', softDraw (realEnv bern) true s = .ok () s' ∧ softDraw (realEnv bern) true t = .ok () t' ∧
      s'.sel.selection = t'.sel.selection ∧ s'.rng = t'.rng := by
  refine soft_same bern s t _ _ _ _ _ _ _ _ hs ht hr ?_
  simp only [if_true, List.map_map]
  refine List.map_congr_left fun v h => ?_
  simp only [Function.comp, softLogProb]
  rw [Real.logb_mul hc.ne' (hv v h).ne', Real.logb_mul hc.ne' hb.ne']
  congr 2
  ring

/-- **C105** (units): without logarithm the zero of the scale does not matter, and a change of the unit is
made up for by the strength, which is per unit. -/
theorem C105_units_lin (s t : SelSt ℝ G) (vs : List ℝ) (k b c d : ℝ) (hc : 0 < c)
    (hs : SoftInput s vs k b) (ht : SoftInput t (vs.map fun v => c * v + d) (k / c) (c * b + d)) (hr : s.rng = t.rng) :
    ∃ s' t', softDraw (realEnv bern) false s = .ok () s' ∧ softDraw (realEnv bern) false t = .ok () t' ∧
      s'.sel.selection = t'.sel.selection ∧ s'.rng = t'.rng := by
  refine soft_same bern s t _ _ _ _ _ _ _ _ hs ht hr ?_
  simp only [Bool.false_eq_true, if_false, List.map_map]
  refine List.map_congr_left fun v _ => ?_
  simp only [Function.comp, softLinProb]
  congr 1
  field_simp
  ring

/-- **C105** (units matter without logarithm): with the same strength, a change of the unit changes the
probability of every value but the boundary. -/
theorem C105_units_matter (k b c v : ℝ) (hk : k ≠ 0) (hc : c ≠ 1) :
    softLinProb k (c * b) (c * v) = softLinProb k b v ↔ v = b := by
  unfold softLinProb
  rw [expit_strictMono.injective.eq_iff]
  constructor
  · intro h
    have h' : k * ((c - 1) * (v - b)) = 0 := by linarith [h, show k * (c * v - c * b) = k * (v - b) + k * ((c - 1) * (v - b)) by ring]
    rcases mul_eq_zero.1 h' with h | h
    · exact absurd h hk
    · rcases mul_eq_zero.1 h with h | h
      · exact absurd (by linarith) hc
      · linarith
  · rintro rfl
    ring

end real

/-- Distances 1 and 4 with boundary 2 and strength 3. -/
def softExample : SelSt Int (List Bool) :=
  { sel := { kind := .soft, params := { storage := [("boundary", some 2), ("strength", some 3)] },
             data := { useDistance := true, distance := some [1, 4] } }
    rng := [true, false] }

example : SoftInput softExample [1, 4] 3 2 := by constructor <;> decide

example : (endState (softDraw toyEnv false softExample)).sel.selection = some [true, false] := by decide

/-- Two trials answered by the two numbers at hand. -/
example : Trials (toyEnv.bern) [3, 5] [true, false] [true, false] [] :=
  (C11_trials toyEnv [3, 5] [true, false] [true, false] []).1 (by decide)

/-- Real distances, with a boundary. -/
def softReal (vs : List ℝ) (b : ℝ) : SelSt ℝ Unit :=
  { sel := { kind := .soft, params := { storage := [("boundary", some b), ("strength", some 3)] },
             data := { useDistance := true, distance := some vs } }
    rng := () }

theorem softReal_input (vs : List ℝ) (b : ℝ) : SoftInput (softReal vs b) vs 3 b := ⟨rfl, rfl, rfl⟩

/-- Distances of 1 and 4, and of 10 and 40. -/
example : ∃ s' t', softDraw (realEnv fun p _ => (decide (p < 0), ())) true (softReal [1, 4] 2) = .ok () s' ∧
    softDraw (realEnv fun p _ => (decide (p < 0), ())) true (softReal ([1, 4].map (10 * ·)) (10 * 2)) = .ok () t' ∧
    s'.sel.selection = t'.sel.selection ∧ s'.rng = t'.rng :=
  C105_units_log _ _ _ _ _ _ _ (by norm_num) (by norm_num) (by simp) (softReal_input _ _) (softReal_input _ _) rfl

end Popsynth
