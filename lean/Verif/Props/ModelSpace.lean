import Verif.Model.Grid
import Verif.Props.Stan

/-!
# C57 (model spaces)
-/

set_option autoImplicit false
set_option linter.unusedSectionVars false

namespace Popsynth

open Spec

/-- A grid: as many values as asked for, from `start` to `stop`, strictly increasing and
positive. -/
structure Spec.IsGrid (start stop : ℝ) (n : Nat) (l : List ℝ) : Prop where
  length : l.length = n
  first : l[0]? = some start
  last : l[n - 1]? = some stop
  increasing : l.Pairwise (· < ·)
  positive : ∀ x ∈ l, 0 < x

theorem linspaceAt_lt (a b : ℝ) (n i j : Nat) (hab : a < b) (hn : 2 ≤ n) (hij : i < j)
    (hj : j < n) : linspaceAt a b n i < linspaceAt a b n j := by
  have h1 : (0 : ℝ) < (n : ℝ) - 1 := by
    have : (2 : ℝ) ≤ (n : ℝ) := by exact_mod_cast hn
    linarith
  have hs : 0 < (b - a) / ((n : ℝ) - 1) := div_pos (by linarith) h1
  unfold linspaceAt
  rw [if_neg (by omega)]
  split
  · rename_i e
    have hi : (i : ℝ) < (n : ℝ) - 1 := by
      have : (i : ℝ) + 1 < (n : ℝ) := by exact_mod_cast (by omega : i + 1 < n)
      linarith
    have : (i : ℝ) * ((b - a) / ((n : ℝ) - 1)) < ((n : ℝ) - 1) * ((b - a) / ((n : ℝ) - 1)) :=
      mul_lt_mul_of_pos_right hi hs
    rw [mul_div_cancel₀ _ (ne_of_gt h1)] at this
    linarith
  · have : (i : ℝ) < (j : ℝ) := by exact_mod_cast hij
    have := mul_lt_mul_of_pos_right this hs
    linarith

theorem linspace_get (a b : ℝ) (n i : Nat) (hi : i < n) :
    (linspace a b n)[i]? = some (linspaceAt a b n i) := by
  simp [linspace, hi]

theorem linspace_increasing (a b : ℝ) (n : Nat) (hab : a < b) (hn : 2 ≤ n) :
    (linspace a b n).Pairwise (· < ·) := by
  unfold linspace
  rw [List.pairwise_map]
  apply List.Pairwise.imp_of_mem ?_ List.pairwise_lt_range
  intro i j hi hj hij
  exact linspaceAt_lt a b n i j hab hn hij (List.mem_range.1 hj)

theorem linspaceAt_ge (a b : ℝ) (n i : Nat) (hab : a < b) (hn : 2 ≤ n) (hi : i < n) :
    a ≤ linspaceAt a b n i := by
  have h0 : linspaceAt a b n 0 = a := by
    unfold linspaceAt
    rw [if_neg (by omega)]
    simp
  cases i with
  | zero => rw [h0]
  | succ i =>
    have := linspaceAt_lt a b n 0 (i + 1) hab hn (by omega) hi
    rw [h0] at this
    exact this.le

/-- **C57** (grid): for `0 < start < stop`, both kinds of grid have the number of values
asked for, strictly increasing, positive, starting at `start` and ending at `stop`. -/
theorem C57_grid (start stop : ℝ) (log : Bool) (n : Nat) (hn : 2 ≤ n) (h0 : 0 < start)
    (h : start < stop) : IsGrid start stop n (realGrid start stop log n) := by
  have h0' : 0 < stop := h0.trans h
  cases log with
  | false =>
    simp only [realGrid, Bool.false_eq_true, if_false]
    refine ⟨by simp [linspace], ?_, ?_, linspace_increasing _ _ _ h hn, ?_⟩
    · rw [linspace_get _ _ _ _ (by omega)]
      unfold linspaceAt
      rw [if_neg (by omega)]
      simp
    · rw [linspace_get _ _ _ _ (by omega)]
      unfold linspaceAt
      rw [if_pos rfl]
    · intro x hx
      obtain ⟨i, hi, rfl⟩ := List.mem_map.1 hx
      exact lt_of_lt_of_le h0 (linspaceAt_ge _ _ _ _ h hn (List.mem_range.1 hi))
  | true =>
    have hl : Real.logb 10 start < Real.logb 10 stop := Real.logb_lt_logb (by norm_num) h0 h
    simp only [realGrid, if_true]
    refine ⟨by simp [logspace, linspace], ?_, ?_, ?_, ?_⟩
    · unfold logspace
      rw [List.getElem?_map, linspace_get _ _ _ _ (by omega)]
      unfold linspaceAt
      rw [if_neg (by omega)]
      simp only [Nat.cast_zero, zero_mul, zero_add, Option.map_some]
      rw [Real.rpow_logb (by norm_num) (by norm_num) h0]
    · unfold logspace
      rw [List.getElem?_map, linspace_get _ _ _ _ (by omega)]
      unfold linspaceAt
      rw [if_pos rfl, Option.map_some, Real.rpow_logb (by norm_num) (by norm_num) h0']
    · unfold logspace
      rw [List.pairwise_map]
      apply (linspace_increasing _ _ _ hl hn).imp
      intro x y hxy
      exact Real.rpow_lt_rpow_of_exponent_lt (by norm_num) hxy
    · intro x hx
      obtain ⟨y, _, rfl⟩ := List.mem_map.1 hx
      exact Real.rpow_pos_of_pos (by norm_num) y

example : IsGrid 1 100 500 (realGrid 1 100 true 500) :=
  C57_grid 1 100 true 500 (by norm_num) (by norm_num) (by norm_num)

variable {F G : Type}

/-- A sequence of `add_model_space` calls. -/
def addSpaces (grid : F → F → Bool → Nat → List F) :
    List (String × F × F × Bool) → Py (Synth F) Unit
  | [] => pure ()
  | (n, start, stop, log) :: l => do
    addModelSpace grid n start stop log
    addSpaces grid l

/-- The last call with a given name. -/
def Spec.lastSpace (n : String) : List (String × F × F × Bool) → Option (F × F × Bool)
  | [] => none
  | (m, c) :: l => match lastSpace n l with
    | some c => some c
    | none => if m = n then some c else none

/-- **C57** (every sequence of `add_model_space` calls): all succeed; each name holds the
grid of the last call with that name, with `n_model` values; names never called keep what
they had; keys stay distinct. -/
theorem C57_calls (grid : F → F → Bool → Nat → List F) (calls : List (String × F × F × Bool))
    (y : Synth F) (hd : (y.modelSpaces.map Prod.fst).Nodup) :
    ∃ y', addSpaces grid calls y = .ok () y' ∧ y'.nModel = y.nModel ∧
      (y'.modelSpaces.map Prod.fst).Nodup ∧
      ∀ n, Dict.get? y'.modelSpaces n = match lastSpace n calls with
        | some c => some (grid c.1 c.2.1 c.2.2 y.nModel)
        | none => Dict.get? y.modelSpaces n := by
  induction calls generalizing y with
  | nil => exact ⟨y, rfl, rfl, hd, fun _ => rfl⟩
  | cons c l ih =>
    obtain ⟨m, start, stop, log⟩ := c
    obtain ⟨y', h1, h2, h3, h4⟩ := ih { y with
      modelSpaces := Dict.set y.modelSpaces m (grid start stop log y.nModel) }
      (Dict.nodup_keys_set _ _ _ hd)
    refine ⟨y', h1, h2, h3, fun n => ?_⟩
    rw [h4]
    simp only [lastSpace]
    cases hl : lastSpace n l with
    | some c => rfl
    | none =>
      by_cases e : m = n
      · subst e
        simp [Dict.get?_set_self]
      · simp only [e, if_false]
        exact Dict.get?_set_ne _ _ e

/-- **C57** (acceptance): the population constructor accepts model spaces of `n_model`
values: if it accepts the arguments with no model spaces, it accepts them with any model
spaces of the right length. -/
theorem C57_accepted (a : PopArgs F) (P : Population F)
    (h : mkPopulation { a with modelSpaces := none } = .ok P) (d : Dict (List F))
    (hd : ∀ k v, (k, v) ∈ d → v.length = a.nModel) :
    ∃ Q, mkPopulation { a with spacesNow := d, modelSpaces := some .shared } = .ok Q := by
  have g := (C30_construction { a with modelSpaces := none }).1 ⟨P, h⟩
  obtain ⟨g1, g2, g3, g4, _⟩ := g
  exact (C30_construction _).2 ⟨g1, g2, g3, g4, fun _ k v hm => hd k v hm⟩

variable [LE F] [DecidableLE F] [OfNat F 0] [OfNat F 1]

/-- **C57** (Stan): in the Stan data of every population drawn by a survey each model space
appears under its own name, unless an attached quantity `q` is called so that `q_obs` is
that name (`C57_violated_name`). -/
theorem C57_stan_partial (e : SurveyEnv F G) (y : Synth F) (a : SurveyArgs F) (s s' : SurvSt F G)
    (P : Population F) (hk : drawSurvey e y a s = .ok P s') (log10 : F → F) (now : Shared F)
    (hnd : (now.modelSpaces.map Prod.fst).Nodup) :
    ∃ d, toStan log10 now P = .ok d ∧ Dict.get? d "N_model" ≠ none ∧
      ∀ k v, (k, v) ∈ now.modelSpaces →
        (∀ q, P.auxiliary = some q → ∀ p ∈ q, p.1 ++ "_obs" ≠ k) →
        Dict.get? d k = some (.arr v) := by
  obtain ⟨r⟩ := drawSurvey_ok hk
  have built := r.build.built
  have pk := mkPopulation_ok built
  have hsel : P.selection = r.build.gm := pk.rest.2.2.2.1
  have hms : P.modelSpaces = some .shared := pk.rest.2.2.2.2.2.2.2.2.2.2.2.1
  have haq : P.auxiliary = some r.d.loc.auxq := pk.rest.2.2.2.2.2.2.2.2.2.2.2.2.2.2.2.1
  have hg : GoodAux r.build.gm.length [] r.d.loc.auxq :=
    ((addAttrs_ok_iff _ _ _ _ _ _).1 pk.aux).1
  have hz : P.distances.pickObs = .ok (entries P.distances.obs P.selection true) :=
    pickObs_quantity built _ (.inl (by simp))
  have hf : P.fluxes.pickObs = .ok (entries P.fluxes.obs P.selection true) :=
    pickObs_quantity built _ (.inl (by simp))
  have hns : P.spacesNow now = some now.modelSpaces := by
    unfold Population.spacesNow; rw [hms]; rfl
  obtain ⟨d, hd, dk, dq⟩ := stanAux_ok P.selection r.d.loc.auxq
    (stanSpaces now.modelSpaces (stanCore log10 P (entries P.distances.obs P.selection true)
      (entries P.fluxes.obs P.selection true)))
    (fun k v hm => by rw [hsel]; exact (hg.1 k v hm).1) hg.2
  refine ⟨d, ?_, ?_, ?_⟩
  · unfold toStan
    rw [haq]
    simp only [hz, hf, hns, optItems, bind, Except.bind]
    exact hd
  · by_cases hq : ∀ p ∈ r.d.loc.auxq, p.1 ++ "_obs" ≠ "N_model"
    · rw [dk _ hq, stanSpaces_eq]
      have : "N_model" ∈ Dict.keys (now.modelSpaces.foldl (fun a p => Dict.set a p.1 (.arr p.2))
          (stanCore log10 P (entries P.distances.obs P.selection true)
            (entries P.fluxes.obs P.selection true))) := by
        rw [foldl_set_keys (fun v => StanVal.arr v)]
        exact .inl (by simp [stanCore, Dict.keys])
      rw [← Dict.get?_isSome_iff] at this
      intro e
      rw [e] at this
      cases this
    · exfalso
      apply hq
      intro p _ e
      have := congrArg (fun s : String => s.toList.reverse.head?) e
      simp [String.toList_append] at this
  · intro k v hm hq
    rw [dk k (hq _ haq), stanSpaces_eq]
    exact foldl_set_get? (fun v => StanVal.arr v) _ _ k v hnd hm

/-- **C57 is violated** for a model space named like the observed values of an attached
quantity: the export holds the quantity. -/
theorem C57_violated_name (e : SurveyEnv F G) (y : Synth F) (a : SurveyArgs F) (s s' : SurvSt F G)
    (P : Population F) (hk : drawSurvey e y a s = .ok P s') (log10 : F → F) (now : Shared F)
    (q : Storage F) (k : String) (v : SecC F) (hq : P.auxiliary = some q) (hv : (k, v) ∈ q) :
    ∃ d o, toStan log10 now P = .ok d ∧ v.obsVals = some o ∧
      Dict.get? d (k ++ "_obs") = some (.arr (entries o P.selection true)) := by
  obtain ⟨r⟩ := drawSurvey_ok hk
  have built := r.build.built
  have pk := mkPopulation_ok built
  have hsel : P.selection = r.build.gm := pk.rest.2.2.2.1
  have hms : P.modelSpaces = some .shared := pk.rest.2.2.2.2.2.2.2.2.2.2.2.1
  have haq : P.auxiliary = some r.d.loc.auxq := pk.rest.2.2.2.2.2.2.2.2.2.2.2.2.2.2.2.1
  rw [hq] at haq; cases haq
  have hg : GoodAux r.build.gm.length [] r.d.loc.auxq :=
    ((addAttrs_ok_iff _ _ _ _ _ _).1 pk.aux).1
  have hz : P.distances.pickObs = .ok (entries P.distances.obs P.selection true) :=
    pickObs_quantity built _ (.inl (by simp))
  have hf : P.fluxes.pickObs = .ok (entries P.fluxes.obs P.selection true) :=
    pickObs_quantity built _ (.inl (by simp))
  have hns : P.spacesNow now = some now.modelSpaces := by
    unfold Population.spacesNow; rw [hms]; rfl
  obtain ⟨d, hd, _, dq⟩ := stanAux_ok P.selection r.d.loc.auxq
    (stanSpaces now.modelSpaces (stanCore log10 P (entries P.distances.obs P.selection true)
      (entries P.fluxes.obs P.selection true)))
    (fun k v hm => by rw [hsel]; exact (hg.1 k v hm).1) hg.2
  obtain ⟨o, ho, e⟩ := dq k v hv
  refine ⟨d, o, ?_, ho, by rw [← pick_eq_entries]; exact e⟩
  unfold toStan
  rw [hq]
  simp only [hz, hf, hns, optItems, bind, Except.bind]
  exact hd

namespace ModelSpaceExample

open SurveyExample

/-- Exported under the name `L_model`. -/
example : ((okVal (drawSurvey env { synth with nModel := 3, modelSpaces := [("L_model", [1, 2, 3])] }
      args st)).bind fun P => (toStan id { sharedOf synth final with
        modelSpaces := [("L_model", [1, 2, 3])] } P).toOption).bind (fun d => Dict.get? d "L_model")
    = some (.arr [1, 2, 3]) := by decide +kernel

end ModelSpaceExample

end Popsynth
