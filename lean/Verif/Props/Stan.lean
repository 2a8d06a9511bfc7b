import Verif.Props.Population
import Verif.Props.Survey

/-!
# C31 (Stan data), C32 (sub-populations)
-/

set_option autoImplicit false
set_option linter.unusedSectionVars false

namespace Popsynth

open Spec

variable {F G : Type}

/-! ### C31 -/

/-- The names the Stan interface uses itself. -/
def Spec.stanNames : List String :=
  ["N", "Nz", "Nnz", "z_obs", "known_z_obs", "z_idx", "z_nidx", "r_obs", "known_r_obs", "r_idx",
   "r_nidx", "log_flux_obs", "flux_obs", "flux_sigma", "z_max", "r_max", "N_model"]

/-- The entries of the Stan data. -/
structure Spec.StanOk (N : Nat) (d : Dict (StanVal F)) (z known : List F) (idx nidx : List Nat) :
    Prop where
  nEq : Dict.get? d "N" = some (.int N)
  nzEq : ∃ a b, Dict.get? d "Nz" = some (.int a) ∧ Dict.get? d "Nnz" = some (.int b) ∧ a + b = N ∧
    idx.length = a ∧ nidx.length = b
  zobs : Dict.get? d "z_obs" = some (.arr z) ∧ Dict.get? d "r_obs" = some (.arr z) ∧ z.length = N
  kz : Dict.get? d "known_z_obs" = some (.arr known) ∧ Dict.get? d "known_r_obs" = some (.arr known)
  idxEq : Dict.get? d "z_idx" = some (.idx idx) ∧ Dict.get? d "r_idx" = some (.idx idx)
  nidxEq : Dict.get? d "z_nidx" = some (.idx nidx) ∧ Dict.get? d "r_nidx" = some (.idx nidx)
  onebased : ∀ i, i ∈ idx ∨ i ∈ nidx ↔ 1 ≤ i ∧ i ≤ N
  disjoint : ∀ i, ¬ (i ∈ idx ∧ i ∈ nidx)
  knownEq : known.length = idx.length ∧
    ∀ (k : Nat) (v : F), known[k]? = some v → ∃ i, idx[k]? = some i ∧ z[i - 1]? = some v

theorem stanSpaces_eq (l : Dict (List F)) (d : Dict (StanVal F)) :
    stanSpaces l d = l.foldl (fun a p => Dict.set a p.1 (.arr p.2)) d := by
  induction l generalizing d with
  | nil => rfl
  | cons p l ih => obtain ⟨k, v⟩ := p; simp [stanSpaces, ih]

/-- Keys the auxiliary quantities write. -/
theorem stanAux_ok (m : List Bool) (q : Storage F) (d : Dict (StanVal F))
    (hq : ∀ k v, (k, v) ∈ q → ∃ o, v.obsVals = some o ∧ o.length = m.length)
    (hn : (q.map Prod.fst).Nodup) :
    ∃ d', stanAux m q d = .ok d' ∧
      (∀ k, (∀ p ∈ q, p.1 ++ "_obs" ≠ k) → Dict.get? d' k = Dict.get? d k) ∧
      (∀ k v, (k, v) ∈ q → ∃ o, v.obsVals = some o ∧
        Dict.get? d' (k ++ "_obs") = some (.arr (pick o m))) := by
  induction q generalizing d with
  | nil => exact ⟨d, rfl, fun _ _ => rfl, fun k v h => by cases h⟩
  | cons p q ih =>
    obtain ⟨k, v⟩ := p
    obtain ⟨o, ho, lo⟩ := hq k v (by simp)
    rw [List.map_cons, List.nodup_cons] at hn
    obtain ⟨d', h1, h2, h3⟩ := ih (Dict.set d (k ++ "_obs") (.arr (pick o m)))
      (fun k v h => hq k v (by simp [h])) hn.2
    refine ⟨d', ?_, ?_, ?_⟩
    · simp only [stanAux, ho, optArray, maskIndex, lo, if_true, bind, Except.bind]
      exact h1
    · intro k' hk
      rw [h2 k' (fun p hp => hk p (by simp [hp]))]
      exact Dict.get?_set_ne _ _ (hk (k, v) (by simp))
    · intro k' v' hm
      rcases List.mem_cons.1 hm with e | hm
      · cases e
        refine ⟨o, ho, ?_⟩
        rw [h2, Dict.get?_set_self]
        intro p hp e
        have : p.1 = k := by
          have := congrArg String.toList e
          simp only [String.toList_append, List.append_cancel_right_eq] at this
          exact String.toList_injective this
        exact hn.1 (this ▸ List.mem_map.2 ⟨p, hp, rfl⟩)
      · exact h3 k' v' hm

theorem pick_eq_entries {α : Type} (a : List α) (m : List Bool) : pick a m = entries a m true := by
  induction a generalizing m with
  | nil => cases m <;> rfl
  | cons x a ih =>
    cases m with
    | nil => rfl
    | cons b m =>
      rw [entries_cons, ← ih m]
      cases b <;> rfl

/-- `x.selected` of a quantity of a population. -/
theorem pickObs_quantity {a : PopArgs F} {P : Population F} (h : mkPopulation a = .ok P)
    (x : SimVar F) (hx : IsQuantity P x) :
    x.pickObs = .ok (entries x.obs P.selection true) := by
  obtain ⟨e1, e2, _⟩ := quantity_built h x hx
  rw [← pick_eq_entries, ← e1]
  unfold SimVar.pickObs maskIndex
  rw [if_pos (by rw [e2, e1])]

variable [LE F] [DecidableLE F] [OfNat F 0] [OfNat F 1]

/-- **C31** (partial): for every population drawn by a survey, if no model space is named
like one of Stan's own entries and no auxiliary quantity `q` makes `q_obs` one of them,
`to_stan_data` returns data in which `N` is the length of every per-detection array,
`Nz + Nnz = N`, the indices are one-based, within `1..N`, disjoint and exhaustive,
`known_z_obs[k] = z_obs[z_idx[k]]`, and every quantity `q` appears as `q_obs` with the
observed values of the detected objects.  *Missing*: names that clash, for which it is
false (`C31_violated_name`). -/
theorem C31_stan_partial (e : SurveyEnv F G) (y : Synth F) (a : SurveyArgs F) (s s' : SurvSt F G)
    (P : Population F) (hk : drawSurvey e y a s = .ok P s') (log10 : F → F) (now : Shared F)
    (hspaces : ∀ p ∈ now.modelSpaces, p.1 ∉ stanNames)
    (haux : ∀ q, P.auxiliary = some q → ∀ p ∈ q, p.1 ++ "_obs" ∉ stanNames) :
    ∃ d z idx nidx, toStan log10 now P = .ok d ∧ z = entries P.distances.obs P.selection true ∧
      StanOk P.nDetections d z P.knownDistances idx nidx ∧
      idx = P.knownIdx.map (· + 1) ∧ nidx = P.unknownIdx.map (· + 1) ∧
      Dict.get? d "flux_obs" = some (.arr (entries P.fluxes.obs P.selection true)) ∧
      (entries P.fluxes.obs P.selection true).length = P.nDetections ∧
      Dict.get? d "log_flux_obs"
        = some (.arr ((entries P.fluxes.obs P.selection true).map log10)) ∧
      Dict.get? d "N_model" = some (.int P.nModel) ∧
      ∃ q, P.auxiliary = some q ∧ ∀ k v, (k, v) ∈ q → ∃ o, v.obsVals = some o ∧
        Dict.get? d (k ++ "_obs") = some (.arr (entries o P.selection true)) ∧
        (entries o P.selection true).length = P.nDetections := by
  obtain ⟨r⟩ := drawSurvey_ok hk
  obtain ⟨c1, c2, c3, c4, c5, c6, c7, c8⟩ := C20_partition e y a s s' P hk
  have built := r.build.built
  have pk := mkPopulation_ok built
  have hsel : P.selection = r.build.gm := pk.rest.2.2.2.1
  obtain ⟨k1, k2, k3, k4, _⟩ := C30_counts _ P built
  have hms : P.modelSpaces = some .shared := pk.rest.2.2.2.2.2.2.2.2.2.2.2.1
  have haq : P.auxiliary = some r.d.loc.auxq := pk.rest.2.2.2.2.2.2.2.2.2.2.2.2.2.2.2.1
  have hg : GoodAux r.build.gm.length [] r.d.loc.auxq := by
    have ha := pk.aux
    exact ((addAttrs_ok_iff _ _ _ _ _ _).1 ha).1
  have hz : P.distances.pickObs = .ok (entries P.distances.obs P.selection true) :=
    pickObs_quantity built _ (.inl (by simp))
  have hf : P.fluxes.pickObs = .ok (entries P.fluxes.obs P.selection true) :=
    pickObs_quantity built _ (.inl (by simp))
  have hns : P.spacesNow now = some now.modelSpaces := by
    unfold Population.spacesNow; rw [hms]; rfl
  obtain ⟨d, hd, dk, dq⟩ := stanAux_ok P.selection r.d.loc.auxq
    (stanSpaces now.modelSpaces (stanCore log10 P (entries P.distances.obs P.selection true)
      (entries P.fluxes.obs P.selection true)))
    (fun k v hm => by rw [hsel]; exact (hg.1 k v hm).1) hg.2
  have core : ∀ k ∈ stanNames, Dict.get? d k = Dict.get? (stanCore log10 P
      (entries P.distances.obs P.selection true) (entries P.fluxes.obs P.selection true)) k := by
    intro k hk
    rw [dk k (fun p hp e => haux _ haq p hp (e ▸ hk)), stanSpaces_eq]
    exact foldl_set_get?_other (fun v => StanVal.arr v) _ _ k (fun hm => by
      obtain ⟨p, hp, rfl⟩ := List.mem_map.1 hm
      exact hspaces p hp hk)
  have lz : (entries P.distances.obs P.selection true).length = P.nDetections := by
    rw [length_entries, c5]
    rw [pk.distances, hsel]; exact pk.lenDist
  have lf : (entries P.fluxes.obs P.selection true).length = P.nDetections := by
    rw [length_entries, c5]
    rw [pk.fluxes, hsel]; exact pk.lenFluxObs
  refine ⟨d, _, _, _, ?_, rfl, ?_, rfl, rfl, ?_, lf, ?_, ?_, r.d.loc.auxq, haq, ?_⟩
  · unfold toStan
    rw [haq]
    simp only [hz, hf, hns, optItems, bind, Except.bind]
    exact hd
  · refine ⟨?_, ⟨P.knownDistances.length, P.unknownIdx.length, ?_, ?_, k4, ?_, ?_⟩,
      ⟨?_, ?_, lz⟩, ⟨?_, ?_⟩, ⟨?_, ?_⟩, ⟨?_, ?_⟩, ?_, ?_, ?_, ?_⟩
    · rw [core _ (by decide)]; rfl
    · rw [core _ (by decide)]; rfl
    · rw [core _ (by decide)]; rfl
    · rw [List.length_map, c7]
    · rw [List.length_map]
    · rw [core _ (by decide)]; rfl
    · rw [core _ (by decide)]; rfl
    · rw [core _ (by decide)]; rfl
    · rw [core _ (by decide)]; rfl
    · rw [core _ (by decide)]; rfl
    · rw [core _ (by decide)]; rfl
    · rw [core _ (by decide)]; rfl
    · rw [core _ (by decide)]; rfl
    · intro i
      simp only [List.mem_map]
      constructor
      · rintro (⟨j, hj, rfl⟩ | ⟨j, hj, rfl⟩)
        · have := (c3 j).1 (.inl hj); omega
        · have := (c3 j).1 (.inr hj); omega
      · rintro ⟨h1, h2⟩
        rcases (c3 (i - 1)).2 (by omega) with h | h
        · exact .inl ⟨i - 1, h, by omega⟩
        · exact .inr ⟨i - 1, h, by omega⟩
    · rintro i ⟨h1, h2⟩
      obtain ⟨j, hj, e1⟩ := List.mem_map.1 h1
      obtain ⟨j', hj', e2⟩ := List.mem_map.1 h2
      have : j = j' := by omega
      subst this
      exact c4 j ⟨hj, hj'⟩
    · rw [List.length_map, c7]
    · intro k v hv
      obtain ⟨j, i, h1, h2, h3⟩ := c8 k v hv
      refine ⟨j + 1, by simp [h1], ?_⟩
      rw [Nat.add_sub_cancel, ← takeAt_whereFrom _ _ (by rw [pk.distances, hsel]; exact pk.lenDist)]
      have hi := selectionIndex_get _ _ _ h2
      have hat := takeAt_at P.distances.obs (selectionIndex P.selection) (fun p hp => by
        have := ((mem_whereFrom _ _ _).1 hp).2
        have := (List.getElem?_eq_some_iff.1 this).1
        have l : P.distances.obs.length = P.selection.length := by
          rw [pk.distances, hsel]; exact pk.lenDist
        omega)
      rw [(hat.2 j i hi).1, h3]
  · rw [core _ (by decide)]; rfl
  · rw [core _ (by decide)]; rfl
  · rw [core _ (by decide)]; rfl
  · intro k v hm
    obtain ⟨o, ho, hd⟩ := dq k v hm
    refine ⟨o, ho, by rw [hd, pick_eq_entries], ?_⟩
    rw [length_entries, c5]
    obtain ⟨⟨o', ho', lo⟩, _⟩ := hg.1 k v hm
    rw [ho] at ho'; cases ho'
    rw [hsel]; exact lo

/-- **C31 is violated** when an auxiliary quantity is called `z` (or `r`, `flux`, …): in the
Stan data of every such population `z_obs` holds the quantity, not the distances. -/
theorem C31_violated_name (e : SurveyEnv F G) (y : Synth F) (a : SurveyArgs F) (s s' : SurvSt F G)
    (P : Population F) (hk : drawSurvey e y a s = .ok P s') (log10 : F → F) (now : Shared F)
    (q : Storage F) (v : SecC F) (hq : P.auxiliary = some q) (hv : ("z", v) ∈ q) :
    ∃ d o, toStan log10 now P = .ok d ∧ v.obsVals = some o ∧
      Dict.get? d "z_obs" = some (.arr (entries o P.selection true)) := by
  obtain ⟨r⟩ := drawSurvey_ok hk
  have built := r.build.built
  have pk := mkPopulation_ok built
  have hsel : P.selection = r.build.gm := pk.rest.2.2.2.1
  have hms : P.modelSpaces = some .shared := pk.rest.2.2.2.2.2.2.2.2.2.2.2.1
  have haq : P.auxiliary = some r.d.loc.auxq := pk.rest.2.2.2.2.2.2.2.2.2.2.2.2.2.2.2.1
  rw [hq] at haq; cases haq
  have hg : GoodAux r.build.gm.length [] r.d.loc.auxq := by
    have ha := pk.aux
    exact ((addAttrs_ok_iff _ _ _ _ _ _).1 ha).1
  have hz : P.distances.pickObs = .ok (entries P.distances.obs P.selection true) :=
    pickObs_quantity built _ (.inl (by simp))
  have hf : P.fluxes.pickObs = .ok (entries P.fluxes.obs P.selection true) :=
    pickObs_quantity built _ (.inl (by simp))
  have hns : P.spacesNow now = some now.modelSpaces := by
    unfold Population.spacesNow; rw [hms]; rfl
  obtain ⟨d, hd, _, dq⟩ := stanAux_ok P.selection r.d.loc.auxq
    (stanSpaces now.modelSpaces (stanCore log10 P (entries P.distances.obs P.selection true)
      (entries P.fluxes.obs P.selection true)))
    (fun k v hm => by rw [hsel]; exact (hg.1 k v hm).1) hg.2
  obtain ⟨o, ho, e⟩ := dq "z" v hv
  refine ⟨d, o, ?_, ho, by rw [← pick_eq_entries]; exact e⟩
  unfold toStan
  rw [hq]
  simp only [hz, hf, hns, optItems, bind, Except.bind]
  exact hd

namespace SurveyExample

/-- The example survey's Stan data: two detections, both distances known. -/
example : ((okVal (drawSurvey env synth args st)).bind fun P =>
      (toStan id (sharedOf synth final) P).toOption).map (fun d => (Dict.get? d "N",
        Dict.get? d "z_obs")) = some (some (.int 2), some (.arr [2, 3])) := by decide +kernel

example : ((okVal (drawSurvey env synth args st)).bind fun P =>
      (toStan id (sharedOf synth final) P).toOption).map (fun d => (Dict.get? d "z_idx",
        Dict.get? d "known_z_obs")) = some (some (.idx [1, 2]), some (.arr [2, 3])) := by
  decide +kernel

/-- The same survey with the attached sampler called `z`. -/
def zHeap : Heap Nat Nat :=
  { heap with samplers := fun j =>
      if j = 0 then { heap.samplers 0 with name := "z" } else heap.samplers j }

def zSynth : Synth Nat := { synth with aux := [("z", 0)] }

/-- Its Stan data have the quantity in place of the distances. -/
example : ((okVal (drawSurvey env zSynth args { st with heap := zHeap })).map fun P =>
      (entries P.distances.obs P.selection true,
        (toStan id (sharedOf zSynth final) P).toOption.bind fun d => Dict.get? d "z_obs"))
      = some ([2, 3], some (.arr [151, 151])) := by decide +kernel

end SurveyExample

end Popsynth
