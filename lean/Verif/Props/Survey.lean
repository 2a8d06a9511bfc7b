import Verif.Props.SurveyExample
import Verif.Props.Selection

/-!
# C16–C20: what a completed survey contains

The number type, the random state and all user-written classes are arbitrary.
-/

set_option autoImplicit false
set_option linter.unusedSectionVars false

namespace Popsynth
open Spec
variable {F G : Type} [LE F] [DecidableLE F] [OfNat F 0] [OfNat F 1]

/-! ### C18 -/

omit [LE F] [DecidableLE F] [OfNat F 0] [OfNat F 1] in
theorem addAttrs_lengths {m : List Bool} (st : Storage F) (at0 : Dict (SimVar F))
    (prot : List String) (at1 : Dict (SimVar F)) (prot1 : List String)
    (h0 : ∀ k v, Dict.get? at0 k = some v →
      v.obs.length = m.length ∧ v.latent.length = m.length ∧ v.selection = m)
    (h : addAttrs m st at0 prot = .ok (at1, prot1)) :
    ∀ k v, Dict.get? at1 k = some v →
      v.obs.length = m.length ∧ v.latent.length = m.length ∧ v.selection = m := by
  induction st generalizing at0 prot with
  | nil => cases h; exact h0
  | cons kv st ih =>
    obtain ⟨k, c⟩ := kv
    simp only [addAttrs, except_bind_ok_iff] at h
    obtain ⟨o, -, t, -, x, h3, at2, h4, h5⟩ := h
    refine ih _ _ ?_ h5
    obtain ⟨l1, l2, rfl⟩ := mkSimVar_ok h3
    unfold setAttr at h4
    split at h4
    · cases h4
    · split at h4
      · cases h4
      · cases h4
        intro k' v hv
        by_cases hk : k = k'
        · subst hk
          rw [Dict.get?_set_self] at hv; cases hv
          exact ⟨l1.symm, by rw [l2, ← l1], rfl⟩
        · rw [Dict.get?_set_ne _ _ hk] at hv; exact h0 k' v hv

/-- All arrays of the population have length `n` and carry the population's selection. -/
def Spec.AllOfLength (n : Nat) (P : Population F) : Prop :=
  P.selection.length = n ∧
  (∀ v ∈ [P.distances, P.theta, P.phi, P.luminosities, P.fluxes],
    v.obs.length = n ∧ v.latent.length = n ∧ v.selection = P.selection) ∧
  (∃ v, P.probability = some v ∧ v.obs.length = n ∧ v.latent.length = n ∧
    v.selection = P.selection) ∧
  ∀ k v, Dict.get? P.attrs k = some v →
    v.obs.length = n ∧ v.latent.length = n ∧ v.selection = P.selection

/-- **C18.** If `draw_survey` returns, there is one length `n` for all arrays; it is the
requested number, or the Poisson number drawn right after seeding with the mean the
spatial distribution computed. -/
theorem C18_lengths (e : SurveyEnv F G) (y : Synth F) (a : SurveyArgs F) (s s' : SurvSt F G)
    (P : Population F) (hk : drawSurvey e y a s = .ok P s') :
    ∃ n, AllOfLength n P ∧
      (a.nSamples = some n ∨ a.nSamples = none ∧ ∃ N o g g', e.spatial.count a.normalize s.sp.params = .ok N o ∧
        e.seed y.seed s.heap.rng = .ok g ∧ e.poisson N g = (.ok n, g')) := by
  obtain ⟨r⟩ := drawSurvey_ok hk
  have pk := mkPopulation_ok r.build.built
  have hgm : r.build.gm.length = r.d.n := r.gm_length
  have hsel : P.selection = r.build.gm := pk.rest.2.2.2.1
  refine ⟨r.d.n, ⟨by rw [hsel, hgm], ?_, ?_, ?_⟩, ?_⟩
  · intro v hv
    simp only [List.mem_cons, List.not_mem_nil, or_false] at hv
    rcases hv with rfl | rfl | rfl | rfl | rfl
    · rw [pk.distances, hsel]; exact ⟨pk.lenDist.trans hgm, pk.lenDist.trans hgm, rfl⟩
    · rw [pk.theta, hsel]; exact ⟨pk.lenTheta.trans hgm, pk.lenTheta.trans hgm, rfl⟩
    · rw [pk.phi, hsel]; exact ⟨pk.lenPhi.trans hgm, pk.lenPhi.trans hgm, rfl⟩
    · rw [pk.luminosities, hsel]; exact ⟨pk.lenLum.trans hgm, pk.lenLum.trans hgm, rfl⟩
    · rw [pk.fluxes, hsel]; exact ⟨pk.lenFluxObs.trans hgm, pk.lenFluxes.trans hgm, rfl⟩
  · refine ⟨_, pk.probability, ?_, ?_, ?_⟩
    · exact r.all.prob_length
    · exact r.all.prob_length
    · rw [hsel]; rfl
  · have haux := pk.aux
    have := addAttrs_lengths _ _ _ _ _ (by intro k v hv; simp at hv) haux
    intro k v hv
    obtain ⟨h1, h2, h3⟩ := this k v hv
    exact ⟨h1.trans hgm, h2.trans hgm, by rw [hsel]; exact h3⟩
  · have hc := r.all.counted
    obtain ⟨k1, k2⟩ := onRng_ok r.all.seeded
    cases hn : a.nSamples with
    | some k =>
      rw [hn] at hc
      simp only [countObjects, pure_apply, EStateM.Result.ok.injEq] at hc
      exact .inl (by rw [hc.1])
    | none =>
      right
      refine ⟨rfl, ?_⟩
      rw [hn] at hc
      simp only [countObjects, bind_ok_iff] at hc
      obtain ⟨N, sA, h1, h2⟩ := hc
      obtain ⟨m1, m2⟩ := onSpatial_ok h1
      obtain ⟨m3, -⟩ := onRng_ok h2
      have hsp : r.all.s1.sp = s.sp := congrArg (·.sp) k2
      have hg : e.seed y.seed s.heap.rng = .ok r.all.s1.heap.rng := by
        cases hs : e.seed y.seed s.heap.rng with
        | ok g => rw [hs] at k1; simp only [Prod.mk.injEq, true_and] at k1; rw [k1]
        | error er => rw [hs] at k1; simp at k1
      unfold onParams at m1
      simp only at m1
      rw [hsp] at m1
      cases hcount : e.spatial.count a.normalize s.sp.params with
      | error er o => rw [hcount] at m1; cases m1
      | ok N' o =>
        rw [hcount] at m1
        simp only [EStateM.Result.ok.injEq, SpSt.mk.injEq] at m1
        obtain ⟨rfl, -, hrng⟩ := m1
        exact ⟨N', o, _, _, rfl, hg, by rw [hrng]; exact m3⟩

/-- The example survey has three objects. -/
example : ∃ P, drawSurvey SurveyExample.env SurveyExample.synth SurveyExample.args SurveyExample.st
    = .ok P SurveyExample.final ∧ AllOfLength 3 P ∧ (Dict.get? P.attrs "d").isSome = true := by
  obtain ⟨P, hP⟩ := SurveyExample.survey_ok
  obtain ⟨n, h1, -⟩ := C18_lengths _ _ _ _ _ _ hP
  have h3 : (okVal (drawSurvey SurveyExample.env SurveyExample.synth SurveyExample.args
      SurveyExample.st)).map (fun P => (P.selection.length, (Dict.get? P.attrs "d").isSome))
      = some (3, true) := by decide +kernel
  rw [(okVal_ok hP).1] at h3
  simp only [Option.map_some, Option.some.injEq, Prod.mk.injEq] at h3
  have hn : n = 3 := by rw [← h3.1]; exact h1.1.symm
  subst hn
  exact ⟨P, hP, h1, h3.2⟩

/-! ### C20 -/

/-- `i` is the `j`-th object (counted from zero) that the mask selects. -/
def Spec.IsNth (m : List Bool) (j i : Nat) : Prop :=
  m[i]? = some true ∧ (m.take i).count true = j

omit [LE F] [DecidableLE F] [OfNat F 0] [OfNat F 1] in
theorem pick_get {α : Type} (a : List α) (m : List Bool) (hl : a.length = m.length) (j : Nat) (x : α)
    (h : (pick a m)[j]? = some x) : ∃ i, IsNth m j i ∧ a[i]? = some x := by
  induction a generalizing m j with
  | nil => simp [pick] at h
  | cons y a ih =>
    cases m with
    | nil => simp [pick] at h
    | cons b m =>
      have hl' : a.length = m.length := by simpa using hl
      cases b with
      | false =>
        simp only [pick, Bool.false_eq_true, if_false] at h
        obtain ⟨i, ⟨h1, h2⟩, h3⟩ := ih m hl' j h
        exact ⟨i + 1, ⟨by simpa using h1, by simpa using h2⟩, by simpa using h3⟩
      | true =>
        simp only [pick, if_true] at h
        cases j with
        | zero => exact ⟨0, ⟨rfl, rfl⟩, by simpa using h⟩
        | succ j =>
          rw [List.getElem?_cons_succ] at h
          obtain ⟨i, ⟨h1, h2⟩, h3⟩ := ih m hl' j h
          exact ⟨i + 1, ⟨by simpa using h1, by simpa using h2⟩, by simpa using h3⟩

/-- The `k`-th index is the position of the `k`-th selected object. -/
theorem selectionIndex_get (m : List Bool) (k j : Nat) (h : IsNth m k j) :
    (selectionIndex m)[k]? = some j := by
  have key : ∀ (m : List Bool) (b k j : Nat), IsNth m k j → (whereFrom b m)[k]? = some (b + j) := by
    intro m
    induction m with
    | nil => intro b k j h; exact absurd h.1 (by simp)
    | cons c m ih =>
      intro b k j h
      obtain ⟨h1, h2⟩ := h
      cases j with
      | zero =>
        simp only [List.getElem?_cons_zero, Option.some.injEq] at h1
        subst h1
        simp at h2; subst h2
        simp [whereFrom]
      | succ j =>
        simp only [List.getElem?_cons_succ] at h1
        cases c with
        | false =>
          simp only [List.take_succ_cons, List.count_cons] at h2
          have := ih (b + 1) k j ⟨h1, by simpa using h2⟩
          simp only [whereFrom, Bool.false_eq_true, if_false]
          rw [this]; congr 1; omega
        | true =>
          simp only [List.take_succ_cons, List.count_cons] at h2
          cases k with
          | zero => simp at h2
          | succ k =>
            have := ih (b + 1) k j ⟨h1, by simpa using h2⟩
            simp only [whereFrom, if_true, List.getElem?_cons_succ]
            rw [this]; congr 1; omega
  simpa [selectionIndex] using key m 0 k j h

/-- **C20.** In a drawn population the known and the unknown indices are increasing,
disjoint, and together list `0 … n_detections - 1`; the known ones are those the
distance selection selected; the `k`-th known distance is the distance of the detected
object number `known_distance_idx[k]`. -/
theorem C20_partition (e : SurveyEnv F G) (y : Synth F) (a : SurveyArgs F) (s s' : SurvSt F G)
    (P : Population F) (hk : drawSurvey e y a s = .ok P s') :
    P.knownIdx.Pairwise (· < ·) ∧ P.unknownIdx.Pairwise (· < ·) ∧
    (∀ j, (j ∈ P.knownIdx ∨ j ∈ P.unknownIdx) ↔ j < P.nDetections) ∧
    (∀ j, ¬ (j ∈ P.knownIdx ∧ j ∈ P.unknownIdx)) ∧
    P.nDetections = P.selection.count true ∧
    (∃ m, (s'.heap.selectors y.distSel).selection = some m ∧
      ∀ j, j ∈ P.knownIdx ↔ m[j]? = some true) ∧
    P.knownDistances.length = P.knownIdx.length ∧
    ∀ (k : Nat) (x : F), P.knownDistances[k]? = some x → ∃ j i, P.knownIdx[k]? = some j ∧
      IsNth P.selection j i ∧ P.distances.obs[i]? = some x := by
  obtain ⟨r⟩ := drawSurvey_ok hk
  have pk := mkPopulation_ok r.build.built
  have hsel : P.selection = r.build.gm := pk.rest.2.2.2.1
  have hki : P.knownIdx = selectionIndex r.build.dm := pk.rest.2.1
  have hui : P.unknownIdx = nonSelectionIndex r.build.dm := pk.rest.2.2.1
  have hkd : P.knownDistances = r.build.known := pk.rest.1
  have hnd : P.nDetections = countTrue r.build.gm := pk.counts.2.1
  obtain ⟨l1, e1⟩ := maskIndex_ok r.build.sel_eq
  obtain ⟨l2, e2⟩ := maskIndex_ok r.build.known_eq
  have hlen : r.build.dm.length = countTrue r.build.gm := by
    rw [← l2, e1, pick_length _ _ l1]
  obtain ⟨c1, c2, c3, c4, c5, c6, c7, -⟩ := C09_index_partition r.build.dm
  rw [hki, hui, hkd, hsel, hnd]
  refine ⟨c1, c2, fun j => by rw [c5, hlen], c6, (C09_nSelected_counts _).1, ?_, ?_, ?_⟩
  · refine ⟨r.build.dm, ?_, c3⟩
    have := r.build.dmask
    rw [r.build.frame.2.2.2.1]
    unfold Selector.mask at this
    cases hm : (r.build.s8.heap.selectors y.distSel).selection with
    | none => rw [hm] at this; cases this
    | some m => rw [hm] at this; cases this; rfl
  · rw [e2, pick_length _ _ l2, c7]; rfl
  · intro k x hx
    rw [e2] at hx
    obtain ⟨j, hj, hx⟩ := pick_get _ _ l2 k x hx
    rw [e1] at hx
    obtain ⟨i, hi, hx⟩ := pick_get _ _ l1 j x hx
    refine ⟨j, i, selectionIndex_get _ _ _ hj, hi, ?_⟩
    rw [pk.distances]; exact hx

/-- In the example two of the three objects are detected, and both distances are known. -/
example : (okVal (drawSurvey SurveyExample.env SurveyExample.synth SurveyExample.args
    SurveyExample.st)).map (fun P => (P.selection, P.knownIdx, P.unknownIdx, P.knownDistances))
    = some ([false, true, true], [0, 1], [], [2, 3]) := by decide +kernel

/-! ### C16 -/

/-- The final heap of a survey, sampler by sampler. -/
theorem SurveyRun.samplers {e : SurveyEnv F G} {y : Synth F} {a : SurveyArgs F} {s s' : SurvSt F G}
    {P : Population F} (r : SurveyRun e y a s P s') :
    s'.heap.samplers = r.all.s6.heap.samplers ∧ s'.heap.trace = r.all.s6.heap.trace :=
  ⟨r.build.frame.1.trans r.all.frame7.1, r.build.frame.2.1.trans r.all.frame7.2.1⟩

/-- **C16 (surveys).** The population has an attribute for exactly the samplers
reachable from the attached ones (and the derived luminosity sampler), under the
sampler's name, holding its observed and true values. -/
theorem C16_survey (e : SurveyEnv F G) (y : Synth F) (a : SurveyArgs F) (s s' : SurvSt F G)
    (P : Population F) (hk : drawSurvey e y a s = .ok P s') (hw : WellFormed y.roots s.heap)
    (hd : DownClosed s.heap.children s.heap.sampled) :
    (∀ nm v, Dict.get? P.attrs nm = some v ↔ ∃ j, ReachFrom s.heap y.roots j ∧
      (s.heap.samplers j).name = nm ∧ ∃ t o, (s'.heap.samplers j).trueVals = some t ∧
        (s'.heap.samplers j).obsVals = some o ∧
        v = { obs := o, latent := t, selection := P.selection }) ∧
    (∃ st, P.auxiliary = some st ∧ Reports s'.heap (ReachFrom s.heap y.roots) st) ∧
    P.protectedNames.Nodup ∧
    (∀ nm, nm ∈ P.protectedNames ↔ ∃ j, ReachFrom s.heap y.roots j ∧ (s.heap.samplers j).name = nm) := by
  obtain ⟨r⟩ := drawSurvey_ok hk
  obtain ⟨T, ef⟩ := surveyEff r hw hd
  have pk := mkPopulation_ok r.build.built
  have hsel : P.selection = r.build.gm := pk.rest.2.2.2.1
  have hrep := ef.reports
  obtain ⟨a1, a2, a3, a4⟩ := addAttrs_ok _ hrep.nodup _ _ _ _ pk.aux
  have hsam : ∀ j, s'.heap.samplers j = r.all.s6.heap.samplers j := fun j => by
    rw [r.samplers.1]
  have hname : ∀ j, (r.all.s6.heap.samplers j).name = (s.heap.samplers j).name :=
    fun j => ident_name (ef.eff.ident j)
  refine ⟨?_, ⟨_, pk.rest.2.2.2.2.2.2.2.2.2.2.2.2.2.2.2.1, ?_⟩, ?_, ?_⟩
  · intro nm v
    rw [a3 nm]
    constructor
    · intro hv
      cases hg : Dict.get? r.d.loc.auxq nm with
      | none => rw [hg] at hv; simp at hv
      | some c =>
        rw [hg] at hv
        simp only [Option.some.injEq] at hv
        obtain ⟨j, hj, hn, hc⟩ := (hrep.iff nm c).1 hg
        obtain ⟨o, t, ho, ht, -, -⟩ := a4 nm c hg
        refine ⟨j, hj, by rw [← hname]; exact hn, t, o, ?_, ?_, ?_⟩
        · rw [hsam]; rw [hc] at ht; exact ht
        · rw [hsam]; rw [hc] at ho; exact ho
        · rw [← hv, ho, ht, hsel]; rfl
    · rintro ⟨j, hj, hn, t, o, ht, ho, rfl⟩
      have hg : Dict.get? r.d.loc.auxq nm = some (report r.all.s6.heap j) :=
        (hrep.iff nm _).2 ⟨j, hj, by rw [hname]; exact hn, rfl⟩
      rw [hg]
      rw [hsam] at ht ho
      simp only [report, ht, ho, Option.getD_some, hsel]
      rfl
  · refine ⟨hrep.nodup, fun nm c => ?_⟩
    rw [hrep.iff]
    simp only [report, r.samplers.1]
  · rw [a1]; simpa using hrep.nodup
  · intro nm
    rw [a1, List.nil_append, ← Dict.get?_isSome_iff]
    constructor
    · intro h
      cases hg : Dict.get? r.d.loc.auxq nm with
      | none => rw [hg] at h; cases h
      | some c =>
        obtain ⟨j, hj, hn, -⟩ := (hrep.iff nm c).1 hg
        exact ⟨j, hj, by rw [← hname]; exact hn⟩
    · rintro ⟨j, hj, hn⟩
      rw [(hrep.iff nm _).2 ⟨j, hj, by rw [hname]; exact hn, rfl⟩]; rfl

example : (okVal (drawSurvey SurveyExample.env SurveyExample.synth SurveyExample.args
    SurveyExample.st)).map (fun P => P.protectedNames) = some ["d", "b", "c", "a"] ∧
    WellFormed SurveyExample.synth.roots SurveyExample.st.heap ∧
    DownClosed SurveyExample.st.heap.children SurveyExample.st.heap.sampled :=
  ⟨by decide +kernel, SurveyExample.wellFormed, SurveyExample.downClosed⟩

/-! ### C19 -/

/-- Every selector belongs to one sampler or to one role of the synth. -/
structure Spec.OwnSelectors (y : Synth F) (h : Heap F G) : Prop where
  inj : ∀ i j, ReachFrom h y.roots i → ReachFrom h y.roots j →
    (h.samplers i).selector = (h.samplers j).selector → i = j
  flux : ∀ j, ReachFrom h y.roots j → (h.samplers j).selector ≠ y.fluxSel
  dist : ∀ j, ReachFrom h y.roots j → (h.samplers j).selector ≠ y.distSel
  spat : ∀ j, ReachFrom h y.roots j → some (h.samplers j).selector ≠ y.spatSel
  fluxDist : y.fluxSel ≠ y.distSel
  fluxSpat : some y.fluxSel ≠ y.spatSel
  distSpat : some y.distSel ≠ y.spatSel

/-- Samplers and selections were not used since they were created or reset. -/
structure Spec.Fresh (y : Synth F) (h : Heap F G) : Prop where
  samplers : ∀ j, ReachFrom h y.roots j → h.sampled j = false
  flux : (h.selectors y.fluxSel).isSampled = false
  spat : ∀ p, y.spatSel = some p → (h.selectors p).isSampled = false

/-- Selector `c` holds the mask drawn for `n` objects with settings and data `c0`. -/
def Spec.MaskDrawn (w : World F G) (n : Nat) (c0 c : Selector F G) : Prop :=
  ∃ g t, selDraw w.sel w.half w.ninety w.showProgress n { sel := c0, rng := g } = .ok () t ∧
    c.selection = t.sel.selection

/-- Same class, parameters and quantity selected on. -/
def Spec.SameSettings (c0 c : Selector F G) : Prop :=
  c0.kind = c.kind ∧ c0.params = c.params ∧ c0.data.useFlux = c.data.useFlux ∧
  c0.data.useLuminosity = c.data.useLuminosity ∧ c0.data.useObs = c.data.useObs ∧
  c0.data.useDistance = c.data.useDistance

theorem unity_mask {w : World F G} {n : Nat} {st t : SelSt F G} (hu : st.sel.kind.isUnity = true)
    (h : selDraw w.sel w.half w.ninety w.showProgress n st = .ok () t) :
    t.sel.selection = some (List.replicate n true) := by
  have hk : st.sel.kind = .unity := by
    cases hs : st.sel.kind <;> rw [hs] at hu <;> simp [SelKind.isUnity] at hu <;> rfl
  have : selDraw w.sel w.half w.ninety w.showProgress n st =
      .ok () { st with sel := { st.sel with selection := some (List.replicate n true) } } := by
    simp [selDraw, bind_apply, hk, setMask]
  rw [this] at h; cases h; rfl

/-- The masks of the samplers after a survey. -/
theorem SurveyEff.masks {e : SurveyEnv F G} {y : Synth F} {a : SurveyArgs F} {s s' : SurvSt F G}
    {P : Population F} {r : SurveyRun e y a s P s'} {T : List (Nat × SView F)}
    (ef : SurveyEff e y a s P s' r T) (ho : OwnSelectors y s.heap) (hf : Fresh y s.heap)
    (j : Nat) (hj : ReachFrom s.heap y.roots j) :
    s'.heap.selectors (s.heap.samplers j).selector =
      r.all.s6.heap.selectors (s.heap.samplers j).selector ∧
    ∃ st g', selDraw e.world.sel e.world.half e.world.ninety e.world.showProgress r.d.n st =
        .ok () { sel := s'.heap.selectors (s.heap.samplers j).selector, rng := g' } ∧
      SameSettings st.sel (s.heap.selectors (s.heap.samplers j).selector) ∧
      st.sel.data.obsValue = (s'.heap.samplers j).obsVals := by
  have hkeep : s'.heap.selectors (s.heap.samplers j).selector =
      r.all.s6.heap.selectors (s.heap.samplers j).selector := by
    rw [r.build.frame.2.2.1 _ (ho.dist j hj), r.all.frame7.2.2.1 _ (ho.flux j hj) (ho.spat j hj)]
  refine ⟨hkeep, ?_⟩
  have hjT := (ef.drawn j).2 ⟨hj, hf.samplers j hj⟩
  obtain ⟨x, hx, hxj⟩ := List.mem_map.1 hjT
  obtain ⟨T1, T2, hT⟩ := List.append_of_mem hx
  have hnd := ef.eff.nodup
  have other : ∀ e', e' ∈ T → e'.1 ≠ j →
      (s.heap.samplers e'.1).selector ≠ (s.heap.samplers j).selector := by
    intro e' he' hne hs
    exact hne (ho.inj _ _ ((ef.drawn e'.1).1 (List.mem_map.2 ⟨e', he', rfl⟩)).1 hj hs)
  rw [hT, List.map_append, List.map_cons, List.nodup_append] at hnd
  have h1 : ∀ e' ∈ T1, e'.1 ≠ j := by
    intro e' he' h
    exact hnd.2.2 e'.1 (List.mem_map.2 ⟨e', he', rfl⟩) x.1 (by simp) (by rw [h, hxj])
  have h2 : ∀ e' ∈ T2, e'.1 ≠ j := by
    intro e' he' h
    have := (List.nodup_cons.1 hnd.2.1).1
    exact this (by rw [hxj, ← h]; exact List.mem_map.2 ⟨e', he', rfl⟩)
  have hd := ef.eff.selDrawn T1 x T2 hT
    (fun e' he' => by rw [hxj]; exact other e' (by rw [hT]; simp [he']) (h2 e' he'))
  rw [hxj] at hd
  obtain ⟨st, g', d1, d2, d3, d4⟩ := hd
  refine ⟨st, g', by rw [hkeep]; exact d1, ?_, by rw [r.samplers.1]; exact d2⟩
  have hp := d4 (fun e' he' => other e' (by rw [hT]; simp [he']) (h1 e' he'))
  simp only [Selector.flags, Prod.mk.injEq] at d3
  exact ⟨d3.1, hp, d3.2.2.2.2.2.2.2, d3.2.2.2.2.2.2.1, d3.2.2.2.2.1, d3.2.2.2.2.2.1⟩

/-- **C19.** With samplers and selections freshly reset and no selector used twice, an
object of the returned population is selected iff the flux selection, the spatial
selection and the selection of every reachable sampler select it; and the masks are
the ones drawn with the user's settings for the observed fluxes, the positions and the
observed values of this population. -/
theorem C19_selected_iff (e : SurveyEnv F G) (y : Synth F) (a : SurveyArgs F) (s s' : SurvSt F G)
    (P : Population F) (hk : drawSurvey e y a s = .ok P s') (hw : WellFormed y.roots s.heap)
    (hd : DownClosed s.heap.children s.heap.sampled) (ho : OwnSelectors y s.heap)
    (hf : Fresh y s.heap) :
    (∀ i z, P.selection[i]? = some z → (z = true ↔
      MaskSelects (s'.heap.selectors y.fluxSel) i ∧
      (∀ p, y.spatSel = some p → MaskSelects (s'.heap.selectors p) i) ∧
      ∀ j, ReachFrom s.heap y.roots j →
        MaskSelects (s'.heap.selectors (s.heap.samplers j).selector) i)) ∧
    (∃ c0, MaskDrawn e.world P.selection.length c0 (s'.heap.selectors y.fluxSel) ∧
      SameSettings c0 (s.heap.selectors y.fluxSel) ∧ c0.data.flux = some P.fluxes.obs) ∧
    (∀ p, y.spatSel = some p → ∃ c0, MaskDrawn e.world P.selection.length c0 (s'.heap.selectors p) ∧
      SameSettings c0 (s.heap.selectors p) ∧ c0.data.spatial =
        some { distances := P.distances.obs, galB := e.spatial.galB P.theta.obs P.phi.obs }) ∧
    (∀ j, ReachFrom s.heap y.roots j → ∃ c0,
      MaskDrawn e.world P.selection.length c0 (s'.heap.selectors (s.heap.samplers j).selector) ∧
      SameSettings c0 (s.heap.selectors (s.heap.samplers j).selector) ∧
      c0.data.obsValue = (s'.heap.samplers j).obsVals) := by
  obtain ⟨r⟩ := drawSurvey_ok hk
  obtain ⟨T, ef⟩ := surveyEff r hw hd
  have pk := mkPopulation_ok r.build.built
  have hsel : P.selection = r.build.gm := pk.rest.2.2.2.1
  have hlen : P.selection.length = r.d.n := by rw [hsel, r.gm_length]
  have hmasks := ef.masks ho hf
  -- selectors of the synth are untouched by the samplers
  have huntouched : ∀ q, (∀ j, ReachFrom s.heap y.roots j → (s.heap.samplers j).selector ≠ q) →
      r.all.s6.heap.selectors q = s.heap.selectors q := by
    intro q hq
    exact ef.eff.selKeep q fun x hx => hq x.1 ((ef.drawn x.1).1 (List.mem_map.2 ⟨x, hx, rfl⟩)).1
  have flux6 := huntouched y.fluxSel ho.flux
  -- selectors after applying the selections
  have common : ∀ (q : SelRun e y r.d.n r.d.pos r.d.fluxObs r.d.loc r.all.s6 r.d.glob r.d.prob r.s7),
      s'.heap.selectors y.fluxSel = q.s2.heap.selectors y.fluxSel ∧
      (∀ x, x ≠ y.fluxSel → q.s2.heap.selectors x = r.all.s6.heap.selectors x) ∧
      (∀ p, y.spatSel = some p → s'.heap.selectors p = r.s7.heap.selectors p) := by
    intro q
    refine ⟨?_, ?_, ?_⟩
    · rw [r.build.frame.2.2.1 _ ho.fluxDist]
      rcases applySpatial_ok q.spat with ⟨hn, -, he⟩ | ⟨p, hp, hs, hsl, hadd⟩
      · exact congrArg (fun t => t.heap.selectors y.fluxSel) he
      · have hne : y.fluxSel ≠ p := fun h => ho.fluxSpat (by rw [hp, h])
        rw [(selectOn_ok hsl).others _ hne]
        simp [Heap.modSelector, hne]
    · intro x hx
      rw [(selectOn_ok q.fluxd).others x hx]
      simp [Heap.modSelector, hx]
    · intro p hp
      exact r.build.frame.2.2.1 p fun h => ho.distSpat (by rw [hp, h])
  refine ⟨?_, ?_, ?_, ?_⟩
  · intro i z hz
    have hi : i < r.d.n := by
      rw [← hlen]; exact (List.getElem?_eq_some_iff.1 hz).1
    rw [hsel] at hz
    obtain ⟨q, hq⟩ := r.selection i z (by rw [bget_of_length r.gm_length hi]; exact hz)
    obtain ⟨c1, c2, c3⟩ := common q
    rw [hq, c1]
    have hentry : ∀ j, ReachFrom s.heap y.roots j →
        ((q.s2.heap.selectors (s.heap.samplers j).selector).kind.isUnity = false →
          MaskSelects (q.s2.heap.selectors (s.heap.samplers j).selector) i) →
        MaskSelects (s'.heap.selectors (s.heap.samplers j).selector) i := by
      intro j hj hsl
      obtain ⟨m1, st, g', m2, m3, m4⟩ := hmasks j hj
      rw [c2 _ (ho.flux j hj), ← m1] at hsl
      cases hu : (s'.heap.selectors (s.heap.samplers j).selector).kind.isUnity with
      | false => exact hsl hu
      | true =>
        have hku : st.sel.kind.isUnity = true := by
          rw [m3.1, ← hu, m1]
          have := ef.eff.selStat (s.heap.samplers j).selector
          simp only [Selector.flags, Prod.mk.injEq] at this
          rw [this.1]
        exact ⟨_, unity_mask hku m2, by
          rw [bget_of_length (List.length_replicate ..) hi, List.getElem?_replicate, if_pos hi]⟩
    constructor
    · rintro ⟨b1, b2, b3⟩
      refine ⟨b1, fun p hp => by rw [c3 p hp]; exact b2 p hp, fun j hj => ?_⟩
      apply hentry j hj
      have hg := (ef.reports.iff (r.all.s6.heap.samplers j).name (report r.all.s6.heap j)).2
        ⟨j, hj, rfl, rfl⟩
      have := b3 (_, _) (Dict.mem_of_get? hg)
      simp only [report, ident_selector (ef.eff.ident j)] at this
      exact this
    · rintro ⟨b1, b2, b3⟩
      refine ⟨b1, fun p hp => by rw [← c3 p hp]; exact b2 p hp, fun kv hkv _ => ?_⟩
      obtain ⟨nm, c⟩ := kv
      obtain ⟨j, hj, hn, hc⟩ := (ef.reports.iff nm c).1 (Dict.get?_of_mem ef.reports.nodup hkv)
      have hcs : c.selection = (s.heap.samplers j).selector := by
        rw [hc]; exact ident_selector (ef.eff.ident j)
      simp only [hcs]
      rw [c2 _ (ho.flux j hj), ← (hmasks j hj).1]
      exact b3 j hj
  · obtain ⟨q⟩ := applySelections_ok r.all.selected
    obtain ⟨c1, c2, c3⟩ := common q
    have hrun := selectOn_ok q.fluxd
    obtain ⟨t, t1, t2⟩ := hrun.drawn (by simp [Heap.modSelector, flux6, hf.flux])
    refine ⟨_, ⟨_, t, by rw [hlen]; exact t1, by rw [c1, t2]⟩, ?_, ?_⟩
    · simp [SameSettings, Heap.modSelector, flux6]
    · simp [Heap.modSelector, pk.fluxes, popArgs]
  · intro p hp
    obtain ⟨q⟩ := applySelections_ok r.all.selected
    obtain ⟨c1, c2, c3⟩ := common q
    have hpf : p ≠ y.fluxSel := fun h => ho.fluxSpat (by rw [hp, h])
    have hp6 : q.s2.heap.selectors p = s.heap.selectors p := by
      rw [c2 p hpf]
      exact huntouched p fun j hj h => ho.spat j hj (by rw [h, hp])
    rcases applySpatial_ok q.spat with ⟨hn, -, he⟩ | ⟨p', hp', hs, hsl, hadd⟩
    · rw [hn] at hp; cases hp
    · rw [hp] at hp'; cases hp'
      have hrun := selectOn_ok hsl
      obtain ⟨t, t1, t2⟩ := hrun.drawn (by simp [Heap.modSelector, hp6, hf.spat p hp])
      refine ⟨_, ⟨_, t, by rw [hlen]; exact t1, by rw [c3 p hp, t2]⟩, ?_, ?_⟩
      · simp [SameSettings, Heap.modSelector, hp6]
      · simp [Heap.modSelector, pk.distances, pk.theta, pk.phi, popArgs]
  · intro j hj
    obtain ⟨-, st, g', m2, m3, m4⟩ := hmasks j hj
    exact ⟨st.sel, ⟨st.rng, _, by rw [hlen]; exact m2, rfl⟩, m3, m4⟩

theorem SurveyExample.ownSelectors :
    OwnSelectors SurveyExample.synth SurveyExample.st.heap := by
  have h : ∀ i ∈ [0, 1, 2, 3], (SurveyExample.st.heap.samplers i).selector ≠ 10 ∧
      (SurveyExample.st.heap.samplers i).selector ≠ 11 ∧
      ∀ j ∈ [0, 1, 2, 3], (SurveyExample.st.heap.samplers i).selector =
        (SurveyExample.st.heap.samplers j).selector → i = j := by decide
  have hm : ∀ j, ReachFrom SurveyExample.st.heap SurveyExample.synth.roots j →
      j ∈ [0, 1, 2, 3] := by
    intro j hj; have := SurveyExample.reachFrom_le j hj; simp; omega
  exact ⟨fun i j hi hj => (h i (hm i hi)).2.2 j (hm j hj), fun j hj => (h j (hm j hj)).1,
    fun j hj => (h j (hm j hj)).2.1, fun j _ => by simp [SurveyExample.synth], by decide,
    by decide, by decide⟩

theorem SurveyExample.fresh : Fresh SurveyExample.synth SurveyExample.st.heap :=
  ⟨fun j _ => SamplerExample.unsampled j, rfl, fun p hp => by cases hp⟩

/-- The hypotheses of C19 hold in the example: the first object fails the flux
selection. -/
example : ∃ P, P.selection = [false, true, true] ∧
    drawSurvey SurveyExample.env SurveyExample.synth SurveyExample.args SurveyExample.st
      = .ok P SurveyExample.final ∧
    ¬ MaskSelects (SurveyExample.final.heap.selectors SurveyExample.synth.fluxSel) 0 ∧
    MaskSelects (SurveyExample.final.heap.selectors (SurveyExample.st.heap.samplers 2).selector) 1 := by
  obtain ⟨P, hP⟩ := SurveyExample.survey_ok
  have hs : P.selection = [false, true, true] := by
    have h3 : (okVal (drawSurvey SurveyExample.env SurveyExample.synth SurveyExample.args
        SurveyExample.st)).map (fun P => P.selection) = some [false, true, true] := by decide +kernel
    rw [(okVal_ok hP).1] at h3
    simpa using h3
  have key := (C19_selected_iff _ _ _ _ _ _ hP SurveyExample.wellFormed SurveyExample.downClosed
    SurveyExample.ownSelectors SurveyExample.fresh).1
  refine ⟨P, hs, hP, ?_, ?_⟩
  · intro h
    obtain ⟨m, hm, hb⟩ := h
    have : (SurveyExample.final.heap.selectors SurveyExample.synth.fluxSel).selection =
        some [false, true, true] := by decide +kernel
    rw [this] at hm; cases hm
    exact absurd hb (by decide)
  · exact ((key 1 true (by rw [hs]; rfl)).1 rfl).2.2 2
      ⟨0, by decide, .step (c := 2) (by decide) (.here _)⟩

/-- **C19 (hard flux limit).** Every selected object's observed flux is at least the
boundary the user set. -/
theorem C19_hard_flux (e : SurveyEnv F G) (y : Synth F) (a : SurveyArgs F) (s s' : SurvSt F G)
    (P : Population F) (hk : drawSurvey e y a s = .ok P s') (hw : WellFormed y.roots s.heap)
    (hd : DownClosed s.heap.children s.heap.sampled) (ho : OwnSelectors y s.heap)
    (hf : Fresh y s.heap) (b : F)
    (hkind : (s.heap.selectors y.fluxSel).kind = .lower)
    (hflag : (s.heap.selectors y.fluxSel).data.useFlux = true)
    (hb : outcome (paramGet (declBoundary : ParamDecl F) "boundary"
      (s.heap.selectors y.fluxSel).params) = .ok b) (i : Nat)
    (hi : P.selection[i]? = some true) : ∃ x, P.fluxes.obs[i]? = some x ∧ b ≤ x := by
  obtain ⟨k1, ⟨c0, ⟨g, t, k2, k3⟩, ⟨k4, k5, k6, -⟩, k7⟩, -⟩ :=
    C19_selected_iff e y a s s' P hk hw hd ho hf
  obtain ⟨⟨m, hm, hbm⟩, -⟩ := (k1 i true hi).1 rfl
  obtain ⟨t', m', d1, d2, d3, -⟩ := C05_lower e.world.sel e.world.half e.world.ninety
    e.world.showProgress { sel := c0, rng := g } P.selection.length P.fluxes.obs b (k4.trans hkind)
    (by simp [source, k6, hflag, k7]) (by simp only [k5]; exact hb)
  rw [d1] at k2; cases k2
  rw [k3, d2] at hm; cases hm
  have hn : P.fluxes.obs.length = P.selection.length := by
    obtain ⟨n, h1, -⟩ := C18_lengths e y a s s' P hk
    rw [h1.1]; exact (h1.2.1 _ (by simp)).1
  have hil : i < P.selection.length := (List.getElem?_eq_some_iff.1 hi).1
  rw [bget_of_length (d3.1.trans hn) hil] at hbm
  obtain ⟨hlt, hget⟩ := List.getElem?_eq_some_iff.1 hbm
  have hfl : i < P.fluxes.obs.length := by rw [hn]; exact hil
  exact ⟨P.fluxes.obs[i], by simp [hfl], (d3.2 i hlt hfl).1 hget⟩

/-- The boundary of the example's flux selection is 4. -/
example : outcome (paramGet (declBoundary : ParamDecl Nat) "boundary"
    (SurveyExample.st.heap.selectors SurveyExample.synth.fluxSel).params) = .ok 4 := by decide +kernel

/-- **C19 is violated** when two samplers share a selector: the mask drawn for the
first is overwritten.  Here the first object is selected although the observed value of
`"a"` is below the selection boundary 3. -/
theorem C19_violated_shared_selector :
    ∃ (e : SurveyEnv Nat Nat) (y : Synth Nat) (a : SurveyArgs Nat) (s s' : SurvSt Nat Nat)
      (P : Population Nat) (v : SimVar Nat),
      drawSurvey e y a s = .ok P s' ∧ WellFormed y.roots s.heap ∧
      DownClosed s.heap.children s.heap.sampled ∧ Fresh y s.heap ∧
      (s.heap.samplers 0).selector = (s.heap.samplers 1).selector ∧
      (s.heap.selectors (s.heap.samplers 0).selector).kind = .lower ∧
      (s.heap.selectors (s.heap.samplers 0).selector).data.useObs = true ∧
      outcome (paramGet (declBoundary : ParamDecl Nat) "boundary"
        (s.heap.selectors (s.heap.samplers 0).selector).params) = .ok 3 ∧
      Dict.get? P.attrs "a" = some v ∧ v.obs[0]? = some 1 ∧ P.selection[0]? = some true := by
  let code : Nat → SamplerCode Nat Nat := fun j =>
    { trueSampler := fun v n g =>
        { trueVals := some (List.replicate n (if j = 0 then 1 else 5)), obsVals := v.obsVals,
          params := v.params, rng := g }
      obsSampler := fun v n g =>
        { trueVals := v.trueVals, obsVals := v.trueVals, params := v.params, rng := g } }
  let e : SurveyEnv Nat Nat :=
    { SurveyExample.env with world := { SamplerExample.w with code := code } }
  let s : SurvSt Nat Nat :=
    { heap :=
        { samplers := fun j => { name := if j = 0 then "a" else "b", obsName := "", selector := 2,
                                 isObserved := false }
          selectors := fun q => if q = 2 then
              { kind := .lower, cls := "LowerBound",
                params := { storage := [("boundary", some 3)] }, data := { useObs := true } }
            else { kind := .unity }
          rng := 0 }
      sp := {}, lum := {}, graph := {} }
  let y : Synth Nat := { SurveyExample.synth with aux := [("a", 0), ("b", 1)] }
  obtain ⟨P, hP⟩ : ∃ P, drawSurvey e y {} s = .ok P (endState (drawSurvey e y {} s)) :=
    exists_ok_of_isOk (by decide +kernel)
  have hroots : y.roots = [0, 1] := rfl
  obtain ⟨w1, w2⟩ := SurveyExample.wellFormed_flat y.roots s.heap (fun _ => rfl)
    (by rw [hroots]; decide) (by rw [hroots]; decide)
  have hv : (okVal (drawSurvey e y {} s)).map (fun P =>
      (((Dict.get? P.attrs "a").map (fun v => v.obs[0]?)), P.selection[0]?)) =
      some (some (some 1), some true) := by decide +kernel
  rw [(okVal_ok hP).1] at hv
  simp only [Option.map_some, Option.some.injEq, Prod.mk.injEq] at hv
  cases hg : Dict.get? P.attrs "a" with
  | none => rw [hg] at hv; simp at hv
  | some v =>
    rw [hg] at hv
    simp only [Option.map_some, Option.some.injEq] at hv
    exact ⟨e, y, {}, s, _, P, v, hP, w1, fun j hj => (by cases hj),
      ⟨fun _ _ => rfl, rfl, fun p hp => (by cases hp)⟩, rfl, rfl, rfl, by decide +kernel, hg, hv.1, hv.2⟩

/-! ### C17 -/

/-- Attached dependencies are marked as secondary (invariant of
`set_secondary_sampler`, see `C12_attach`). -/
def Spec.ChildrenSecondary (h : Heap F G) : Prop :=
  ∀ i, ∀ c ∈ h.children i, (h.samplers c).isSecondary = true

omit [LE F] [DecidableLE F] [OfNat F 0] [OfNat F 1] in
theorem reach_secondary {h : Heap F G} (hc : ChildrenSecondary h) {i j : Nat}
    (hr : Reach h.children i j) : j = i ∨ (h.samplers j).isSecondary = true := by
  induction hr with
  | here => exact .inl rfl
  | @step i c j hm _ ih =>
    rcases ih with h1 | h1
    · exact .inr (by rw [h1]; exact hc i c hm)
    · exact .inr h1

/-- **C17 (positions, surveys).** Every not-yet-sampled sampler reachable from the
attached ones runs its `true_sampler` exactly once, and sees the positions of the
returned population. -/
theorem C17_survey_positions (e : SurveyEnv F G) (y : Synth F) (a : SurveyArgs F)
    (s s' : SurvSt F G) (P : Population F) (hk : drawSurvey e y a s = .ok P s')
    (hw : WellFormed y.roots s.heap) (hd : DownClosed s.heap.children s.heap.sampled) :
    ∃ T, s'.heap.trace = s.heap.trace ++ T ∧ (T.map Prod.fst).Nodup ∧
      (∀ j, j ∈ T.map Prod.fst ↔ ReachFrom s.heap y.roots j ∧ s.heap.sampled j = false) ∧
      ∀ x ∈ T, x.2.spatial =
        some { distance := P.distances.obs, theta := P.theta.obs, phi := P.phi.obs } := by
  obtain ⟨r⟩ := drawSurvey_ok hk
  obtain ⟨T, ef⟩ := surveyEff r hw hd
  have pk := mkPopulation_ok r.build.built
  refine ⟨T, by rw [r.samplers.2, ef.eff.trace], ef.eff.nodup, ef.drawn, fun x hx => ?_⟩
  rw [(ef.eff.views x hx).1, pk.distances, pk.theta, pk.phi]
  rfl

/-- **C17 (luminosities, partial).** An attached sampler sees the luminosities of the
returned population, and so does a sampler that declares `uses_luminosity` and is a
direct dependency of every attached sampler that leads to it (and not a dependency of
the derived luminosity sampler, which runs before luminosities exist).  *Missing*:
dependencies of dependencies never get the luminosities, see
`C17_violated_deep_luminosity`. -/
theorem C17_survey_luminosity_partial (e : SurveyEnv F G) (y : Synth F) (a : SurveyArgs F)
    (s s' : SurvSt F G) (P : Population F) (hk : drawSurvey e y a s = .ok P s')
    (hw : WellFormed y.roots s.heap) (hd : DownClosed s.heap.children s.heap.sampled)
    (hc : ChildrenSecondary s.heap) :
    ∃ T, s'.heap.trace = s.heap.trace ++ T ∧
      (∀ j, j ∈ T.map Prod.fst ↔ ReachFrom s.heap y.roots j ∧ s.heap.sampled j = false) ∧
      (∀ x ∈ T, x.1 ∈ y.aux.map Prod.snd → y.derived ≠ some x.1 →
        x.2.luminosity = some P.luminosities.obs) ∧
      (∀ x ∈ T, (s.heap.samplers x.1).usesLuminosity = true →
        (∀ k ∈ y.aux.map Prod.snd, Reach s.heap.children k x.1 →
          x.1 = k ∨ x.1 ∈ s.heap.children k) →
        (∀ d, y.derived = some d → ¬ Reach s.heap.children d x.1) →
        x.2.luminosity = some P.luminosities.obs) := by
  obtain ⟨r⟩ := drawSurvey_ok hk
  obtain ⟨T, ef⟩ := surveyEff r hw hd
  have pk := mkPopulation_ok r.build.built
  have hl : P.luminosities.obs = r.d.lums := by rw [pk.luminosities]; rfl
  refine ⟨T, by rw [r.samplers.2, ef.eff.trace], ef.drawn, ?_, ?_⟩
  · intro x hx hm hnd
    rw [hl]
    refine ef.lumTop x hx hm ?_ fun d hd' h => hnd (by rw [hd', h])
    intro k _ hne hr
    obtain ⟨kv, hkv, hkx⟩ := List.mem_map.1 hm
    have hp := ef.primary kv hkv
    rw [hkx] at hp
    rcases reach_secondary hc hr with h | h
    · exact hne h.symm
    · rw [hp] at h; cases h
  · intro x hx hu h1 h2
    rw [hl]; exact ef.lumSec x hx hu h1 h2

example : ChildrenSecondary SurveyExample.st.heap := by
  intro i
  match i with
  | 0 => decide
  | 1 => decide
  | 2 => decide
  | 3 => decide
  | i + 4 => intro c hc; cases hc

/-- The attached sampler of the example saw the luminosities 2, 3, 4 and the positions. -/
example : SurveyExample.final.heap.trace.map (fun x => (x.1, x.2.luminosity,
    x.2.spatial.map Spatial.distance)) =
    [(3, none, some [1, 2, 3]), (1, none, some [1, 2, 3]), (2, none, some [1, 2, 3]),
     (0, some [2, 3, 4], some [1, 2, 3])] := by decide +kernel

/-- **C17 is violated**: a dependency of a dependency that declares `uses_luminosity`
is drawn without any luminosity. -/
theorem C17_violated_deep_luminosity :
    ∃ (e : SurveyEnv Nat Nat) (y : Synth Nat) (a : SurveyArgs Nat) (s s' : SurvSt Nat Nat)
      (P : Population Nat) (v : SView Nat),
      drawSurvey e y a s = .ok P s' ∧ ReachFrom s.heap y.roots 2 ∧
      (s.heap.samplers 2).usesLuminosity = true ∧ s.heap.sampled 2 = false ∧
      (2, v) ∈ s'.heap.trace ∧ v.luminosity = none := by
  let s : SurvSt Nat Nat :=
    { heap :=
        { samplers := fun j => match j with
            | 0 => { name := "a", obsName := "", selector := 0, isObserved := false,
                     secondaries := [("b", 1)], hasSecondary := true }
            | 1 => { name := "b", obsName := "", selector := 1, isObserved := false,
                     secondaries := [("c", 2)], hasSecondary := true, isSecondary := true }
            | _ => { name := "c", obsName := "", selector := 2, isObserved := false,
                     isSecondary := true, usesLuminosity := true }
          selectors := fun _ => { kind := .unity }
          rng := 0 }
      sp := {}, lum := {}, graph := {} }
  let e := SurveyExample.env
  let y := SurveyExample.synth
  obtain ⟨P, hP⟩ : ∃ P, drawSurvey e y {} s = .ok P (endState (drawSurvey e y {} s)) :=
    exists_ok_of_isOk (by decide +kernel)
  have hv : ((endState (drawSurvey e y {} s)).heap.trace.map
      fun x => (x.1, x.2.luminosity)) = [(2, none), (1, none), (0, some [2, 3, 4])] := by
    decide +kernel
  have hm : (2, (none : Option (List Nat))) ∈ (endState (drawSurvey e y {} s)).heap.trace.map
      (fun x => (x.1, x.2.luminosity)) := by rw [hv]; simp
  obtain ⟨x, hx, hxe⟩ := List.mem_map.1 hm
  obtain ⟨i, v⟩ := x
  simp only [Prod.mk.injEq] at hxe
  obtain ⟨rfl, hl⟩ := hxe
  exact ⟨e, y, {}, s, _, P, v, hP, ⟨0, by decide, .step (c := 1) (by decide)
    (.step (c := 2) (by decide) (.here _))⟩, rfl, rfl, hx, hl⟩

end Popsynth
