import Verif.Lemmas.SurveyPlain
import Verif.Spec.Attached

/-!
# Attached samplers in a survey
-/

set_option autoImplicit false
set_option linter.unusedSectionVars false

namespace Popsynth
open Spec

variable {F G : Type} [LE F] [DecidableLE F] [OfNat F 0] [OfNat F 1]

/-- The quantity that is stored. -/
def Spec.Gain.quantity (d : Gain F) : SecC F :=
  { name := d.key, trueVals := some d.ts, obsVals := some d.os, selection := d.sel, prob := d.prob }

/-- Name and numbers. -/
def Spec.Gain.who (d : Gain F) : String × Nat × Nat := (d.key, d.id, d.sel)

theorem alone_gain {h : Heap F G} {d : Gain F} (ha : Alone h d.who) :
    (h.samplers d.id).name = d.key ∧ (h.samplers d.id).selector = d.sel ∧
    (h.samplers d.id).isSecondary = false ∧ (h.samplers d.id).secondaries = [] ∧
    (h.samplers d.id).hasSecondary = false :=
  ⟨ha.name, ha.selector, ha.secondary, ha.secondaries, ha.hasSecondary⟩

/-- Luminosities and positions have been handed to a sampler. -/
def handed (ls : List F) (v : Spatial F) (i : Nat) (h : Heap F G) : Heap F G :=
  h.modSampler i fun s => { s with luminosity := some ls, spatial := some v }

/-- The attached samplers are drawn one after the other. -/
inductive Takes (w : World F G) (k n : Nat) (ls : List F) (v : Spatial F) :
    Heap F G → List (Gain F) → Heap F G → Prop
  | nil (h : Heap F G) : Takes w k n ls v h [] h
  | cons {h h1 h2 : Heap F G} {d : Gain F} {l : List (Gain F)} : Alone h d.who →
      Played w k n (handed ls v d.id h) h1 d → Takes w k n ls v h1 l h2 →
      Takes w k n ls v h (d :: l) h2

variable {e : SurveyEnv F G} {n : Nat} {ls : List F} {v : Spatial F}

theorem prepareAux_alone {h : Heap F G} {d : Gain F} (ha : Alone h d.who) :
    prepareAux ls v d.id h = .ok () (handed ls v d.id h) := by
  unfold prepareAux
  have e1 : ((h.modSampler d.id fun s => { s with luminosity := some ls }).modSampler d.id fun s =>
      { s with spatial := some v }) = handed ls v d.id h := by
    unfold handed Heap.modSampler
    congr 1
    funext j
    by_cases hj : j = d.id <;> simp [hj]
  have e2 : ((handed ls v d.id h).samplers d.id).secondaries = [] := by
    simp [handed, Heap.modSampler, (alone_gain ha).2.2.2.1]
  have k1 : setLuminosity d.id ls h =
      .ok () (h.modSampler d.id fun s => { s with luminosity := some ls }) := rfl
  have k2 : setSpatialValues d.id v (h.modSampler d.id fun s => { s with luminosity := some ls }) =
      .ok () (handed ls v d.id h) := by rw [← e1]; rfl
  rw [bind_of_ok k1, bind_of_ok k2, bind_of_ok (get_apply _), e2]
  rfl

theorem storage_add_fresh {q : Storage F} {k : String} {c : SecC F} (hk : k ≠ "")
    (h1 : ∀ p ∈ q, p.1 ≠ "") (h2 : k ∉ q.map Prod.fst) : Storage.add q [(k, c)] = q ++ [(k, c)] := by
  unfold Storage.add
  cases q with
  | nil => simp [Storage.isEmpty]
  | cons p q =>
    have e1 : Storage.isEmpty (p :: q) = false := by
      simp [Storage.isEmpty, h1 p (by simp)]
    have e2 : Storage.isEmpty [(k, c)] = false := by simp [Storage.isEmpty, hk]
    rw [e1, e2]
    simp only [Bool.false_eq_true, if_false, List.foldl_cons, List.foldl_nil]
    exact Dict.set_append_of_not_mem _ _ _ h2

theorem auxStep_played {k : Nat} (hf : e.frames = k + 1) {t : SurvSt F G} {h1 : Heap F G} {d : Gain F}
    (ha : Alone t.heap d.who) (hp : Played e.world (k + 1) n (handed ls v d.id t.heap) h1 d)
    {loc : Loc F} (hk : d.key ≠ "") (hq1 : ∀ p ∈ loc.auxq, p.1 ≠ "")
    (hq2 : d.key ∉ loc.auxq.map Prod.fst) :
    ∃ loc', auxStep e n ls v loc (d.key, d.id) t = .ok loc' { t with heap := h1 } ∧
      loc'.auxq = loc.auxq ++ [(d.key, d.quantity)] ∧ loc'.prob = loc.prob := by
  have hn : (h1.samplers d.id).name = d.key := by
    rw [hp.name]; simp [handed, Heap.modSampler, (alone_gain ha).1]
  have hs : (h1.samplers d.id).selector = d.sel := by
    rw [hp.selector]; simp [handed, Heap.modSampler, (alone_gain ha).2.1]
  have h2 : (h1.samplers d.id).hasSecondary = false := by
    rw [hp.hasSecondary]; simp [handed, Heap.modSampler, (alone_gain ha).2.2.2.2]
  have e1 : onHeap (prepareAux ls v d.id) t = .ok () { t with heap := handed ls v d.id t.heap } :=
    onHeap_of_ok (prepareAux_alone ha)
  have e2 : onHeap (samplerDraw e.world e.frames d.id n) { t with heap := handed ls v d.id t.heap } =
      .ok () { t with heap := h1 } := by
    rw [hf]; exact onHeap_of_ok hp.run
  have e3 : secProps h1 e.frames d.id = .ok [(d.key, d.quantity)] := by
    rw [hf]
    simp only [secProps, h2, hn, hs, hp.trueVals, hp.obsVals, hp.prob]
    rfl
  have l1 : lenIs (h1.samplers d.id).trueVals n = true := by simp [lenIs, hp.trueVals, hp.lens.1]
  have l2 : lenIs (h1.samplers d.id).obsVals n = true := by simp [lenIs, hp.obsVals, hp.lens.2.1]
  refine ⟨{ loc with
    auxq := Storage.add loc.auxq [(d.key, d.quantity)]
    truth := secTruths h1 d.id
      (Dict.set loc.truth (h1.samplers d.id).name (truthOf (h1.samplers d.id).params)) }, ?_,
    storage_add_fresh (c := d.quantity) hk hq1 hq2, rfl⟩
  · unfold auxStep
    rw [bind_of_ok (get_apply _)]
    simp only [(alone_gain ha).2.2.1, Bool.not_false, pyAssert, if_true]
    refine (bind_of_ok (pure_apply _ _)).trans ?_
    rw [bind_of_ok e1, bind_of_ok e2, bind_of_ok (get_apply _)]
    simp only [l1, l2, if_true]
    refine (bind_of_ok (pure_apply _ _)).trans ((bind_of_ok (pure_apply _ _)).trans ?_)
    refine (bind_of_ok (liftE_of_ok _ e3)).trans rfl

/-- The stored quantities. -/
def entriesOf (l : List (Gain F)) : Storage F := l.map fun d => (d.key, d.quantity)

theorem takes_fold {k : Nat} (hf : e.frames = k + 1) {h h' : Heap F G} {l : List (Gain F)}
    (ht : Takes e.world (k + 1) n ls v h l h') :
    ∀ (t : SurvSt F G) (loc : Loc F), t.heap = h → (∀ d ∈ l, d.key ≠ "") → (l.map Gain.key).Nodup →
      (∀ p ∈ loc.auxq, p.1 ≠ "") → (∀ d ∈ l, d.key ∉ loc.auxq.map Prod.fst) →
      ∃ loc', foldPy (l.map fun d => (d.key, d.id)) loc (auxStep e n ls v) t =
        .ok loc' { t with heap := h' } ∧ loc'.auxq = loc.auxq ++ entriesOf l ∧
        loc'.prob = loc.prob := by
  induction ht with
  | nil h =>
    intro t loc hh _ _ _ _
    exact ⟨loc, by rw [← hh]; rfl, by simp [entriesOf], rfl⟩
  | @cons h h1 h2 d l ha hp _ ih =>
    intro t loc hh hk hn hq1 hq2
    subst hh
    obtain ⟨loc1, a1, a2, a3⟩ := auxStep_played hf ha hp (loc := loc) (hk d (by simp)) hq1
      (hq2 d (by simp))
    rw [List.map_cons, List.nodup_cons] at hn
    obtain ⟨loc2, b1, b2, b3⟩ := ih { t with heap := h1 } loc1 rfl
      (fun d' hd' => hk d' (by simp [hd'])) hn.2
      (by
        intro p hpm
        rw [a2, List.mem_append, List.mem_singleton] at hpm
        rcases hpm with hpm | rfl
        · exact hq1 p hpm
        · exact hk d (by simp))
      (by
        intro d' hd' hm
        rw [a2, List.map_append, List.mem_append] at hm
        rcases hm with hm | hm
        · exact hq2 d' (by simp [hd']) hm
        · simp only [List.map_cons, List.map_nil, List.mem_singleton] at hm
          exact hn.1 (hm ▸ List.mem_map_of_mem hd'))
    refine ⟨loc2, ?_, by rw [b2, a2]; simp [entriesOf], by rw [b3, a3]⟩
    rw [List.map_cons, foldPy_cons, bind_of_ok a1]
    exact b1

/-- What is left on the heap. -/
theorem takes_heap {k : Nat} {w : World F G} {h h' : Heap F G} {l : List (Gain F)}
    (ht : Takes w k n ls v h l h') : (l.map Gain.sel).Nodup →
      (∀ q, q ∉ l.map Gain.sel → h'.selectors q = h.selectors q) ∧
      (∀ d ∈ l, (h'.selectors d.sel).selection = some d.mask ∧
        (h'.selectors d.sel).kind = (h.selectors d.sel).kind ∧
        ((h.selectors d.sel).kind.isUnity = true → d.mask = List.replicate n true) ∧
        d.ts.length = n ∧ d.os.length = n ∧ d.mask.length = n ∧ d.prob.length = n) ∧
      ∀ i, (h'.samplers i).isSecondary = (h.samplers i).isSecondary ∧
        (h'.samplers i).secondaries = (h.samplers i).secondaries := by
  induction ht with
  | nil h => exact fun _ => ⟨fun _ _ => rfl, fun _ hd => (by cases hd), fun _ => ⟨rfl, rfl⟩⟩
  | @cons h h1 h2 d l ha hp _ ih =>
    intro hn
    rw [List.map_cons, List.nodup_cons] at hn
    obtain ⟨i1, i2, i3⟩ := ih hn.2
    have hsel : ∀ q, (handed ls v d.id h).selectors q = h.selectors q := fun _ => rfl
    refine ⟨?_, ?_, ?_⟩
    · intro q hq
      rw [List.map_cons, List.mem_cons, not_or] at hq
      rw [i1 q hq.2, hp.selectors q hq.1, hsel]
    · intro d' hd'
      rw [List.mem_cons] at hd'
      rcases hd' with rfl | hd'
      · rw [i1 _ hn.1]
        exact ⟨hp.selection, hp.kind, hp.unity, hp.lens⟩
      · obtain ⟨j1, j2, j3, j4⟩ := i2 d' hd'
        have hne : d'.sel ≠ d.sel := fun h => hn.1 (h ▸ List.mem_map_of_mem hd')
        rw [hp.selectors _ hne, hsel] at j2 j3
        exact ⟨j1, j2, j3, j4⟩
    · intro i
      obtain ⟨j1, j2⟩ := i3 i
      by_cases hi : i = d.id
      · subst hi
        rw [j1, j2, hp.secondary, hp.secondaries]
        simp [handed, Heap.modSampler]
      · rw [j1, j2, hp.others i hi]
        simp [handed, Heap.modSampler, hi]

/-- What all of the samplers select. -/
def commonMask (n : Nat) (l : List (Gain F)) : List Bool :=
  l.foldl (fun m d => List.zipWith (· && ·) m d.mask) (List.replicate n true)

theorem and_true_right (m : List Bool) :
    List.zipWith (· && ·) m (List.replicate m.length true) = m := by
  induction m with
  | nil => rfl
  | cons b m ih =>
    rw [List.length_cons, List.replicate_succ, List.zipWith_cons_cons, ih]
    simp

theorem apply_fold {t : SurvSt F G} {l : List (Gain F)}
    (hd : ∀ d ∈ l, (t.heap.selectors d.sel).selection = some d.mask ∧
      ((t.heap.selectors d.sel).kind.isUnity = true → d.mask = List.replicate n true) ∧
      d.mask.length = n ∧ d.prob.length = n) :
    ∀ (x : Selector F G) (m : List Bool) (prob : List F), x.selection = some m → m.length = n →
      prob.length = n → ∃ x' prob', foldPy (entriesOf l) (x, prob) (applyAux e) t = .ok (x', prob') t ∧
        x'.selection = some (l.foldl (fun m d => List.zipWith (· && ·) m d.mask) m) ∧ prob'.length = n := by
  induction l with
  | nil => intro x m prob hx _ hl; exact ⟨x, prob, rfl, hx, hl⟩
  | cons d l ih =>
    intro x m prob hx hm hl
    obtain ⟨c1, c2, c3, hpr⟩ := hd d (by simp)
    have hsub := fun d' (hd' : d' ∈ l) => hd d' (by simp [hd'])
    rw [show entriesOf (d :: l) = (d.key, d.quantity) :: entriesOf l from rfl, foldPy_cons]
    by_cases hu : (t.heap.selectors d.sel).kind.isUnity = true
    · have e1 : applyAux e (x, prob) (d.key, d.quantity) t = .ok (x, prob) t := by
        unfold applyAux
        rw [bind_of_ok (get_apply _)]
        have hu' : (t.heap.selectors d.quantity.selection).kind.isUnity = true := hu
        simp only [hu', if_true]
        rfl
      obtain ⟨x', prob', h1, h2, h3⟩ := ih hsub x m prob hx hm hl
      refine ⟨x', prob', by rw [bind_of_ok e1]; exact h1, ?_, h3⟩
      rw [List.foldl_cons, c2 hu, ← hm, and_true_right]
      exact h2
    · obtain ⟨r, a1, a2⟩ := add_of_masks hx c1 (by rw [hm, c3])
      have e0 : inPlace e.mul prob d.quantity.prob = .ok (List.zipWith e.mul prob d.prob) :=
        inPlace_of_length _ (by rw [hl]; exact hpr.symm)
      have e1 : applyAux e (x, prob) (d.key, d.quantity) t =
          .ok (r, List.zipWith e.mul prob d.prob) t := by
        unfold applyAux
        rw [bind_of_ok (get_apply _)]
        have hu' : (t.heap.selectors d.quantity.selection).kind.isUnity = false :=
          Bool.not_eq_true _ ▸ hu
        simp only [hu', Bool.false_eq_true, if_false]
        refine (bind_of_ok (liftE_of_ok _ e0)).trans ?_
        exact (bind_of_ok (liftE_of_ok _ a1)).trans rfl
      obtain ⟨x', prob', h1, h2, h3⟩ := ih hsub r _ (List.zipWith e.mul prob d.prob) a2
        (by simp [hm, c3]) (by simp [hl, hpr])
      exact ⟨x', prob', by rw [bind_of_ok e1]; exact h1, h2, h3⟩

theorem commonMask_length (l : List (Gain F)) (h : ∀ d ∈ l, d.mask.length = n) :
    (commonMask n l).length = n := by
  have : ∀ (l : List (Gain F)) (m : List Bool), m.length = n → (∀ d ∈ l, d.mask.length = n) →
      (l.foldl (fun m d => List.zipWith (· && ·) m d.mask) m).length = n := by
    intro l
    induction l with
    | nil => exact fun m hm _ => hm
    | cons d l ih =>
      intro m hm hd
      exact ih _ (by simp [hm, hd d (by simp)]) fun d' hd' => hd d' (by simp [hd'])
  exact this l _ (by simp) h

/-- The attributes of the population. -/
theorem entries_attrs (m : List Bool) : ∀ (l : List (Gain F)) (a : Dict (SimVar F)),
    (a.map Prod.fst ++ l.map Gain.key).Nodup →
      (entriesOf l).foldl (fun a p => Dict.set a p.1 (quantityVar m p.2)) a =
      a ++ l.map fun d => (d.key, { obs := d.os, latent := d.ts, selection := m })
  | [], a, _ => by simp [entriesOf]
  | d :: l, a, hn => by
    have hk : d.key ∉ a.map Prod.fst := by
      rw [List.nodup_append] at hn
      intro hm
      exact hn.2.2 _ hm d.key (by simp) rfl
    rw [show entriesOf (d :: l) = (d.key, d.quantity) :: entriesOf l from rfl, List.foldl_cons,
      Dict.set_append_of_not_mem _ _ _ hk, entries_attrs m l]
    · simp [quantityVar, Gain.quantity]
    · rw [List.map_append, List.append_assoc]; simpa using hn

/-- The samplers of a survey. -/
theorem takes_played {y : Synth F} {s : SurvSt F G} {k : Nat} (hf : e.frames = k + 1)
    {l : List (Gain F)} (hap : Apart y (l.map Gain.who)) (hal : ∀ d ∈ l, Alone s.heap d.who) {g4 g4' : G} {h' : Heap F G}
    (ht : Takes e.world (k + 1) n ls v { s.heap with rng := g4 } l h') (hr : h'.rng = g4') :
    AuxPlayed e y s n g4 g4' ls v (entriesOf l) (commonMask n l) := by
  have haux : y.aux = l.map fun d => (d.key, d.id) := by
    rw [hap.aux, List.map_map]; rfl
  have hkeys : (l.map Gain.key).Nodup := by
    have := hap.keys; rw [List.map_map] at this; exact this
  have hsels : (l.map Gain.sel).Nodup := by
    have := hap.sels; rw [List.map_map] at this; exact this
  have hflux : y.fluxSel ∉ l.map Gain.sel := by
    have := hap.flux; rw [List.map_map] at this; exact this
  have hdist : y.distSel ∉ l.map Gain.sel := by
    have := hap.dist; rw [List.map_map] at this; exact this
  have hnames : ∀ d ∈ l, d.key ≠ "" ∧ d.key ∉ readOnlyNames := fun d hd =>
    hap.names d.who (List.mem_map_of_mem hd)
  obtain ⟨i1, i2, i3⟩ := takes_heap ht hsels
  refine ⟨commonMask_length l fun d hd => (i2 d hd).2.2.2.2.2.1, ⟨?_, ?_⟩, ?_, ?_⟩
  · intro k v hkv
    obtain ⟨d, hd, he⟩ := List.mem_map.1 hkv
    cases he
    obtain ⟨-, -, -, l1, l2, -⟩ := i2 d hd
    exact ⟨⟨_, rfl, l2⟩, ⟨_, rfl, l1⟩, by simp, (hnames d hd).2⟩
  · have : (entriesOf l).map Prod.fst = l.map Gain.key := by simp [entriesOf]
    rw [this]; exact hkeys
  · intro k i hki
    rw [haux] at hki
    obtain ⟨d, hd, he⟩ := List.mem_map.1 hki
    cases he
    exact ⟨(hal d hd).secondary, (hal d hd).secondaries, by omega⟩
  · intro t loc hh hq
    obtain ⟨loc', a1, a2, a3⟩ := takes_fold hf ht t loc hh (fun d hd => (hnames d hd).1) hkeys
      (by simp [hq]) (by simp [hq])
    refine ⟨loc', h', by rw [haux]; exact a1, by rw [a2, hq]; rfl, a3, hr, i1 _ hflux,
      i1 _ hdist, i3, fun t' prob hp hsel => ?_⟩
    refine apply_fold (fun d hd => ?_) _ _ _ rfl (by simp) hp
    obtain ⟨j1, j2, j3, -, -, j4, j5⟩ := i2 d hd
    rw [hsel d.sel fun h => hflux (h ▸ List.mem_map_of_mem hd)]
    exact ⟨j1, fun hu => j3 (by rw [← j2]; exact hu), j4, j5⟩

end Popsynth
