import Verif.Lemmas.LoneDraw
import Verif.Lemmas.TroupeAux
import Verif.Spec.Family

/-!
# Drawing one sampler with its secondary samplers, step by step
-/

set_option autoImplicit false
set_option linter.unusedSectionVars false

namespace Popsynth
open Spec

variable {F G : Type} [LE F] [DecidableLE F] [OfNat F 0] [OfNat F 1]

theorem view_of_others {h h' : Heap F G} {i : Nat} (ho : ∀ j, j ≠ i → h'.samplers j = h.samplers j)
    (hs : (h'.samplers i).secondaries = (h.samplers i).secondaries)
    (hself : ∀ p ∈ (h.samplers i).secondaries, p.2 ≠ i) :
    h'.view i = { h.view i with
      params := (h'.samplers i).params, isObserved := (h'.samplers i).isObserved
      luminosity := (h'.samplers i).luminosity, spatial := (h'.samplers i).spatial
      trueVals := (h'.samplers i).trueVals, obsVals := (h'.samplers i).obsVals } := by
  unfold Heap.view
  dsimp only
  rw [hs]
  congr 1
  exact List.map_congr_left fun p hp => by rw [ho _ (hself p hp)]

theorem finish_draw {w : World F G} {i n : Nat} {h : Heap F G} {s : Sampler F} (hi : h.samplers i = s)
    (hself : ∀ p ∈ s.secondaries, p.2 ≠ i)
    {ts os : List F} {p1 p2 : Obj F} {g1 g2 g3 : G} {sel' : Selector F G} {pr : Option (List F)}
    (ht : (w.code i).trueSampler (h.view i) n h.rng =
      { trueVals := some ts, obsVals := s.obsVals, params := p1, rng := g1 })
    (ho : if s.isObserved = true then
      (w.code i).obsSampler { h.view i with trueVals := some ts, params := p1 } n g1 =
        { trueVals := some ts, obsVals := some os, params := p2, rng := g2 }
      else os = ts ∧ p2 = p1 ∧ g2 = g1)
    (hsel : selDraw w.sel w.half w.ninety w.showProgress n
      { sel := { h.selectors s.selector with data := { (h.selectors s.selector).data with obsValue := some os } }
        rng := g2 } = .ok () { sel := sel', rng := g3 })
    (hp : (w.code i).prob { h.view i with trueVals := some ts, obsVals := some os, params := p2 } = .ok pr)
    (lt : ts.length = n) (lo : os.length = n) :
    ∃ h', finishDraw w i n h = .ok () h' ∧ h'.rng = g3 ∧
      (∀ j, j ≠ i → h'.samplers j = h.samplers j) ∧
      (∀ q, q ≠ s.selector → h'.selectors q = h.selectors q) ∧
      h'.selectors s.selector = sel' ∧
      h'.samplers i = { s with trueVals := some ts, obsVals := some os, params := p2, isSampled := true, prob := pr } := by
  subst hi
  obtain ⟨samplers, selectors, rng, trace⟩ := h
  simp only at *
  let h2 : Heap F G := { samplers, selectors, rng, trace }
  let h3 : Heap F G := { h2 with trace := trace ++ [(i, h2.view i)] }
  let h4 : Heap F G := { h3.modSampler i (fun s => { s with trueVals := some ts, params := p1 }) with rng := g1 }
  have k2 : runCode (w.code i).trueSampler i n h3 = .ok () h4 := by
    have hv3 : h3.view i = h2.view i := rfl
    unfold runCode
    rw [hv3]
    simp only [show h3.rng = rng from rfl, h2, ht]
    simp only [h4]
    congr 2
    simp only [Heap.modSampler]
    funext j
    by_cases hj : j = i
    · subst hj; simp; rfl
    · simp [hj]
  let h5 : Heap F G := { h4.modSampler i (fun s => { s with trueVals := some ts, obsVals := some os, params := p2 }) with rng := g2 }
  have k3 : observe w i n h4 = .ok () h5 := by
    have ho4 : (h4.samplers i).isObserved = (samplers i).isObserved := by simp [h4, h3, h2, Heap.modSampler]
    have hv4 : h4.view i = { h2.view i with trueVals := some ts, params := p1 } := by
      rw [view_of_others (h := h2) (h' := h4) (fun j hj => by simp [h4, h3, Heap.modSampler, hj])
        (by simp [h4, h3, Heap.modSampler]) hself]
      simp [h4, h3, h2, Heap.modSampler, Heap.view]
    unfold observe
    rw [ho4]
    cases hb : (samplers i).isObserved with
    | true =>
      rw [hb] at ho
      simp only [if_true] at ho ⊢
      unfold runCode
      rw [hv4]
      simp only [show h4.rng = g1 from rfl, h2, ho]
      rfl
    | false =>
      rw [hb] at ho
      simp only [Bool.false_eq_true, if_false] at ho ⊢
      obtain ⟨rfl, rfl, rfl⟩ := ho
      simp only [h5, Heap.modSampler]
      congr 2
      funext j
      by_cases hj : j = i
      · subst hj; simp [h4, Heap.modSampler]
      · simp [hj]
  have q5 : (h5.samplers i).selector = (samplers i).selector := by simp [h5, h4, h3, h2, Heap.modSampler]
  have o5 : (h5.samplers i).obsVals = some os := by simp [h5, Heap.modSampler]
  have t5 : (h5.samplers i).trueVals = some ts := by simp [h5, Heap.modSampler]
  let h6 : Heap F G := h5.modSelector (samplers i).selector fun c => { c with data := { c.data with obsValue := some os } }
  let h7 : Heap F G := h6.modSampler i fun s => { s with isSampled := true }
  let h8 : Heap F G := { h7.modSelector (samplers i).selector (fun _ => sel') with rng := g3 }
  have k4 : drawSelector w (samplers i).selector n h7 = .ok () h8 := by
    have e1 : h7.selectors (samplers i).selector = { selectors (samplers i).selector with
        data := { (selectors (samplers i).selector).data with obsValue := some os } } := by
      simp [h7, h6, h5, h4, h3, h2, Heap.modSampler, Heap.modSelector]
    unfold drawSelector withSelector
    rw [e1, show h7.rng = g2 from rfl, hsel]
  have v8 : h8.view i = { h2.view i with trueVals := some ts, obsVals := some os, params := p2 } := by
    rw [view_of_others (h := h2) (h' := h8) (fun j hj => by simp [h8, h7, h6, h5, h4, h3, Heap.modSampler, Heap.modSelector, hj])
      (by simp [h8, h7, h6, h5, h4, h3, Heap.modSampler, Heap.modSelector]) hself]
    simp [h8, h7, h6, h5, h4, h3, h2, Heap.modSampler, Heap.modSelector, Heap.view]
  let h9 : Heap F G := h8.modSampler i fun s => { s with prob := pr }
  have k5 : finishDraw w i n h2 = .ok () h9 := by
    unfold finishDraw
    have m1 : (modify fun h : Heap F G => { h with trace := h.trace ++ [(i, h.view i)] } : Py (Heap F G) Unit) h2 = .ok () h3 := rfl
    have m2 : (modify fun h : Heap F G => h.modSelector (h.samplers i).selector fun c =>
        { c with data := { c.data with obsValue := (h.samplers i).obsVals } } : Py (Heap F G) Unit) h5 = .ok () h6 := by
      rw [modify_apply, q5, o5]
    have g6 : (get : Py (Heap F G) (Heap F G)) h6 = .ok h6 h6 := rfl
    have a1 : (pyAssert (lenIs (h6.samplers i).trueVals n) : Py (Heap F G) Unit) h6 = .ok () h6 := by
      rw [show (h6.samplers i).trueVals = some ts from t5]
      simp [lenIs, lt, pyAssert]
    have a2 : (pyAssert (lenIs (h6.samplers i).obsVals n) : Py (Heap F G) Unit) h6 = .ok () h6 := by
      rw [show (h6.samplers i).obsVals = some os from o5]
      simp [lenIs, lo, pyAssert]
    have m3 : (modify fun h : Heap F G => h.modSampler i fun s => { s with isSampled := true } : Py (Heap F G) Unit) h6 = .ok () h7 := rfl
    have q6 : (h6.samplers i).selector = (samplers i).selector := q5
    have g8 : (get : Py (Heap F G) (Heap F G)) h8 = .ok h8 h8 := rfl
    have m4 : (liftE ((w.code i).prob (h8.view i)) : Py (Heap F G) _) h8 = .ok pr h8 := by
      rw [v8, hp]; rfl
    rw [bind_of_ok m1, bind_of_ok k2, bind_of_ok k3, bind_of_ok m2, bind_of_ok g6, bind_of_ok a1, bind_of_ok a2,
      bind_of_ok m3, q6, bind_of_ok k4, bind_of_ok g8, bind_of_ok m4]
    rfl
  refine ⟨h9, k5, rfl, ?_, ?_, ?_, ?_⟩
  · intro j hj
    simp [h9, h8, h7, h6, h5, h4, h3, h2, Heap.modSampler, Heap.modSelector, hj]
  · intro q hq
    simp [h9, h8, h7, h6, h5, h4, h3, h2, Heap.modSampler, Heap.modSelector, hq]
  · simp [h9, h8, Heap.modSampler, Heap.modSelector]
  · simp [h9, h8, h7, h6, h5, h4, h3, h2, Heap.modSampler, Heap.modSelector]

/-! ### Samplers with secondary samplers -/

/-- What the selector of a sampler is given before anything is drawn. -/
def givenOpt (c : Selector F G) (usesDistance : Bool) (r : List F) (l : Option (List F)) : Selector F G :=
  { c with data := { c.data with
      distance := if usesDistance then some r else c.data.distance
      luminosity := match l with | some l => some l | none => c.data.luminosity } }

theorem giveSelector_given {i : Nat} {h : Heap F G} {v : Spatial F} (hsp : (h.samplers i).spatial = some v) :
    giveSelector i h = .ok () (h.modSelector (h.samplers i).selector fun c =>
      givenOpt c (h.samplers i).usesDistance v.distance (h.samplers i).luminosity) := by
  obtain ⟨samplers, selectors, rng, trace⟩ := h
  simp only at hsp
  cases hd : (samplers i).usesDistance <;> cases hl : (samplers i).luminosity <;>
  · simp only [giveSelector, giveDistance, giveLuminosity, bind_apply, hd, hsp, hl, if_true, Heap.modSelector,
      Bool.false_eq_true, if_false, givenOpt]
    try (congr 2; funext q; by_cases hq : q = (samplers i).selector <;> simp [hq])

/-- One direct secondary and what it has given. -/
structure Kid (F : Type) where
  key : String
  id : Nat
  gains : List (Gain F)
  ts : List F
  os : List F

/-- All that is given. -/
def kidGains (l : List (Kid F)) : List (Gain F) := (l.map Kid.gains).flatten

/-- The direct secondaries of `i` have been drawn one after the other. -/
inductive Kids (w : World F G) (k n i : Nat) : Heap F G → List (Kid F) → Heap F G → Prop
  | nil (h : Heap F G) : Kids w k n i h [] h
  | cons {h h1 h2 : Heap F G} {d : Kid F} {l : List (Kid F)} {v : Spatial F} :
      (h.samplers d.id).isSecondary = true → (h.samplers i).spatial = some v →
      DrawnTree w k n (h.modSampler d.id fun s => { s with spatial := some v }) d.id d.gains d.ts d.os h1 →
      Kids w k n i h1 l h2 → Kids w k n i h (d :: l) h2

variable {w : World F G} {k n i : Nat}

theorem kids_run {h h' : Heap F G} {l : List (Kid F)} (hk : Kids w k n i h l h') :
    forEach (l.map fun d => (d.key, d.id)) (fun p => do
      prepSecondary i p.2
      samplerDraw w k p.2 n) h = .ok () h' := by
  induction hk with
  | nil h => rfl
  | @cons h h1 h2 d l v hs hv hd _ ih =>
    rw [List.map_cons, forEach_cons]
    have a1 : prepSecondary i d.id h = .ok () (h.modSampler d.id fun s => { s with spatial := some v }) := by
      unfold prepSecondary
      rw [hs, hv]
      rfl
    have a2 : (prepSecondary i d.id >>= fun _ => samplerDraw w k d.id n) h = .ok () h1 := by
      rw [bind_of_ok a1]; exact hd.run
    exact (bind_of_ok a2).trans ih

theorem changed_moved {h h' : Heap F G} {D : List (Gain F)} {j : Nat} {v : Option (Spatial F)}
    (hc : Changed n (h.modSampler j fun s => { s with spatial := v }) h' D) (hj : j ∈ D.map Gain.id) :
    Changed n h h' D := by
  refine ⟨fun a ha => ?_, hc.selectors, ?_, hc.gained⟩
  · rw [hc.others a ha]
    have : a ≠ j := fun e => ha (e ▸ hj)
    simp [Heap.modSampler, this]
  · refine sameLinks_trans (fun a => ?_) hc.links
    by_cases ha : a = j <;> simp [Heap.modSampler, ha]

theorem kids_changed {h h' : Heap F G} {l : List (Kid F)} (hk : Kids w k n i h l h') :
    ((kidGains l).map Gain.sel).Nodup → Changed n h h' (kidGains l) := by
  induction hk with
  | nil h => exact fun _ => changed_nil n h
  | @cons h h1 h2 d l v hs hv hd _ ih =>
    intro hn
    have hall : kidGains (d :: l) = d.gains ++ kidGains l := by simp [kidGains]
    rw [hall] at hn ⊢
    refine changed_trans (changed_moved hd.changed hd.own) (ih ?_) hn
    rw [List.map_append, List.nodup_append] at hn
    exact hn.2.1

theorem kids_values {h h' : Heap F G} {l : List (Kid F)} (hk : Kids w k n i h l h')
    (hs : ((kidGains l).map Gain.sel).Nodup) (hn : ((kidGains l).map Gain.id).Nodup) :
    ∀ d ∈ l, (h'.samplers d.id).trueVals = some d.ts ∧ (h'.samplers d.id).obsVals = some d.os := by
  induction hk with
  | nil h => simp
  | @cons h h1 h2 d l v _ _ hd hk' ih =>
    have hall : kidGains (d :: l) = d.gains ++ kidGains l := by simp [kidGains]
    rw [hall, List.map_append, List.nodup_append] at hn hs
    intro d' hd'
    rcases List.mem_cons.1 hd' with rfl | hd'
    · have : h2.samplers d'.id = h1.samplers d'.id :=
        (kids_changed hk' hs.2.1).others _ fun hm => hn.2.2 _ hd.own _ hm rfl
      rw [this]
      exact ⟨hd.latent, hd.obs⟩
    · exact ih hs.2.1 hn.2.1 d' hd'

theorem kids_stored {h h' : Heap F G} {l : List (Kid F)} (hk : Kids w k n i h l h')
    (hs : ((kidGains l).map Gain.sel).Nodup) (hn : ((kidGains l).map Gain.id).Nodup) :
    ∀ (h'' : Heap F G) (k' : Nat), k ≤ k' → (∀ j ∈ (kidGains l).map Gain.id, h''.samplers j = h'.samplers j) →
      ∀ acc : Storage F, (∀ p ∈ acc, p.1 ≠ "") → (∀ d ∈ kidGains l, d.key ≠ "") →
        (acc.map Prod.fst ++ (kidGains l).map Gain.key).Nodup →
        (l.map fun d => (d.key, d.id)).foldlM (fun acc p => do
          let r ← secProps h'' k' p.2
          pure (Storage.add acc r)) acc = .ok (acc ++ (kidGains l).map Gain.stored) := by
  induction hk with
  | nil h => intro h'' k' _ _ acc _ _ _; simp [kidGains]; rfl
  | @cons h h1 h2 d l v _ _ hd hk' ih =>
    have hall : kidGains (d :: l) = d.gains ++ kidGains l := by simp [kidGains]
    rw [hall] at hn hs ⊢
    rw [List.map_append, List.nodup_append] at hn hs
    intro h'' k' hkk hh acc ha hne hq
    rw [List.map_append, ← List.append_assoc] at hq
    have r1 := hd.stored h'' k' hkk fun j hj => by
      rw [hh j (by rw [List.map_append]; exact List.mem_append_left _ hj)]
      exact (kids_changed hk' hs.2.1).others _ fun hm => hn.2.2 _ hj _ hm rfl
    have hk0 : ∀ p ∈ d.gains.map Gain.stored, p.1 ≠ "" := by
      intro p hp
      obtain ⟨e, he, rfl⟩ := List.mem_map.1 hp
      exact hne e (List.mem_append_left _ he)
    have r2 : Storage.add acc (d.gains.map Gain.stored) = acc ++ d.gains.map Gain.stored :=
      storage_add_list ha hk0 (by rw [stored_keys]; exact (List.nodup_append.1 hq).1)
    have r3 := ih hs.2.1 hn.2.1 h'' k' hkk (fun j hj => hh j (by rw [List.map_append]; exact List.mem_append_right _ hj))
      (acc ++ d.gains.map Gain.stored) (by
        intro p hp
        rcases List.mem_append.1 hp with hp | hp
        · exact ha p hp
        · exact hk0 p hp) (fun e he => hne e (List.mem_append_right _ he))
      (by rw [List.map_append, stored_keys]; exact hq)
    rw [List.map_cons, List.foldlM_cons]
    dsimp only
    rw [r1]
    show (l.map fun d => (d.key, d.id)).foldlM _ (Storage.add acc (d.gains.map Gain.stored)) = _
    rw [r2, r3, List.map_append, List.append_assoc]

theorem samplerDraw_family {h h1 h2 h3 : Heap F G} (hs : (h.samplers i).isSampled = false)
    (a : giveSelector i h = .ok () h1)
    (b : forEach (h.samplers i).secondaries (fun p => do
      prepSecondary i p.2
      samplerDraw w k p.2 n) h1 = .ok () h2)
    (c : finishDraw w i n h2 = .ok () h3) : samplerDraw w (k + 1) i n h = .ok () h3 := by
  unfold samplerDraw
  rw [bind_of_ok (get_apply _)]
  simp only [hs, Bool.false_eq_true, if_false]
  rw [bind_of_ok a, bind_of_ok b]
  exact c

/-- The whole draw of a sampler with secondaries. -/
theorem family_drawn {h h2 : Heap F G} {s : Sampler F} {l : List (Kid F)} {v : Spatial F} {key : String}
    (hi : h.samplers i = s) (hnew : s.isSampled = false) (hsp : s.spatial = some v)
    (hname : s.name = key)
    (hsec : s.secondaries = l.map fun d => (d.key, d.id)) (hhas : s.hasSecondary = true ∨ l = [])
    (hid : ((kidGains l).map Gain.id).Nodup ∧ i ∉ (kidGains l).map Gain.id)
    (hse : ((kidGains l).map Gain.sel).Nodup ∧ s.selector ∉ (kidGains l).map Gain.sel)
    (hke : ((kidGains l).map Gain.key).Nodup ∧ key ∉ (kidGains l).map Gain.key)
    (hnm : ∀ d ∈ kidGains l, d.key ≠ "")
    (hkid : ∀ d ∈ l, d.id ∈ (kidGains l).map Gain.id)
    (hk : Kids w k n i (h.modSelector s.selector fun c => givenOpt c s.usesDistance v.distance s.luminosity) l h2)
    {ts os : List F} {mask : List Bool} {p1 p2 : Obj F} {g1 g2 g3 : G} {sel' : Selector F G}
    {pr : Option (List F)}
    (ht : (w.code i).trueSampler (h2.view i) n h2.rng =
      { trueVals := some ts, obsVals := s.obsVals, params := p1, rng := g1 })
    (ho : if s.isObserved = true then
      (w.code i).obsSampler { h2.view i with trueVals := some ts, params := p1 } n g1 =
        { trueVals := some ts, obsVals := some os, params := p2, rng := g2 }
      else os = ts ∧ p2 = p1 ∧ g2 = g1)
    (hsel : selDraw w.sel w.half w.ninety w.showProgress n
      { sel := { givenOpt (h.selectors s.selector) s.usesDistance v.distance s.luminosity with
          data := { (givenOpt (h.selectors s.selector) s.usesDistance v.distance s.luminosity).data with
            obsValue := some os } }
        rng := g2 } = .ok () { sel := sel', rng := g3 })
    (hm1 : sel'.selection = some mask) (hm2 : sel'.kind = (h.selectors s.selector).kind)
    (hm3 : (h.selectors s.selector).kind.isUnity = true → mask = List.replicate n true)
    (hp : (w.code i).prob { h2.view i with trueVals := some ts, obsVals := some os, params := p2 } = .ok pr)
    (hpr : ∀ l, pr = some l → l.length = n)
    (lt : ts.length = n) (lo : os.length = n) (lm : mask.length = n) :
    ∃ h' prl, DrawnTree w (k + 1) n h i
        (kidGains l ++ [{ key := key, id := i, sel := s.selector, ts := ts, os := os, mask := mask, prob := prl }])
        ts os h' ∧ h'.rng = g3 ∧
      h'.view i = { h2.view i with trueVals := some ts, obsVals := some os, params := p2 } ∧
      h'.samplers i = { s with trueVals := some ts, obsVals := some os, params := p2, isSampled := true, prob := pr } ∧
      prl = (h'.samplers i).probability ∧
      (∀ j ∈ (kidGains l).map Gain.id, h'.samplers j = h2.samplers j) := by
  subst hi
  have hc := kids_changed hk hse.1
  have h2i : h2.samplers i = h.samplers i := by rw [hc.others i hid.2]; rfl
  have h2s : h2.selectors (h.samplers i).selector =
      givenOpt (h.selectors (h.samplers i).selector) (h.samplers i).usesDistance v.distance (h.samplers i).luminosity := by
    rw [hc.selectors _ hse.2]
    simp [Heap.modSelector]
  have hself : ∀ p ∈ (h.samplers i).secondaries, p.2 ≠ i := by
    rw [hsec]
    intro p hp e
    obtain ⟨d, hd, rfl⟩ := List.mem_map.1 hp
    exact hid.2 (e ▸ hkid d hd)
  obtain ⟨h', d1, d2, d3, d4, d5, d6⟩ := finish_draw (w := w) (n := n) h2i hself ht ho (by rw [h2s]; exact hsel) hp lt lo
  have hv : h'.view i = { h2.view i with trueVals := some ts, obsVals := some os, params := p2 } := by
    rw [view_of_others (h := h2) d3 (by rw [d6, h2i]) (by rw [h2i]; exact hself), d6]
    simp [Heap.view, h2i]
  have hkeep : ∀ j ∈ (kidGains l).map Gain.id, h'.samplers j = h2.samplers j :=
    fun j hj => d3 j fun e => hid.2 (e ▸ hj)
  refine ⟨h', (h'.samplers i).probability, ?_, d2, hv, d6, rfl, hkeep⟩
  constructor
  · refine samplerDraw_family hnew (giveSelector_given hsp) ?_ d1
    rw [hsec]
    exact kids_run hk
  · refine ⟨fun j hj => ?_, fun q hq => ?_, fun j => ?_, fun d hd => ?_⟩
    · rw [List.map_append, List.mem_append, not_or] at hj
      have hji : j ≠ i := by simpa using hj.2
      rw [d3 j hji, hc.others j hj.1]
      rfl
    · rw [List.map_append, List.mem_append, not_or] at hq
      have hqi : q ≠ (h.samplers i).selector := by simpa using hq.2
      rw [d4 q hqi, hc.selectors q hq.1]
      simp [Heap.modSelector, hqi]
    · by_cases hj : j = i
      · subst hj; rw [d6]; exact ⟨rfl, rfl, rfl, rfl⟩
      · rw [d3 j hj]; exact hc.links j
    · rcases List.mem_append.1 hd with hd | hd
      · have hne : d.sel ≠ (h.samplers i).selector := fun e => hse.2 (e ▸ List.mem_map_of_mem hd)
        rw [d4 _ hne]
        have := hc.gained d hd
        simpa [Heap.modSelector, hne] using this
      · obtain rfl := List.mem_singleton.1 hd
        dsimp only
        rw [d5]
        refine ⟨hm1, hm2, hm3, lt, lo, lm, ?_⟩
        rw [d6]
        unfold Sampler.probability
        cases pr with
        | none => simpa using lt
        | some pl => exact hpr pl rfl
  · intro h'' k' hkk hh
    obtain ⟨k', rfl⟩ : ∃ q, k' = q + 1 := ⟨k' - 1, by omega⟩
    have hi'' : h''.samplers i = h'.samplers i := hh i (by simp)
    have hs0 := kids_stored hk hse.1 hid.1 h'' k' (by omega)
      (fun j hj => by rw [hh j (by rw [List.map_append]; exact List.mem_append_left _ hj), hkeep j hj]) []
      (by simp) hnm (by simpa using hke.1)
    have hsec'' : (h''.samplers i).secondaries = l.map fun d => (d.key, d.id) := by rw [hi'', d6]; exact hsec
    have hacc : (if (h''.samplers i).hasSecondary = true then
        (h''.samplers i).secondaries.foldlM (fun acc p => do
          let r ← secProps h'' k' p.2
          pure (Storage.add acc r)) ([] : Storage F)
      else pure []) = .ok ((kidGains l).map Gain.stored) := by
      have e1 : (h''.samplers i).hasSecondary = (h.samplers i).hasSecondary := by rw [hi'', d6]
      rw [e1, hsec'']
      rcases hhas with hb | hb
      · rw [hb]; simpa using hs0
      · subst hb
        split_ifs <;> rfl
    have hname'' : (h''.samplers i).name = key := by rw [hi'', d6]; exact hname
    have fin : ∀ X : Except Err (Storage F), X = .ok ((kidGains l).map Gain.stored) →
        (X >>= fun acc => pure (Dict.set acc (h''.samplers i).name
          { name := (h''.samplers i).name, trueVals := (h''.samplers i).trueVals, obsVals := (h''.samplers i).obsVals,
            selection := (h''.samplers i).selector, prob := (h''.samplers i).probability })) =
        .ok ((kidGains l ++ [({ key := key, id := i, sel := (h.samplers i).selector, ts := ts, os := os, mask := mask, prob := (h'.samplers i).probability } : Gain F)]).map Gain.stored) := by
      intro X hX
      rw [hX]
      show Except.ok (Dict.set _ _ _) = _
      rw [hname'', Dict.set_append_of_not_mem _ _ _ (by rw [show Dict.keys ((kidGains l).map Gain.stored) = (kidGains l).map Gain.key from stored_keys _]; exact hke.2), hi'', List.map_append]
      simp [Gain.stored, d6]
    unfold secProps
    dsimp only
    by_cases hb : (h''.samplers i).hasSecondary = true
    · rw [if_pos hb] at hacc ⊢
      exact fin _ hacc
    · rw [if_neg hb] at hacc ⊢
      exact fin _ hacc
  · simp
  · rw [d6]
  · rw [d6]

end Popsynth
