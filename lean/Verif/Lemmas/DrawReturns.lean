import Verif.Lemmas.DrawFrame
import Mathlib.Tactic.Set

/-!
Draws of well-behaved samplers return; collecting of results.
-/

set_option linter.unusedSectionVars false

namespace Popsynth
open Spec
variable {F G : Type}

theorem runCode_of_ok {c : SView F → Nat → G → SOut F G} {i n : Nat} {h : Heap F G}
    (he : (c (h.view i) n h.rng).err = none) :
    runCode c i n h = .ok () { h.modSampler i (fun s =>
      { s with trueVals := (c (h.view i) n h.rng).trueVals,
               obsVals := (c (h.view i) n h.rng).obsVals,
               params := (c (h.view i) n h.rng).params }) with
      rng := (c (h.view i) n h.rng).rng } := by
  unfold runCode
  simp only [he]

theorem withSelector_of_ok {α : Type} {q : Nat} {m : Py (SelSt F G) α} {h : Heap F G} {a : α}
    {t : SelSt F G} (hm : m { sel := h.selectors q, rng := h.rng } = .ok a t) :
    withSelector q m h = .ok a { h.modSelector q (fun _ => t.sel) with rng := t.rng } := by
  unfold withSelector
  rw [hm]

section
variable [LE F] [DecidableLE F] [OfNat F 0] [OfNat F 1]

/-- What a sampler sees does not depend on what its own code set. -/
theorem Spec.Sees.congr {n i : Nat} {S : Spatial F → Prop} {L : Option (List F) → Prop}
    {h h' : Heap F G} (v : Sees n S L (h.view i))
    (h1 : (h'.samplers i).spatial = (h.samplers i).spatial)
    (h2 : (h'.samplers i).luminosity = (h.samplers i).luminosity)
    (h3 : (h'.samplers i).secondaries = (h.samplers i).secondaries)
    (h4 : ∀ c ∈ h.children i, h'.samplers c = h.samplers c) : Sees n S L (h'.view i) := by
  obtain ⟨v1, v2, v3⟩ := v
  refine ⟨?_, ?_, ?_⟩
  · show ∃ sp, (h'.samplers i).spatial = some sp ∧ S sp
    rw [h1]; exact v1
  · show L (h'.samplers i).luminosity
    rw [h2]; exact v2
  · have : (h'.view i).secs = (h.view i).secs := by
      show (h'.samplers i).secondaries.map _ = (h.samplers i).secondaries.map _
      rw [h3]
      apply List.map_congr_left
      intro p hp
      rw [h4 p.2 (List.mem_map.2 ⟨p, hp, rfl⟩)]
    rw [this]; exact v3

theorem lenIs_some {α : Type} {o : Option (List α)} {n : Nat} (h : lenIs o n = true) :
    ∃ l, o = some l ∧ l.length = n := by
  cases o with
  | none => simp [lenIs] at h
  | some l => exact ⟨l, rfl, by simpa [lenIs] using h⟩

theorem finishDraw_returns {w : World F G} {n i : Nat} {P : Nat → Selector F G → Prop}
    {M : Option (List Bool) → Prop} {I : Nat → Obj F → Prop}
    {S : Spatial F → Prop} {L : Option (List F) → Prop}
    {h : Heap F G} (hcode : WellBehaved (w.code i) n (h.samplers i).isObserved (I i) (Sees n S L))
    (hv : Sees n S L (h.view i)) (hni : i ∉ h.children i)
    (hsel : Selectable w n (P (h.samplers i).selector) M) (hR : Ready n P M I h) :
    ∃ h', finishDraw w i n h = .ok () h' ∧ Ready n P M I h' ∧ h'.sampled i = true ∧
      (h'.samplers i).spatial = (h.samplers i).spatial := by
  unfold finishDraw
  rw [bind_apply, modify_apply]
  simp only
  set h1 : Heap F G := { h with trace := h.trace ++ [(i, h.view i)] } with hh1
  obtain ⟨e1, eI, l, e2, e3⟩ := hcode.trueOk (h1.view i) h1.rng hv (hR.params i)
  have hne : ∀ c ∈ h.children i, c ≠ i := fun c hc e => hni (e ▸ hc)
  have s2 : ∃ h2, runCode (w.code i).trueSampler i n h1 = .ok () h2 ∧
      (h2.samplers i).trueVals = some l ∧ I i (h2.samplers i).params ∧
      (h2.samplers i).selector = (h.samplers i).selector ∧
      (h2.samplers i).isObserved = (h.samplers i).isObserved ∧ Sees n S L (h2.view i) ∧
      ((h2.samplers i).spatial = (h.samplers i).spatial ∧
        (h2.samplers i).luminosity = (h.samplers i).luminosity ∧
        (h2.samplers i).secondaries = (h.samplers i).secondaries) ∧
      (∀ j, j ≠ i → h2.samplers j = h.samplers j) ∧ h2.selectors = h.selectors := by
    refine ⟨_, runCode_of_ok e1, ?_, ?_, ?_, ?_, ?_, ?_, ?_, ?_⟩
    · simp [e2]
    · simpa using eI
    · simp [hh1]
    · simp [hh1]
    · refine hv.congr (by simp [hh1]) (by simp [hh1]) (by simp [hh1]) fun c hc => ?_
      simp [modSampler_ne _ _ (hne c hc), hh1]
    · simp [hh1]
    · intro j hj; simp [modSampler_ne _ _ hj, hh1]
    · simp [hh1]
  obtain ⟨h2, r2, t2, i2, q2, b2, v2, ⟨f21, f22, f23⟩, o2, p2⟩ := s2
  rw [bind_of_ok r2]
  have s3 : ∃ h3, observe w i n h2 = .ok () h3 ∧
      (∃ t, (h3.samplers i).trueVals = some t ∧ t.length = n) ∧
      (∃ o, (h3.samplers i).obsVals = some o ∧ o.length = n) ∧ I i (h3.samplers i).params ∧
      (h3.samplers i).selector = (h.samplers i).selector ∧
      ((h3.samplers i).spatial = (h.samplers i).spatial ∧
        (h3.samplers i).luminosity = (h.samplers i).luminosity ∧
        (h3.samplers i).secondaries = (h.samplers i).secondaries) ∧
      (∀ j, j ≠ i → h3.samplers j = h.samplers j) ∧ h3.selectors = h.selectors := by
    unfold observe
    cases hb : (h2.samplers i).isObserved with
    | true =>
      simp only [if_true]
      obtain ⟨o1, oI, o3, o4⟩ := hcode.obsOk (b2 ▸ hb) (h2.view i) h2.rng l v2 hb i2 t2 e3
      refine ⟨_, runCode_of_ok o1, ?_, ?_, ?_, ?_, ?_, ?_, ?_⟩
      · obtain ⟨t, ht, hl⟩ := o3; exact ⟨t, by simp [ht], hl⟩
      · obtain ⟨t, ht, hl⟩ := o4; exact ⟨t, by simp [ht], hl⟩
      · simpa using oI
      · simp [q2]
      · simp [f21, f22, f23]
      · intro j hj; simp [modSampler_ne _ _ hj, o2 j hj]
      · simp [p2]
    | false =>
      simp only [Bool.false_eq_true, if_false]
      refine ⟨_, rfl, ?_, ?_, ?_, ?_, ?_, ?_, ?_⟩
      · exact ⟨l, by simp [t2], e3⟩
      · exact ⟨l, by simp [t2], e3⟩
      · simpa using i2
      · simp [q2]
      · simp [f21, f22, f23]
      · intro j hj; simp [modSampler_ne _ _ hj, o2 j hj]
      · simp [p2]
  obtain ⟨h3, r3, ⟨t, ht, htl⟩, ⟨o, ho, hol⟩, i3, q3, ⟨f31, f32, f33⟩, o3, p3⟩ := s3
  rw [bind_of_ok r3, bind_apply, modify_apply]
  simp only
  rw [bind_apply, get_apply]
  simp only [modSelector_samplers, ht, ho, lenIs, htl, hol, pyAssert, beq_self_eq_true, if_true]
  rw [bind_apply, pure_apply]
  simp only
  rw [bind_apply, pure_apply]
  simp only
  rw [bind_apply, modify_apply]
  simp only
  obtain ⟨st', d1, d2, d3⟩ := hsel.draws
    { sel := h3.selectors (h.samplers i).selector, rng := h3.rng } o
    (by rw [p3]; exact hR.sel _) hol
  have s4 : ∃ h4, drawSelector w (h3.samplers i).selector n
      ((h3.modSelector (h3.samplers i).selector fun c =>
        { c with data := { c.data with obsValue := some o } }).modSampler i fun s =>
          { s with isSampled := true }) = .ok () h4 ∧ (∀ q, P q (h4.selectors q)) ∧
      M (h4.selectors (h.samplers i).selector).selection ∧
      (∀ q, q ≠ (h.samplers i).selector → h4.selectors q = h.selectors q) ∧
      h4.samplers i = { h3.samplers i with isSampled := true } ∧
      (∀ j, j ≠ i → h4.samplers j = h.samplers j) := by
    refine ⟨_, withSelector_of_ok (t := st') ?_, ?_, ?_, ?_, ?_, ?_⟩
    · simp only [modSampler_selectors, modSelector_same, modSampler_rng, modSelector_rng, q3]
      exact d1
    · intro q
      by_cases hq : q = (h3.samplers i).selector
      · subst hq; simp only [modSelector_same]; rw [q3]; exact d2
      · simp only [modSelector_ne _ _ hq, modSampler_selectors]
        rw [p3]; exact hR.sel q
    · rw [← q3]; simp only [modSelector_same]; exact d3
    · intro q hq
      rw [← q3] at hq
      simp only [modSelector_ne _ _ hq, modSampler_selectors]
      rw [p3]
    · simp
    · intro j hj; simp [modSampler_ne _ _ hj, o3 j hj]
  obtain ⟨h4, r4, P4, M4, k4, n4, o4⟩ := s4
  rw [bind_of_ok r4, bind_apply, get_apply]
  simp only
  obtain ⟨p, hp, hpl⟩ := hcode.probOk (h4.view i) t
    (hv.congr (by rw [n4]; exact f31) (by rw [n4]; exact f32) (by rw [n4]; exact f33)
      fun c hc => o4 c (hne c hc)) (by show I i (h4.samplers i).params; rw [n4]; exact i3)
    (by show (h4.samplers i).trueVals = _; rw [n4]; exact ht) htl
  rw [hp]
  refine ⟨_, rfl, ⟨?_, ?_, ?_⟩, ?_, ?_⟩
  · exact P4
  · intro j
    by_cases hj : j = i
    · subst hj; simp [n4, i3]
    · simp only [modSampler_ne _ _ hj, o4 j hj]; exact hR.params j
  · intro j
    by_cases hj : j = i
    · subst hj
      intro _
      simp only [modSampler_same, n4, modSampler_selectors, q3, ht, ho, lenIs, htl, hol, beq_self_eq_true,
        true_and]
      exact ⟨hpl, M4⟩
    · simp only [modSampler_ne _ _ hj, o4 j hj, modSampler_selectors]
      intro hs
      obtain ⟨a1, a2, a3, a4⟩ := hR.done j hs
      refine ⟨a1, a2, a3, ?_⟩
      by_cases hq : (h.samplers j).selector = (h.samplers i).selector
      · rw [hq]; exact M4
      · rw [k4 _ hq]; exact a4
  · simp [Heap.sampled, n4]
  · simp [n4, f31]

theorem Spec.Ready.modData {n : Nat} {P : Nat → Selector F G → Prop} {M : Option (List Bool) → Prop}
    {I : Nat → Obj F → Prop} {h : Heap F G} (hR : Ready n P M I h) (q : Nat) (f : SelData F → SelData F)
    (hf : P q { h.selectors q with data := f (h.selectors q).data }) :
    Ready n P M I (h.modSelector q fun c => { c with data := f c.data }) := by
  refine ⟨?_, hR.params, ?_⟩
  · intro r
    by_cases hr : r = q
    · subst hr; rw [modSelector_same]; exact hf
    · rw [modSelector_ne _ _ hr]; exact hR.sel r
  · intro j hj
    obtain ⟨a1, a2, a3, a4⟩ := hR.done j hj
    refine ⟨a1, a2, a3, ?_⟩
    by_cases hr : (h.samplers j).selector = q
    · simp only [modSelector_samplers]; rw [hr, modSelector_same]; simpa [hr] using a4
    · simp only [modSelector_samplers]; rw [modSelector_ne _ _ hr]; exact a4

theorem giveSelector_returns {w : World F G} {n i : Nat} {P : Nat → Selector F G → Prop}
    {M : Option (List Bool) → Prop} {I : Nat → Obj F → Prop}
    {h : Heap F G} {sp : Spatial F} (hsp : (h.samplers i).spatial = some sp)
    (hsel : Selectable w n (P (h.samplers i).selector) M) (hR : Ready n P M I h) :
    ∃ h', giveSelector i h = .ok () h' ∧ Ready n P M I h' := by
  have s1 : ∃ h1, giveDistance i h = .ok () h1 ∧ h1.samplers = h.samplers ∧ Ready n P M I h1 := by
    unfold giveDistance
    split
    · rw [hsp]
      exact ⟨_, rfl, rfl, hR.modData _ (fun d => { d with distance := some sp.distance })
        (hsel.dist _ _ (hR.sel _))⟩
    · exact ⟨h, rfl, rfl, hR⟩
  obtain ⟨h1, r1, e1, R1⟩ := s1
  unfold giveSelector
  rw [bind_of_ok r1]
  unfold giveLuminosity
  split
  · exact ⟨h1, rfl, R1⟩
  · rename_i l _
    refine ⟨_, rfl, ?_⟩
    rw [e1]
    exact R1.modData _ (fun d => { d with luminosity := some l }) (hsel.lum _ _ (R1.sel _))

/-- Replacing the position of a sampler. -/
theorem Spec.Ready.modSpatial {n : Nat} {P : Nat → Selector F G → Prop} {M : Option (List Bool) → Prop}
    {I : Nat → Obj F → Prop} {h : Heap F G} (hR : Ready n P M I h) (i : Nat) (f : Sampler F → Sampler F)
    (hf : ∀ s, (f s).params = s.params ∧ (f s).isSampled = s.isSampled ∧ (f s).trueVals = s.trueVals ∧
      (f s).obsVals = s.obsVals ∧ (f s).prob = s.prob ∧ (f s).selector = s.selector) :
    Ready n P M I (h.modSampler i f) := by
  refine ⟨hR.sel, ?_, ?_⟩
  · intro j
    by_cases hj : j = i
    · subst hj; rw [modSampler_same, (hf _).1]; exact hR.params j
    · rw [modSampler_ne _ _ hj]; exact hR.params j
  · intro j
    by_cases hj : j = i
    · subst hj
      obtain ⟨_, e2, e3, e4, e5, e6⟩ := hf (h.samplers j)
      rw [modSampler_same, e2, e3, e4, e5, e6]; exact hR.done j
    · rw [modSampler_ne _ _ hj]; exact hR.done j

/-- **Liveness.** Draws of well-behaved samplers over a ranked graph return, if
there are enough stack frames. -/
theorem samplerDraw_returns (w : World F G) (n : Nat) (r : Nat → Nat)
    (P : Nat → Selector F G → Prop) (M : Option (List Bool) → Prop) (I : Nat → Obj F → Prop)
    (S : Spatial F → Prop) (L : Nat → Option (List F) → Prop) :
    ∀ (k i : Nat) (h : Heap F G), Ranked h.children r i → r i < k →
      (∀ j, Reach h.children i j →
        WellBehaved (w.code j) n (h.samplers j).isObserved (I j) (Sees n S (L j)) ∧
        L j (h.samplers j).luminosity ∧ Selectable w n (P (h.samplers j).selector) M ∧
        ∀ c ∈ h.children j, (h.samplers c).isSecondary = true) →
      (∃ sp, (h.samplers i).spatial = some sp ∧ S sp) → Ready n P M I h →
      ∃ h', samplerDraw w k i n h = .ok () h' ∧ Ready n P M I h' ∧ h'.sampled i = true ∧
        (h'.samplers i).spatial = (h.samplers i).spatial := by
  intro k
  induction k with
  | zero => intro i h _ hk; omega
  | succ k ih =>
    intro i h hr hk hgood ⟨sp, hsp, hS⟩ hR
    rw [samplerDraw, bind_apply, get_apply]
    simp only
    cases hs : (h.samplers i).isSampled with
    | true => exact ⟨h, rfl, hR, hs, rfl⟩
    | false =>
      simp only [Bool.false_eq_true, if_false]
      obtain ⟨g1, gl, g2, g3⟩ := hgood i (.here _)
      obtain ⟨h1, r1, R1⟩ := giveSelector_returns (w := w) (n := n) hsp g2 hR
      rw [bind_of_ok r1]
      have hs1 : h1.samplers = h.samplers := by
        have := giveSelector_samplers i h
        rw [r1] at this; exact this
      have loop : ∀ (todo : Dict Nat) (ha : Heap F G),
          (∀ p ∈ todo, p ∈ (h.samplers i).secondaries) →
          (∀ j, (ha.samplers j).static = (h.samplers j).static) →
          (ha.samplers i).spatial = some sp → Ready n P M I ha →
          ∃ hb, forEach todo (fun p => do
              prepSecondary i p.2
              samplerDraw w k p.2 n) ha = .ok () hb ∧
            (∀ j, (hb.samplers j).static = (h.samplers j).static) ∧
            (hb.samplers i).spatial = some sp ∧ (∀ j, ha.sampled j = true → hb.sampled j = true) ∧
            (∀ p ∈ todo, hb.sampled p.2 = true) ∧ Ready n P M I hb := by
        intro todo
        induction todo with
        | nil => intro ha _ h1 h2 h3; exact ⟨ha, rfl, h1, h2, fun _ h => h, by simp, h3⟩
        | cons p todo iht =>
          intro ha hsub hst hasp haR
          have hp := hsub p (by simp)
          have hc : p.2 ∈ h.children i := List.mem_map.2 ⟨p, hp, rfl⟩
          have hisec : (ha.samplers p.2).isSecondary = true := by
            rw [static_isSecondary (hst p.2)]; exact g3 p.2 hc
          have hprep : prepSecondary i p.2 ha =
              .ok () (ha.modSampler p.2 fun s => { s with spatial := some sp }) := by
            unfold prepSecondary
            simp only [hisec, if_true, hasp]
            rfl
          have hmR : Ready n P M I (ha.modSampler p.2 fun s => { s with spatial := some sp }) :=
            haR.modSpatial _ _ fun s => ⟨rfl, rfl, rfl, rfl, rfl, rfl⟩
          set hm := ha.modSampler p.2 (fun s => { s with spatial := some sp }) with hhm
          have hstm : ∀ j, (hm.samplers j).static = (h.samplers j).static := by
            intro j; rw [hhm, modSampler_samplers]
            split
            · exact hst j
            · exact hst j
          have hchm : hm.children = h.children := by
            funext j; simp only [Heap.children, static_secondaries (hstm j)]
          obtain ⟨hc', ec, Rc, mc, -⟩ := ih p.2 hm (by rw [hchm]; exact hr.child hc)
            (by have := hr i (.here _) p.2 hc; omega)
            (by
              intro j hj
              rw [hchm] at hj
              obtain ⟨a1, al, a2, a3⟩ := hgood j (.step hc hj)
              refine ⟨by rw [static_isObserved (hstm j)]; exact a1,
                by rw [static_luminosity (hstm j)]; exact al,
                by rw [static_selector (hstm j)]; exact a2, ?_⟩
              intro c hcc
              rw [hchm] at hcc
              rw [static_isSecondary (hstm c)]; exact a3 c hcc)
            ⟨sp, by rw [hhm, modSampler_same], hS⟩ hmR
          have fr := samplerDraw_fr w n k p.2 hm
          rw [ec] at fr
          obtain ⟨hb, eb, sb, spb, gb, db, Rb⟩ := iht hc' (fun q hq => hsub q (by simp [hq]))
            (fun j => (fr.static j).trans (hstm j))
            (by
              show (hc'.samplers i).spatial = some sp
              have hni : ¬ Reach hm.children p.2 i := by
                rw [hchm]; exact hr.acyclic i (.here _) p.2 hc
              have := fr.off i hni
              simp only [endState] at this
              rw [this, hhm, modSampler_samplers]
              split
              · rfl
              · exact hasp) Rc
          have grow : ∀ j, ha.sampled j = true → hc'.sampled j = true := by
            intro j hj
            apply fr.grow j
            show hm.sampled j = true
            rw [hhm]
            simp only [Heap.sampled, modSampler_samplers]
            split <;> exact hj
          have all : ∀ q ∈ p :: todo, hb.sampled q.2 = true := by
            intro q hq
            rcases List.mem_cons.1 hq with rfl | hq
            · exact gb _ mc
            · exact db q hq
          refine ⟨hb, ?_, sb, spb, fun j hj => gb j (grow j hj), all, Rb⟩
          rw [forEach_cons]
          have : (do prepSecondary i p.2; samplerDraw w k p.2 n) ha = .ok () hc' := by
            rw [bind_of_ok hprep]; exact ec
          rw [bind_of_ok this]
          exact eb
      obtain ⟨h2, r2, st2, sp2, -, d2, R2⟩ := loop _ h1 (fun _ h => h) (fun j => by rw [hs1])
        (by rw [hs1]; exact hsp) R1
      rw [bind_of_ok r2]
      have hni : i ∉ h.children i := fun hm => by
        have := hr i (.here _) i hm; omega
      have hch2 : h2.children i = h.children i := by
        simp only [Heap.children, static_secondaries (st2 i)]
      rw [hsp, ← sp2]
      refine finishDraw_returns (S := S) (L := L i)
        (by rw [static_isObserved (st2 i)]; exact g1) ⟨⟨sp, sp2, hS⟩, ?_, ?_⟩
        (by rw [hch2]; exact hni) (by rw [static_selector (st2 i)]; exact g2) R2
      · show L i (h2.samplers i).luminosity
        rw [static_luminosity (st2 i)]
        exact gl
      · intro p hp
        obtain ⟨q, hq, rfl⟩ := List.mem_map.1 hp
        rw [static_secondaries (st2 i)] at hq
        obtain ⟨a1, a2, -⟩ := R2.done q.2 (d2 q hq)
        obtain ⟨t, ht, htl⟩ := lenIs_some a1
        obtain ⟨o, ho, hol⟩ := lenIs_some a2
        exact ⟨t, o, by simp only [ht, ho], htl, hol⟩

end

/-! ### Collecting -/

namespace Dict
theorem get?_foldl_set {α : Type} (b a : Dict α) (nm : String) (hb : (keys b).Nodup) :
    get? (b.foldl (fun acc p => set acc p.1 p.2) a) nm = (get? b nm).or (get? a nm) := by
  induction b generalizing a with
  | nil => simp
  | cons p t ih =>
    simp only [keys, List.map_cons, List.nodup_cons] at hb
    rw [List.foldl_cons, ih _ hb.2, get?_set]
    simp only [get?]
    by_cases hp : p.1 = nm
    · subst hp
      have : get? t p.1 = none := (get?_eq_none_iff t p.1).2 hb.1
      simp [this]
    · simp [hp]

theorem nodup_foldl_set {α : Type} (b a : Dict α) (ha : (keys a).Nodup) :
    (keys (b.foldl (fun acc p => set acc p.1 p.2) a)).Nodup := by
  induction b generalizing a with
  | nil => exact ha
  | cons p t ih => exact ih _ (nodup_keys_set _ _ _ ha)
end Dict

theorem Storage.isEmpty_of_nonempty_keys {st : Storage F} (h : ∀ k ∈ Dict.keys st, k ≠ "")
    (he : Storage.isEmpty st = true) : st = [] := by
  cases st with
  | nil => rfl
  | cons p t =>
    simp only [Storage.isEmpty, List.all_cons, Bool.and_eq_true, beq_iff_eq] at he
    exact absurd he.1 (h p.1 (by simp [Dict.keys]))

section
variable [OfNat F 1]

theorem Spec.Reports.keys_ne {h : Heap F G} {S : Nat → Prop} {st : Storage F}
    (r : Reports h S st) (hne : ∀ j, S j → (h.samplers j).name ≠ "") :
    ∀ k ∈ Dict.keys st, k ≠ "" := by
  intro k hk
  rw [← Dict.get?_isSome_iff] at hk
  obtain ⟨c, hc⟩ := Option.isSome_iff_exists.1 hk
  obtain ⟨j, hj, rfl, -⟩ := (r.iff k c).1 hc
  exact hne j hj

theorem Storage.add_reports {h : Heap F G} {S T : Nat → Prop} {a b : Storage F}
    (ra : Reports h S a) (rb : Reports h T b)
    (hne : ∀ j, S j ∨ T j → (h.samplers j).name ≠ "")
    (hinj : ∀ i j, (S i ∨ T i) → (S j ∨ T j) → (h.samplers i).name = (h.samplers j).name → i = j) :
    Reports h (fun j => S j ∨ T j) (Storage.add a b) := by
  have hget : ∀ nm, Dict.get? (Storage.add a b) nm = (Dict.get? b nm).or (Dict.get? a nm) := by
    intro nm
    unfold Storage.add
    split
    · rename_i he
      rw [Storage.isEmpty_of_nonempty_keys (ra.keys_ne fun j hj => hne j (.inl hj)) he]
      simp
    · split
      · rename_i he
        rw [Storage.isEmpty_of_nonempty_keys (rb.keys_ne fun j hj => hne j (.inr hj)) he]
        simp
      · exact Dict.get?_foldl_set b a nm rb.nodup
  constructor
  · unfold Storage.add
    split
    · exact rb.nodup
    · split
      · exact ra.nodup
      · exact Dict.nodup_foldl_set b a ra.nodup
  · intro nm c
    rw [hget]
    constructor
    · intro hc
      cases hb : Dict.get? b nm with
      | some c' =>
        rw [hb] at hc
        simp only [Option.some_or, Option.some.injEq] at hc
        subst hc
        obtain ⟨j, hj, h1, h2⟩ := (rb.iff nm c').1 hb
        exact ⟨j, .inr hj, h1, h2⟩
      | none =>
        rw [hb] at hc
        simp only [Option.none_or] at hc
        obtain ⟨j, hj, h1, h2⟩ := (ra.iff nm c).1 hc
        exact ⟨j, .inl hj, h1, h2⟩
    · rintro ⟨j, hj, rfl, rfl⟩
      cases hb : Dict.get? b (h.samplers j).name with
      | some c' =>
        simp only [Option.some_or, Option.some.injEq]
        obtain ⟨i, hi, h1, h2⟩ := (rb.iff _ c').1 hb
        rw [h2, hinj i j (.inr hi) hj h1]
      | none =>
        simp only [Option.none_or]
        rcases hj with hj | hj
        · exact (ra.iff _ _).2 ⟨j, hj, rfl, rfl⟩
        · have := (rb.iff (h.samplers j).name (Spec.report h j)).2 ⟨j, hj, rfl, rfl⟩
          rw [hb] at this; cases this

theorem Spec.Reports.congr {h : Heap F G} {S T : Nat → Prop} {a : Storage F}
    (ra : Reports h S a) (hST : ∀ j, S j ↔ T j) : Reports h T a :=
  ⟨ra.nodup, fun nm c => by
    rw [ra.iff]
    constructor
    · rintro ⟨j, hj, r⟩; exact ⟨j, (hST j).1 hj, r⟩
    · rintro ⟨j, hj, r⟩; exact ⟨j, (hST j).2 hj, r⟩⟩

theorem reports_nil (h : Heap F G) : Reports h (fun _ => False) ([] : Storage F) :=
  ⟨List.nodup_nil, fun nm c => by simp⟩

theorem Storage.set_reports {h : Heap F G} {S : Nat → Prop} {a : Storage F}
    (ra : Reports h S a) (i : Nat)
    (hinj : ∀ j, S j → (h.samplers i).name = (h.samplers j).name → i = j) :
    Reports h (fun j => S j ∨ j = i) (Dict.set a (h.samplers i).name (Spec.report h i)) := by
  refine ⟨Dict.nodup_keys_set _ _ _ ra.nodup, ?_⟩
  intro nm c
  rw [Dict.get?_set]
  constructor
  · intro hc
    split at hc
    · rename_i he; simp only [Option.some.injEq] at hc
      exact ⟨i, .inr rfl, he, hc.symm⟩
    · obtain ⟨j, hj, h1, h2⟩ := (ra.iff nm c).1 hc
      exact ⟨j, .inl hj, h1, h2⟩
  · rintro ⟨j, hj, rfl, rfl⟩
    split
    · rename_i he
      rcases hj with hj | rfl
      · rw [hinj j hj he]
      · rfl
    · rename_i he
      rcases hj with hj | rfl
      · exact (ra.iff _ _).2 ⟨j, hj, rfl, rfl⟩
      · exact absurd rfl he

theorem foldlM_except_cons {α β ε : Type} (f : β → α → Except ε β) (b : β) (x : α) (xs : List α) :
    (x :: xs).foldlM f b = (f b x >>= fun b' => xs.foldlM f b') := by
  simp [List.foldlM_cons]

theorem secProps_reports (h : Heap F G)
    (hwired : ∀ j, (h.samplers j).hasSecondary = false → (h.samplers j).secondaries = []) :
    ∀ (k i : Nat) (st : Storage F),
      (∀ j, Reach h.children i j → (h.samplers j).name ≠ "") →
      (∀ a b, Reach h.children i a → Reach h.children i b →
        (h.samplers a).name = (h.samplers b).name → a = b) →
      secProps h k i = .ok st → Reports h (Reach h.children i) st := by
  intro k
  induction k with
  | zero => intro i st _ _ hk; simp [secProps] at hk
  | succ k ih =>
    intro i st hne hinj hk
    rw [secProps] at hk
    have hloop : ∃ acc, (h.samplers i).secondaries.foldlM (fun acc p => do
          let r ← secProps h k p.2
          pure (Storage.add acc r)) ([] : Storage F) = .ok acc ∧
        st = Dict.set acc (h.samplers i).name (Spec.report h i) := by
      cases hh : (h.samplers i).hasSecondary with
      | true =>
        simp only [hh, if_true] at hk
        cases ha : (h.samplers i).secondaries.foldlM (fun acc p => do
          let r ← secProps h k p.2
          pure (Storage.add acc r)) ([] : Storage F) with
        | error e => rw [ha] at hk; cases hk
        | ok acc => rw [ha] at hk; cases hk; exact ⟨acc, rfl, rfl⟩
      | false =>
        simp only [hh, Bool.false_eq_true, if_false] at hk
        rw [hwired i hh]
        cases hk
        exact ⟨[], rfl, rfl⟩
    obtain ⟨acc, hacc, rfl⟩ := hloop
    have loop : ∀ (todo : Dict Nat) (S : Nat → Prop) (a b : Storage F),
        (∀ p ∈ todo, p ∈ (h.samplers i).secondaries) →
        (∀ j, S j → Reach h.children i j) → Reports h S a →
        todo.foldlM (fun acc p => do
          let r ← secProps h k p.2
          pure (Storage.add acc r)) a = .ok b →
        Reports h (fun j => S j ∨ ∃ p ∈ todo, Reach h.children p.2 j) b := by
      intro todo
      induction todo with
      | nil =>
        intro S a b _ _ ra e
        cases e
        exact ra.congr fun j => by simp
      | cons p todo iht =>
        intro S a b hsub hS ra e
        rw [foldlM_except_cons] at e
        cases hr : secProps h k p.2 with
        | error e' => rw [hr] at e; cases e
        | ok r =>
          rw [hr] at e
          have e' : todo.foldlM (fun acc p => do
            let r ← secProps h k p.2
            pure (Storage.add acc r)) (Storage.add a r) = .ok b := e
          have hc : p.2 ∈ h.children i := List.mem_map.2 ⟨p, hsub p (by simp), rfl⟩
          have rr := ih p.2 r (fun j hj => hne j (.step hc hj))
            (fun a b ha hb => hinj a b (.step hc ha) (.step hc hb)) hr
          have hin : ∀ j, S j ∨ Reach h.children p.2 j → Reach h.children i j := by
            rintro j (hj | hj)
            · exact hS j hj
            · exact .step hc hj
          have := iht _ _ b (fun q hq => hsub q (by simp [hq])) hin
            (Storage.add_reports ra rr (fun j hj => hne j (hin j hj))
              (fun x y hx hy => hinj x y (hin x hx) (hin y hy))) e'
          refine this.congr fun j => ?_
          simp only [List.mem_cons, exists_eq_or_imp, or_assoc]
    have racc := loop _ _ _ acc (fun _ h => h) (fun j hj => absurd hj id) (reports_nil h) hacc
    refine (Storage.set_reports racc i ?_).congr ?_
    · intro j hj he
      rcases hj with hj | ⟨p, hp, hj⟩
      · exact absurd hj id
      · exact hinj i j (.here _) (.step (List.mem_map.2 ⟨p, hp, rfl⟩) hj) he
    · intro j
      constructor
      · rintro ((hj | ⟨p, hp, hj⟩) | rfl)
        · exact absurd hj id
        · exact .step (List.mem_map.2 ⟨p, hp, rfl⟩) hj
        · exact .here _
      · intro hj
        cases hj with
        | here => exact .inr rfl
        | step hc hr =>
          obtain ⟨p, hp, rfl⟩ := List.mem_map.1 hc
          exact .inl (.inr ⟨p, hp, hr⟩)

theorem secProps_returns (h : Heap F G) (r : Nat → Nat) :
    ∀ (k i : Nat), Ranked h.children r i → r i < k → ∃ st, secProps h k i = .ok st := by
  intro k
  induction k with
  | zero => intro i _ hk; omega
  | succ k ih =>
    intro i hr hk
    rw [secProps]
    have loop : ∀ (todo : Dict Nat) (a : Storage F),
        (∀ p ∈ todo, p ∈ (h.samplers i).secondaries) →
        ∃ b, todo.foldlM (fun acc p => do
          let r ← secProps h k p.2
          pure (Storage.add acc r)) a = .ok b := by
      intro todo
      induction todo with
      | nil => intro a _; exact ⟨a, rfl⟩
      | cons p todo iht =>
        intro a hsub
        have hc : p.2 ∈ h.children i := List.mem_map.2 ⟨p, hsub p (by simp), rfl⟩
        obtain ⟨st, hst⟩ := ih p.2 (hr.child hc) (by have := hr i (.here _) p.2 hc; omega)
        obtain ⟨b, hb⟩ := iht (Storage.add a st) (fun q hq => hsub q (by simp [hq]))
        refine ⟨b, ?_⟩
        rw [foldlM_except_cons, hst]
        exact hb
    obtain ⟨b, hb⟩ := loop _ [] (fun _ h => h)
    cases hh : (h.samplers i).hasSecondary with
    | true => simp only [if_true, hb]; exact ⟨_, rfl⟩
    | false => simp only [Bool.false_eq_true, if_false]; exact ⟨_, rfl⟩

end
end Popsynth
